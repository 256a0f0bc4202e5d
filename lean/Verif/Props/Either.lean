import Verif.Props.Operators
import Verif.Lemmas.Slots
import Verif.Model.Parser

/-
C57: the operator `|` on patterns with groups.
-/
namespace Ctre

/-- The result `c` reports what `d` reports: the same match and, for the groups of `r`, the same texts; groups with other numbers
did not capture. -/
structure ReportsAs (r : Re) (c d : Caps) : Prop where
  whole : c.whole = d.whole
  groups : ∀ i ∈ groupIds r.captures, c.get i = d.get i
  others : ∀ i, i ≠ 0 → i ∉ groupIds r.captures → ∀ sl, c.get i = some sl → sl.matched = false

/-- The groups of the pattern can be used by their numbers only: all of them are groups of the result, with positive numbers, and no
back reference is by name. -/
def Re.byNumber (r : Re) : Bool := r.numbersIn (groupIds r.captures) && !(groupIds r.captures).contains 0

theorem unset_select {i : Nat} : ∀ {gs : List Group}, (∀ g ∈ gs, g.slot = {}) → i ∈ groupIds gs → selectId i gs = some {}
  | g :: gs, h, hi => by
    simp only [selectId]
    split
    · rw [h g (by simp)]
    · rename_i hne
      refine unset_select (fun g' hg => h g' (by simp [hg])) ?_
      simp only [groupIds, List.map_cons, List.mem_cons] at hi ⊢
      exact hi.resolve_left (fun e => hne e.symm)

theorem or_groups (a b : Re) : groupIds (orPattern a b).captures = groupIds a.captures ++ groupIds b.captures := by
  simp [orPattern, Re.captures, capturesList, groupIds]

theorem same_start {r r' : Re} (hn : r.byNumber = true) (hs : ∀ i ∈ groupIds r.captures, i ∈ groupIds r'.captures) (p : Nat) :
    SameSlots (groupIds r.captures) (fun i => selectId i r'.captures) ((initCaps r').setStart p) ((initCaps r).setStart p) where
  whole := rfl
  positive := by
    simp only [Re.byNumber, Bool.and_eq_true, Bool.not_eq_true'] at hn
    intro h
    rw [List.contains_iff_mem.2 h] at hn
    exact absurd hn.2 (by simp)
  slots := fun i hi => ⟨{}, unset_select (captures_unset r') (hs i hi), unset_select (captures_unset r) hi⟩
  others := fun _ _ => rfl

theorem reportsAs_of {r r' : Re} {c d : Caps}
    (h : SameSlots (groupIds r.captures) (fun i => selectId i r'.captures) c d) : ReportsAs r c d where
  whole := h.whole
  groups := fun i hi => h.get hi
  others := fun i h0 hi sl hsl => by
    rw [Caps.get, if_neg h0, h.others i hi] at hsl
    rw [selectId_unset (captures_unset r') i sl hsl]

section
variable {C : Cfg} {s : List Ch} {f : Flags} {a b : Re} {p : Nat}

/-- A run of `r` with the captures of `r'` goes as with its own. -/
theorem run_among {r r' : Re} (hn : r.byNumber = true) (hs : ∀ i ∈ groupIds r.captures, i ∈ groupIds r'.captures) {t : Stack}
    (ht : ∀ I, stackIn I t = true) {o : Out} (h : Runs C s false p f ((initCaps r').setStart p) (.re r :: t) o) :
    ∃ o', o.Same (groupIds r.captures) (fun i => selectId i r'.captures) o' ∧
      Runs C s false p f (initCaps r) (.startMark :: .re r :: t) o' := by
  obtain ⟨h1, n, h2⟩ := h
  have hst : stackIn (groupIds r.captures) (.re r :: t) = true := by
    simp only [Re.byNumber, Bool.and_eq_true] at hn
    simp only [stackIn, List.all_cons, Item.numbersIn, hn.1, Bool.true_and]
    exact ht _
  have := eval_slots C n s false p f _ (same_start hn hs p) hst
  rw [h2] at this
  refine ⟨_, this, ?_, n + 1, rfl⟩
  intro e
  rw [e] at this
  cases o <;> first | exact this | exact h1 rfl

theorem either_attempt (hna : a.byNumber = true) (hnb : b.byNumber = true) {t : Stack} (ht : ∀ I, stackIn I t = true) {o : Out}
    (hr : Runs C s false p f (initCaps (orPattern a b)) (.startMark :: .re (orPattern a b) :: t) o) :
    (o ≠ .fail ∧ ∃ o', o.Same (groupIds a.captures) (fun i => selectId i (orPattern a b).captures) o' ∧
      Runs C s false p f (initCaps a) (.startMark :: .re a :: t) o') ∨
    (Runs C s false p f (initCaps a) (.startMark :: .re a :: t) .fail ∧
      ∃ o', o.Same (groupIds b.captures) (fun i => selectId i (orPattern a b).captures) o' ∧
        Runs C s false p f (initCaps b) (.startMark :: .re b :: t) o') := by
  have st : Runs C s false p f (initCaps (orPattern a b)) (.startMark :: .re (orPattern a b) :: t) o ↔
      Runs C s false p f ((initCaps (orPattern a b)).setStart p) (.re (orPattern a b) :: t) o := runs_of_step fun _ => rfl
  have sa : ∀ i ∈ groupIds a.captures, i ∈ groupIds (orPattern a b).captures := by
    intro i hi; rw [or_groups]; simp [hi]
  have sb : ∀ i ∈ groupIds b.captures, i ∈ groupIds (orPattern a b).captures := by
    intro i hi; rw [or_groups]; simp [hi]
  rw [st] at hr
  have key : (initCaps (orPattern a b)).setStart p = (initCaps (.sel [a, b])).setStart p := rfl
  rw [orPattern, C10_alternation_ordered] at hr
  rcases hr with ⟨h1, h2⟩ | ⟨h1, h2⟩
  · exact .inl ⟨h2, run_among hna sa ht h1⟩
  · obtain ⟨o', g1, g2⟩ := run_among (r' := orPattern a b) hna sa ht h1
    refine .inr ⟨?_, run_among hnb sb ht h2⟩
    cases o' <;> first | exact g1.elim | exact g2

/-- What the result of `a|b` is, given those of `a` and `b` at the same place. -/
theorem either_toExec {o oa ob : Out} {ca cb c : Caps} (h1 : oa.toExec a = .done ca) (h2 : ob.toExec b = .done cb)
    (h : o.toExec (orPattern a b) = .done c) (hma : ∀ x, oa = .ok x → x.whole.matched = true) (hmb : ∀ x, ob = .ok x → x.whole.matched = true)
    (hor : (o ≠ .fail ∧ o.Same (groupIds a.captures) (fun i => selectId i (orPattern a b).captures) oa) ∨
      (oa = .fail ∧ o.Same (groupIds b.captures) (fun i => selectId i (orPattern a b).captures) ob)) :
    (ca.whole.matched = true → ReportsAs a c ca) ∧ (ca.whole.matched = false → cb.whole.matched = true → ReportsAs b c cb) ∧
    (ca.whole.matched = false → cb.whole.matched = false → c.whole.matched = false) := by
  rcases hor with ⟨h3, h4⟩ | ⟨rfl, h4⟩
  · cases o <;> cases oa <;> first | exact h4.elim | (simp only [Out.toExec, reduceCtorEq] at h1; done) | skip
    case fail.fail => exact (h3 rfl).elim
    case ok.ok x y =>
      simp only [Out.toExec, Exec.done.injEq] at h1 h
      subst h1 h
      refine ⟨fun _ => reportsAs_of h4, fun e => ?_, fun e => ?_⟩ <;> rw [hma _ rfl] at e <;> cases e
  · simp only [Out.toExec, Exec.done.injEq] at h1
    subst h1
    refine ⟨fun e => by simp [initCaps] at e, fun _ e => ?_, fun _ e => ?_⟩
    · cases ob <;> simp only [Out.toExec, Exec.done.injEq, reduceCtorEq] at h2
      case fail => subst h2; simp [initCaps] at e
      case ok y =>
        subst h2
        cases o <;> first | exact h4.elim | skip
        simp only [Out.toExec, Exec.done.injEq] at h
        subst h
        exact reportsAs_of h4
    · cases ob <;> simp only [Out.toExec, Exec.done.injEq, reduceCtorEq] at h2
      case fail =>
        cases o <;> first | exact h4.elim | skip
        simp only [Out.toExec, Exec.done.injEq] at h
        subst h
        rfl
      case ok y => subst h2; rw [hmb _ rfl] at e; cases e

/-- C57 with groups: `starts_with` of `a|b` reports what `a` reports if that matches, the texts of its groups included, otherwise what
`b` reports; a group of the pattern that is not reported did not capture. -/
theorem C57_or_groups_starts_with (hna : a.byNumber = true) (hnb : b.byNumber = true) (na : a.Numbered) (nb : b.Numbered) (hp : p ≤ s.length)
    {n n1 n2 : Nat} {c ca cb : Caps} (h1 : startsWithAt C n1 s f a p = .done ca) (h2 : startsWithAt C n2 s f b p = .done cb)
    (h : startsWithAt C n s f (orPattern a b) p = .done c) :
    (ca.whole.matched = true → ReportsAs a c ca) ∧ (ca.whole.matched = false → cb.whole.matched = true → ReportsAs b c cb) ∧
    (ca.whole.matched = false → cb.whole.matched = false → c.whole.matched = false) := by
  unfold startsWithAt at h1 h2 h
  have e1 : attempt C n1 s f a p ≠ .timeout := by intro e; rw [e] at h1; cases h1
  have e2 : attempt C n2 s f b p ≠ .timeout := by intro e; rw [e] at h2; cases h2
  have e : attempt C n s f (orPattern a b) p ≠ .timeout := by intro e; rw [e] at h; cases h
  refine either_toExec h1 h2 h (fun x hx => attempt_matched na hp hx) (fun x hx => attempt_matched nb hp hx) ?_
  rcases either_attempt hna hnb (t := [.endMark, .accept]) (fun _ => rfl)
    (⟨e, n, rfl⟩ : Runs C s false p f (initCaps (orPattern a b)) _ (attempt C n s f (orPattern a b) p)) with ⟨h3, o', h4, h5⟩ | ⟨h3, o', h4, h5⟩
  · exact .inl ⟨h3, by rw [Runs.det ⟨e1, n1, rfl⟩ h5]; exact h4⟩
  · exact .inr ⟨Runs.det ⟨e1, n1, rfl⟩ h3, by rw [Runs.det ⟨e2, n2, rfl⟩ h5]; exact h4⟩

/-- C57 with groups: the same for `match`. -/
theorem C57_or_groups_match (hna : a.byNumber = true) (hnb : b.byNumber = true) (na : a.Numbered) (nb : b.Numbered) (hp : p ≤ s.length)
    {n n1 n2 : Nat} {c ca cb : Caps} (h1 : matchAt C n1 s f a p = .done ca) (h2 : matchAt C n2 s f b p = .done cb)
    (h : matchAt C n s f (orPattern a b) p = .done c) :
    (ca.whole.matched = true → ReportsAs a c ca) ∧ (ca.whole.matched = false → cb.whole.matched = true → ReportsAs b c cb) ∧
    (ca.whole.matched = false → cb.whole.matched = false → c.whole.matched = false) := by
  unfold matchAt at h1 h2 h
  have e1 : attemptFull C n1 s f a p ≠ .timeout := by intro e; rw [e] at h1; cases h1
  have e2 : attemptFull C n2 s f b p ≠ .timeout := by intro e; rw [e] at h2; cases h2
  have e : attemptFull C n s f (orPattern a b) p ≠ .timeout := by intro e; rw [e] at h; cases h
  refine either_toExec h1 h2 h (fun x hx => attemptFull_matched na hp hx) (fun x hx => attemptFull_matched nb hp hx) ?_
  rcases either_attempt hna hnb (t := [.re .sEnd, .endMark, .accept]) (fun _ => rfl)
    (⟨e, n, rfl⟩ : Runs C s false p f (initCaps (orPattern a b)) _ (attemptFull C n s f (orPattern a b) p)) with ⟨h3, o', h4, h5⟩ | ⟨h3, o', h4, h5⟩
  · exact .inl ⟨h3, by rw [Runs.det ⟨e1, n1, rfl⟩ h5]; exact h4⟩
  · exact .inr ⟨Runs.det ⟨e1, n1, rfl⟩ h3, by rw [Runs.det ⟨e2, n2, rfl⟩ h5]; exact h4⟩

/-- An attempt to match at a position, with the outcome. -/
abbrev AttemptRuns (C : Cfg) (s : List Ch) (f : Flags) (r : Re) (i : Nat) (o : Out) : Prop :=
  Runs C s false i f (initCaps r) [.startMark, .re r, .endMark, .accept] o

theorem attemptRuns_first {r : Re} {k : Nat} {x : Caps} (hp : p ≤ s.length)
    (hr : ∀ n i y, i ≤ s.length → attempt C n s f r i = .ok y → y.whole.matched = true ∧ y.whole.b = some i)
    (hx : searchLoop C k s f r (s.length - p) p = .done x) :
    (x.whole.matched = true ∧ ∃ j, p ≤ j ∧ j ≤ s.length ∧ x.whole.b = some j ∧ AttemptRuns C s f r j (.ok x) ∧
      ∀ i, p ≤ i → i < j → AttemptRuns C s f r i .fail) ∨
    (x.whole.matched = false ∧ ∀ i, p ≤ i → i ≤ s.length → AttemptRuns C s f r i .fail) := by
  cases hm : x.whole.matched with
  | true =>
    obtain ⟨j, hj, g1, g2⟩ := searchLoop_ok hx hm
    refine .inl ⟨rfl, p + j, by omega, by omega, (hr _ _ _ (by omega) g1).2, ⟨by simp, _, g1⟩, fun i hi hij => ?_⟩
    have := g2 (i - p) (by omega)
    rw [show p + (i - p) = i by omega] at this
    exact ⟨by simp, _, this⟩
  | false =>
    obtain ⟨g1, g2⟩ := searchLoop_fail hx hm fun j c' _ h2 ho => (hr _ _ _ (by omega) ho).1
    refine .inr ⟨rfl, fun i hi hij => ?_⟩
    have := g2 (i - p) (by omega)
    rw [show p + (i - p) = i by omega] at this
    exact ⟨by simp, _, this⟩

/-- C57 with groups: `search` of `a|b` reports what the pattern reports that matches first, `a` if both match at the same position. -/
theorem C57_or_groups_search (hna : a.byNumber = true) (hnb : b.byNumber = true) (na : a.Numbered) (nb : b.Numbered)
    (haa : startsWithAnchor f a = false) (hba : startsWithAnchor f b = false) (hp : p ≤ s.length)
    {n n1 n2 : Nat} {c ca cb : Caps} (h1 : searchAt C n1 s f a p = .done ca) (h2 : searchAt C n2 s f b p = .done cb)
    (h : searchAt C n s f (orPattern a b) p = .done c) :
    (ca.whole.matched = true → (cb.whole.matched = true → ∃ x y, ca.whole.b = some x ∧ cb.whole.b = some y ∧ x ≤ y) → ReportsAs a c ca) ∧
    (cb.whole.matched = true → (ca.whole.matched = true → ∃ x y, ca.whole.b = some x ∧ cb.whole.b = some y ∧ y < x) → ReportsAs b c cb) ∧
    (ca.whole.matched = false → cb.whole.matched = false → c.whole.matched = false) := by
  have hoa : startsWithAnchor f (orPattern a b) = false := by
    simp only [startsWithAnchor] at haa
    simp [startsWithAnchor, orPattern, anchorRe, anchorSel, haa]
  unfold searchAt at h1 h2 h
  rw [haa] at h1
  rw [hba] at h2
  rw [hoa] at h
  simp only [Bool.false_eq_true, if_false] at h1 h2 h
  have good : ∀ {r : Re}, r.Numbered → ∀ n i y, i ≤ s.length → attempt C n s f r i = .ok y → y.whole.matched = true ∧ y.whole.b = some i :=
    fun hr n i y hi hy => ⟨attempt_matched hr hi hy, ((attempt_safe C hr hi).2 _ hy).2⟩
  have good' : ∀ {r : Re}, r.Numbered → ∀ {i y}, i ≤ s.length → AttemptRuns C s f r i (.ok y) → y.whole.matched = true ∧ y.whole.b = some i :=
    fun hr i y hi hy => by obtain ⟨_, k, hk⟩ := hy; exact good hr k i y hi hk
  have split : ∀ {i : Nat} {o : Out}, AttemptRuns C s f (orPattern a b) i o → _ :=
    fun {i o} hr => either_attempt (p := i) hna hnb (t := [.endMark, .accept]) (fun _ => rfl) hr
  have goodo : ∀ n i y, i ≤ s.length → attempt C n s f (orPattern a b) i = .ok y → y.whole.matched = true ∧ y.whole.b = some i := by
    intro n i y hi hy
    rcases split ⟨by simp, n, hy⟩ with ⟨_, o', g1, g2⟩ | ⟨_, o', g1, g2⟩
    · cases o' <;> first | exact g1.elim | skip
      rw [SameSlots.whole g1]; exact good' na hi g2
    · cases o' <;> first | exact g1.elim | skip
      rw [SameSlots.whole g1]; exact good' nb hi g2
  have fails : ∀ {i : Nat}, AttemptRuns C s f (orPattern a b) i .fail → AttemptRuns C s f a i .fail ∧ AttemptRuns C s f b i .fail := by
    intro i hi
    rcases split hi with ⟨g, _⟩ | ⟨g, o', g1, g2⟩
    · exact (g rfl).elim
    · cases o' <;> first | exact g1.elim | exact ⟨g, g2⟩
  have ne : ∀ {r : Re} {i : Nat} {x : Caps}, AttemptRuns C s f r i (.ok x) → AttemptRuns C s f r i .fail → False := by
    intro r i x g1 g2
    have := g1.det g2
    cases this
  rcases attemptRuns_first hp goodo h with ⟨hm, j, hj1, hj2, hjb, hj3, hj4⟩ | ⟨hm, hall⟩
  · rcases split hj3 with ⟨_, o', g0, g⟩ | ⟨g1, o', g0, g⟩
    · -- `a` matches at `j`
      cases o' <;> first | exact g0.elim | skip
      rename_i y
      have hy : y = ca := by
        rcases attemptRuns_first hp (good na) h1 with ⟨_, i, i1, i2, i3, i4, i5⟩ | ⟨_, hall⟩
        · have : i = j := by
            rcases Nat.lt_trichotomy i j with hlt | heq | hgt
            · exact (ne i4 (fails (hj4 i i1 hlt)).1).elim
            · exact heq
            · exact (ne g (i5 j hj1 hgt)).elim
          subst this
          have := g.det i4
          simpa using this
        · exact (ne g (hall j hj1 hj2)).elim
      subst hy
      have hma : y.whole.matched = true := by rw [← SameSlots.whole g0]; exact hm
      have hyb : y.whole.b = some j := by rw [← SameSlots.whole g0]; exact hjb
      refine ⟨fun _ _ => reportsAs_of g0, fun hmb hlt => ?_, fun e _ => by rw [hma] at e; cases e⟩
      exfalso
      obtain ⟨x, z, k1, k2, k3⟩ := hlt hma
      rw [hyb] at k1
      cases k1
      rcases attemptRuns_first hp (good nb) h2 with ⟨_, i, i1, i2, i3, i4, i5⟩ | ⟨k, _⟩
      · rw [i3, Option.some.injEq] at k2
        subst k2
        exact ne i4 (fails (hj4 i i1 k3)).2
      · rw [k] at hmb; cases hmb
    · cases o' <;> first | exact g0.elim | skip
      rename_i y
      have hy : y = cb := by
        rcases attemptRuns_first hp (good nb) h2 with ⟨_, i, i1, i2, i3, i4, i5⟩ | ⟨_, hall⟩
        · have : i = j := by
            rcases Nat.lt_trichotomy i j with hlt | heq | hgt
            · exact (ne i4 (fails (hj4 i i1 hlt)).2).elim
            · exact heq
            · exact (ne g (i5 j hj1 hgt)).elim
          subst this
          have := g.det i4
          simpa using this
        · exact (ne g (hall j hj1 hj2)).elim
      subst hy
      have hmb : y.whole.matched = true := by rw [← SameSlots.whole g0]; exact hm
      have hyb : y.whole.b = some j := by rw [← SameSlots.whole g0]; exact hjb
      refine ⟨fun hma hle => ?_, fun _ _ => reportsAs_of g0, fun _ e => by rw [hmb] at e; cases e⟩
      exfalso
      obtain ⟨x, z, k1, k2, k3⟩ := hle hmb
      rw [hyb] at k2
      cases k2
      rcases attemptRuns_first hp (good na) h1 with ⟨_, i, i1, i2, i3, i4, i5⟩ | ⟨k, _⟩
      · rw [i3, Option.some.injEq] at k1
        subst k1
        rcases Nat.lt_or_eq_of_le k3 with hlt | rfl
        · exact ne i4 (fails (hj4 i i1 hlt)).1
        · exact ne i4 g1
      · rw [k] at hma; cases hma
  · refine ⟨fun hma _ => ?_, fun hmb _ => ?_, fun _ _ => hm⟩
    · rcases attemptRuns_first hp (good na) h1 with ⟨_, i, i1, i2, i3, i4, i5⟩ | ⟨k, _⟩
      · exact (ne i4 (fails (hall i i1 i2)).1).elim
      · rw [k] at hma; cases hma
    · rcases attemptRuns_first hp (good nb) h2 with ⟨_, i, i1, i2, i3, i4, i5⟩ | ⟨k, _⟩
      · exact (ne i4 (fails (hall i i1 i2)).2).elim
      · rw [k] at hmb; cases hmb
end

/-! ### Cases -/

/-- `(a)(b)` and `(c)\1`. -/
def sampleEitherA : Re := .seq [.cap 1 none [.cc (.chr 97)], .cap 2 none [.cc (.chr 98)]]
def sampleEitherB : Re := .seq [.cap 1 none [.cc (.chr 99)], .bref 1]

example : sampleEitherA.byNumber = true ∧ sampleEitherB.byNumber = true := by decide
example : sampleEitherA.Numbered ∧ sampleEitherB.Numbered := ⟨⟨by decide, by decide⟩, ⟨by decide, by decide⟩⟩
example : Parse.build {} [40, 97, 41, 40, 98, 41] = .pattern sampleEitherA ∧ Parse.build {} [40, 99, 41, 92, 49] = .pattern sampleEitherB := ⟨rfl, rfl⟩
-- `(a)(b)|(c)\1` on "cc": group 1 is "c", group 2 did not capture
example : cMatch {} 40 [99, 99] {} (orPattern sampleEitherA sampleEitherB) =
    .done { whole := ⟨some 0, some 2, true⟩, groups := [{ id := 1, slot := ⟨some 0, some 1, true⟩ }, { id := 2 }, { id := 1 }] } := by
  decide +kernel

/-- `(?<x>a)`, `(?<y>b)` and `(?<y>b)\g{y}`. -/
def sampleNamedX : Re := .cap 1 (some [120]) [.cc (.chr 97)]
def sampleNamedY : Re := .cap 1 (some [121]) [.cc (.chr 98)]
def sampleNamedZ : Re := .seq [.cap 1 (some [121]) [.cc (.chr 98)], .brefName [121]]

example : Parse.build {} [40, 63, 60, 120, 62, 97, 41] = .pattern sampleNamedX ∧
    Parse.build {} [40, 63, 60, 121, 62, 98, 41] = .pattern sampleNamedY ∧
    Parse.build {} [40, 63, 60, 121, 62, 98, 41, 92, 103, 123, 121, 125] = .pattern sampleNamedZ := ⟨rfl, rfl, rfl⟩

/-- By name it is false: `(?<x>a) | (?<y>b)` on "b" reports "b" as the group `x` and nothing as the group `y`, and
`(?<x>a) | (?<y>b)\g{y}` does not match "bb", which `(?<y>b)\g{y}` matches: the text of the group is stored in the group `x` and looked
for in the group `y`. -/
theorem C57_fails_names :
    (∃ c, cMatch {} 40 [98] {} (orPattern sampleNamedX sampleNamedY) = .done c ∧ c.whole.matched = true ∧
      c.getName [120] = some ⟨some 0, some 1, true⟩ ∧ c.getName [121] = some {}) ∧
    (∃ c, cMatch {} 40 [98, 98] {} sampleNamedZ = .done c ∧ c.whole.matched = true) ∧
    (∃ c, cMatch {} 40 [98, 98] {} (orPattern sampleNamedX sampleNamedZ) = .done c ∧ c.whole.matched = false) := by
  refine ⟨⟨{ whole := ⟨some 0, some 1, true⟩, groups := [⟨1, some [120], ⟨some 0, some 1, true⟩⟩, ⟨1, some [121], {}⟩] }, ?_⟩,
    ⟨{ whole := ⟨some 0, some 2, true⟩, groups := [⟨1, some [121], ⟨some 0, some 1, true⟩⟩] }, ?_⟩, ⟨{ groups := [⟨1, some [120], {}⟩, ⟨1, some [121], {}⟩] }, ?_⟩⟩
  all_goals decide +kernel

end Ctre
