import Verif.Model.Access
import Verif.Props.Regular
import Verif.Props.Control
/-
C57: the operators `|` and `>>` on patterns.
-/
namespace Ctre

theorem initCaps_nil {r : Re} (h : r.captures = []) : initCaps r = {} := by simp [initCaps, h]

theorem orPattern_captures {a b : Re} (ha : a.captures = []) (hb : b.captures = []) : (orPattern a b).captures = [] := by
  simp [orPattern, Re.captures, capturesList, ha, hb]

theorem orPattern_numbered {a b : Re} (ha : a.captures = []) (hb : b.captures = []) (na : a.Numbered) (nb : b.Numbered) :
    (orPattern a b).Numbered :=
  ⟨by rw [orPattern_captures ha hb]; simp [groupIds], by simp [orPattern, Re.noReopen, noReopenList, na.nested, nb.nested]⟩

section
variable {C : Cfg} {s : List Ch} {f : Flags} {a b : Re} {p : Nat}

theorem or_attempt {t : Stack} {n : Nat} {o : Out} (ha : a.captures = []) (hb : b.captures = [])
    (h : eval C n s false p f (initCaps (orPattern a b)) (.startMark :: .re (orPattern a b) :: t) = o) (ho : o ≠ .timeout) :
    (o ≠ .fail ∧ Runs C s false p f (initCaps a) (.startMark :: .re a :: t) o) ∨
    (Runs C s false p f (initCaps a) (.startMark :: .re a :: t) .fail ∧ Runs C s false p f (initCaps b) (.startMark :: .re b :: t) o) := by
  have hr : Runs C s false p f (initCaps (orPattern a b)) (.startMark :: .re (orPattern a b) :: t) o := ⟨ho, n, h⟩
  rw [initCaps_nil (orPattern_captures ha hb)] at hr
  rw [initCaps_nil ha, initCaps_nil hb]
  have st : ∀ (x : Re) (o : Out), Runs C s false p f {} (.startMark :: .re x :: t) o ↔
      Runs C s false p f (Caps.setStart {} p) (.re x :: t) o := fun _ _ => runs_of_step fun _ => rfl
  rw [st, orPattern, C10_alternation_ordered] at hr
  rw [st, st, st]
  rcases hr with ⟨h1, h2⟩ | h1
  · exact .inl ⟨h2, h1⟩
  · exact .inr h1

theorem or_toExec {o oa ob : Out} (ha : a.captures = []) (hb : b.captures = []) {ca cb c : Caps}
    (h1 : oa.toExec a = .done ca) (h2 : ob.toExec b = .done cb) (h : o.toExec (orPattern a b) = .done c)
    (hma : ∀ x, oa = .ok x → x.whole.matched = true) (hor : (o ≠ .fail ∧ oa = o) ∨ (oa = .fail ∧ ob = o)) :
    c = if ca.whole.matched then ca else cb := by
  rcases hor with ⟨h3, rfl⟩ | ⟨rfl, rfl⟩
  · cases oa with
    | fail => exact (h3 rfl).elim
    | ok x =>
      simp only [Out.toExec, Exec.done.injEq] at h1 h
      subst h1 h
      rw [if_pos (hma _ rfl)]
    | _ => simp [Out.toExec] at h1
  · simp only [Out.toExec, Exec.done.injEq] at h1
    subst h1
    simp only [initCaps, Bool.false_eq_true, if_false]
    cases ob with
    | fail =>
      simp only [Out.toExec, Exec.done.injEq] at h2 h
      rw [← h2, ← h, initCaps_nil hb, initCaps_nil (orPattern_captures ha hb)]
    | ok x =>
      simp only [Out.toExec, Exec.done.injEq] at h2 h
      rw [← h2, ← h]
    | _ => simp [Out.toExec] at h2

/-- C57: `starts_with` of `a|b` has the result of `a` if that matches, otherwise the result of `b`. -/
theorem C57_or_starts_with (ha : a.captures = []) (hb : b.captures = []) (na : a.Numbered) (hp : p ≤ s.length) {n n1 n2 : Nat} {c ca cb : Caps}
    (h1 : startsWithAt C n1 s f a p = .done ca) (h2 : startsWithAt C n2 s f b p = .done cb)
    (h : startsWithAt C n s f (orPattern a b) p = .done c) : c = if ca.whole.matched then ca else cb := by
  unfold startsWithAt at h1 h2 h
  have e1 : attempt C n1 s f a p ≠ .timeout := by intro e; rw [e] at h1; cases h1
  have e2 : attempt C n2 s f b p ≠ .timeout := by intro e; rw [e] at h2; cases h2
  have e : attempt C n s f (orPattern a b) p ≠ .timeout := by intro e; rw [e] at h; cases h
  refine or_toExec ha hb h1 h2 h (fun x hx => attempt_matched na hp hx) ?_
  rcases or_attempt ha hb (rfl : attempt C n s f (orPattern a b) p = _) e with ⟨h3, h4⟩ | ⟨h3, h4⟩
  · exact .inl ⟨h3, Runs.det ⟨e1, n1, rfl⟩ h4⟩
  · exact .inr ⟨Runs.det ⟨e1, n1, rfl⟩ h3, Runs.det ⟨e2, n2, rfl⟩ h4⟩

/-- C57: `match` of `a|b` has the result of `a` if that matches, otherwise the result of `b`. -/
theorem C57_or_match (ha : a.captures = []) (hb : b.captures = []) (na : a.Numbered) (hp : p ≤ s.length) {n n1 n2 : Nat} {c ca cb : Caps}
    (h1 : matchAt C n1 s f a p = .done ca) (h2 : matchAt C n2 s f b p = .done cb)
    (h : matchAt C n s f (orPattern a b) p = .done c) : c = if ca.whole.matched then ca else cb := by
  unfold matchAt at h1 h2 h
  have e1 : attemptFull C n1 s f a p ≠ .timeout := by intro e; rw [e] at h1; cases h1
  have e2 : attemptFull C n2 s f b p ≠ .timeout := by intro e; rw [e] at h2; cases h2
  have e : attemptFull C n s f (orPattern a b) p ≠ .timeout := by intro e; rw [e] at h; cases h
  refine or_toExec ha hb h1 h2 h (fun x hx => attemptFull_matched na hp hx) ?_
  rcases or_attempt ha hb (rfl : attemptFull C n s f (orPattern a b) p = _) e with ⟨h3, h4⟩ | ⟨h3, h4⟩
  · exact .inl ⟨h3, Runs.det ⟨e1, n1, rfl⟩ h4⟩
  · exact .inr ⟨Runs.det ⟨e1, n1, rfl⟩ h3, Runs.det ⟨e2, n2, rfl⟩ h4⟩

/-- C57: `search` of `a|b` has the result that begins first, the result of `a` if both begin at the same position. -/
theorem C57_or_search (ha : a.captures = []) (hb : b.captures = []) (na : a.Numbered) (nb : b.Numbered) (haa : startsWithAnchor f a = false)
    (hba : startsWithAnchor f b = false) (hp : p ≤ s.length) {n n1 n2 : Nat} {c ca cb : Caps}
    (h1 : searchAt C n1 s f a p = .done ca) (h2 : searchAt C n2 s f b p = .done cb)
    (h : searchAt C n s f (orPattern a b) p = .done c) :
    (ca.whole.matched = true → (cb.whole.matched = true → ∃ x y, ca.whole.b = some x ∧ cb.whole.b = some y ∧ x ≤ y) → c = ca) ∧
    (cb.whole.matched = true → (ca.whole.matched = true → ∃ x y, ca.whole.b = some x ∧ cb.whole.b = some y ∧ y < x) → c = cb) ∧
    (ca.whole.matched = false → cb.whole.matched = false → c.whole.matched = false) := by
  have hoa : startsWithAnchor f (orPattern a b) = false := by
    simp only [startsWithAnchor] at haa
    simp [startsWithAnchor, orPattern, anchorRe, anchorSel, haa]
  unfold searchAt at h1 h2 h
  rw [haa] at h1
  rw [hba] at h2
  rw [hoa] at h
  simp only [Bool.false_eq_true, if_false] at h1 h2 h
  have no := orPattern_numbered ha hb na nb
  have ok_of : ∀ {r : Re} {k : Nat} {x : Caps} {i : Nat}, attempt C k s f r i = .ok x →
      Runs C s false i f (initCaps r) [.startMark, .re r, .endMark, .accept] (.ok x) := fun h => ⟨by simp, _, h⟩
  have fail_of : ∀ {r : Re} {k : Nat} {i : Nat}, attempt C k s f r i = .fail →
      Runs C s false i f (initCaps r) [.startMark, .re r, .endMark, .accept] .fail := fun h => ⟨by simp, _, h⟩
  -- the first position at which a pattern matches
  have first : ∀ {r : Re} {k : Nat} {x : Caps}, r.Numbered → searchLoop C k s f r (s.length - p) p = .done x →
      (x.whole.matched = true ∧ ∃ j, p ≤ j ∧ j ≤ s.length ∧ x.whole.b = some j ∧
        Runs C s false j f (initCaps r) [.startMark, .re r, .endMark, .accept] (.ok x) ∧
        ∀ i, p ≤ i → i < j → Runs C s false i f (initCaps r) [.startMark, .re r, .endMark, .accept] .fail) ∨
      (x.whole.matched = false ∧ x = (initCaps r).setEnd s.length ∧
        ∀ i, p ≤ i → i ≤ s.length → Runs C s false i f (initCaps r) [.startMark, .re r, .endMark, .accept] .fail) := by
    intro r k x hr hx
    cases hm : x.whole.matched with
    | true =>
      obtain ⟨j, hj, g1, g2⟩ := searchLoop_ok hx hm
      refine .inl ⟨rfl, p + j, by omega, by omega, ((attempt_safe C hr (by omega)).2 _ g1).2, ok_of g1, fun i hi hij => ?_⟩
      have := fail_of (g2 (i - p) (by omega))
      rwa [show p + (i - p) = i by omega] at this
    | false =>
      obtain ⟨g1, g2⟩ := searchLoop_fail' hr (by omega) hx hm
      refine .inr ⟨rfl, by rw [g1, show p + (s.length - p) = s.length by omega], fun i hi hij => ?_⟩
      have := fail_of (g2 (i - p) (by omega))
      rwa [show p + (i - p) = i by omega] at this
  have split : ∀ {i : Nat} {o : Out}, Runs C s false i f (initCaps (orPattern a b)) [.startMark, .re (orPattern a b), .endMark, .accept] o →
      (o ≠ .fail ∧ Runs C s false i f (initCaps a) [.startMark, .re a, .endMark, .accept] o) ∨
      (Runs C s false i f (initCaps a) [.startMark, .re a, .endMark, .accept] .fail ∧
        Runs C s false i f (initCaps b) [.startMark, .re b, .endMark, .accept] o) := by
    rintro i o ⟨ho, k, hk⟩
    exact or_attempt ha hb hk ho
  have fails : ∀ {i : Nat}, Runs C s false i f (initCaps (orPattern a b)) [.startMark, .re (orPattern a b), .endMark, .accept] .fail →
      Runs C s false i f (initCaps a) [.startMark, .re a, .endMark, .accept] .fail ∧
      Runs C s false i f (initCaps b) [.startMark, .re b, .endMark, .accept] .fail := by
    intro i hi
    rcases split hi with ⟨g, _⟩ | g
    · exact (g rfl).elim
    · exact g
  have ne : ∀ {r : Re} {i : Nat} {x : Caps}, Runs C s false i f (initCaps r) [.startMark, .re r, .endMark, .accept] (.ok x) →
      Runs C s false i f (initCaps r) [.startMark, .re r, .endMark, .accept] .fail → False := by
    intro r i x g1 g2
    have := g1.det g2
    cases this
  rcases first no h with ⟨hm, j, hj1, hj2, hjb, hj3, hj4⟩ | ⟨hm, hx, hall⟩
  · rcases split hj3 with ⟨_, g⟩ | ⟨g1, g⟩
    · -- `a` matches at `j`
      have hca : c = ca := by
        rcases first na h1 with ⟨_, i, i1, i2, i3, i4, i5⟩ | ⟨_, _, hall⟩
        · have : i = j := by
            rcases Nat.lt_trichotomy i j with hlt | heq | hgt
            · exact (ne i4 (fails (hj4 i i1 hlt)).1).elim
            · exact heq
            · exact (ne g (i5 j hj1 hgt)).elim
          subst this
          have := g.det i4
          simpa using this
        · exact (ne g (hall j hj1 hj2)).elim
      subst hca
      refine ⟨fun _ _ => rfl, fun hmb hlt => ?_, fun hma _ => by rw [hm] at hma; cases hma⟩
      exfalso
      obtain ⟨x, y, k1, k2, k3⟩ := hlt hm
      rw [hjb] at k1
      cases k1
      rcases first nb h2 with ⟨_, i, i1, i2, i3, i4, i5⟩ | ⟨k, _, _⟩
      · rw [i3, Option.some.injEq] at k2
        subst k2
        exact ne i4 (fails (hj4 i i1 k3)).2
      · rw [k] at hmb; cases hmb
    · have hcb : c = cb := by
        rcases first nb h2 with ⟨_, i, i1, i2, i3, i4, i5⟩ | ⟨_, _, hall⟩
        · have : i = j := by
            rcases Nat.lt_trichotomy i j with hlt | heq | hgt
            · exact (ne i4 (fails (hj4 i i1 hlt)).2).elim
            · exact heq
            · exact (ne g (i5 j hj1 hgt)).elim
          subst this
          have := g.det i4
          simpa using this
        · exact (ne g (hall j hj1 hj2)).elim
      subst hcb
      refine ⟨fun hma hle => ?_, fun _ _ => rfl, fun _ hmb => by rw [hm] at hmb; cases hmb⟩
      exfalso
      obtain ⟨x, y, k1, k2, k3⟩ := hle hm
      rw [hjb] at k2
      cases k2
      rcases first na h1 with ⟨_, i, i1, i2, i3, i4, i5⟩ | ⟨k, _, _⟩
      · rw [i3, Option.some.injEq] at k1
        subst k1
        rcases Nat.lt_or_eq_of_le k3 with hlt | rfl
        · exact ne i4 (fails (hj4 i i1 hlt)).1
        · exact ne i4 g1
      · rw [k] at hma; cases hma
  · refine ⟨fun hma _ => ?_, fun hmb _ => ?_, fun _ _ => hm⟩
    · rcases first na h1 with ⟨_, i, i1, i2, i3, i4, i5⟩ | ⟨k, _, _⟩
      · exact (ne i4 (fails (hall i i1 i2)).1).elim
      · rw [k] at hma; cases hma
    · rcases first nb h2 with ⟨_, i, i1, i2, i3, i4, i5⟩ | ⟨k, _, _⟩
      · exact (ne i4 (fails (hall i i1 i2)).2).elim
      · rw [k] at hmb; cases hmb
end

/-- C57: `match` of `a >> b` succeeds exactly on the subjects that are a subject on which `match` of `a` succeeds followed by one on
which `match` of `b` succeeds. -/
theorem C57_then {C : Cfg} {f : Flags} {a b : Re} (hr : (andThen a b).WellNumbered) (hra : a.WellNumbered) (hrb : b.WellNumbered)
    (hga : a.regular = true) (hgb : b.regular = true) (hc : Complete C (andThen a b)) (hca : Complete C a) (hcb : Complete C b)
    {n : Nat} {s : List Ch} {c : Caps} (h : cMatch C n s f (andThen a b) = .done c)
    (ra : ∀ u, ∃ m x, cMatch C m u f a = .done x) (rb : ∀ u, ∃ m x, cMatch C m u f b = .done x) :
    c.whole.matched = true ↔ ∃ u v, s = u ++ v ∧ (∃ m, (cMatch C m u f a).success = true) ∧ ∃ m, (cMatch C m v f b).success = true := by
  have hg : (andThen a b).regular = true := by simp [andThen, Re.regular, regularList, hga, hgb]
  have dec : ∀ (r : Re) (u : List Ch), r.WellNumbered → r.regular = true → Complete C r → (∃ m x, cMatch C m u f r = .done x) →
      ((∃ m, (cMatch C m u f r).success = true) ↔ r.Accepts C f u) := by
    intro r u h1 h2 h3 ⟨m, x, hx⟩
    constructor
    · rintro ⟨k, hk⟩
      cases hd : cMatch C k u f r with
      | done y => rw [hd] at hk; exact (C58_match h1 h2 h3 hd).1 hk
      | _ => rw [hd] at hk; cases hk
    · intro ha
      exact ⟨m, by rw [hx]; exact (C58_match h1 h2 h3 hx).2 ha⟩
  rw [C58_match hr hg hc h]
  have hl : (andThen a b).Accepts C f s ↔ ∃ u v, s = u ++ v ∧ a.Accepts C f u ∧ b.Accepts C f v := by
    simp only [Re.Accepts, andThen, Re.lang, langProd, mul_one]
    rw [Language.mem_mul]
    constructor
    · rintro ⟨u, hu, v, hv, rfl⟩; exact ⟨u, v, rfl, hu, hv⟩
    · rintro ⟨u, v, rfl, hu, hv⟩; exact ⟨u, hu, v, hv, rfl⟩
  rw [hl]
  constructor
  · rintro ⟨u, v, h1, h2, h3⟩
    exact ⟨u, v, h1, (dec a u hra hga hca (ra u)).2 h2, (dec b v hrb hgb hcb (rb v)).2 h3⟩
  · rintro ⟨u, v, h1, h2, h3⟩
    exact ⟨u, v, h1, (dec a u hra hga hca (ra u)).1 h2, (dec b v hrb hgb hcb (rb v)).1 h3⟩

/-- C57 fails for patterns with groups: in `(a) >> (b)` both groups have the number 1, `get<1>()` of "ab" is the text of the
second group, the first group cannot be accessed; in `(a) | (b)`, too, `get<2>()` does not exist. -/
theorem C57_fails_numbering :
    cMatch {} 30 [97, 98] {} (andThen (.cap 1 none [.cc (.chr 97)]) (.cap 1 none [.cc (.chr 98)])) =
      .done { whole := ⟨some 0, some 2, true⟩, groups := [{ id := 1, slot := ⟨some 1, some 2, true⟩ }, { id := 1 }] } ∧
    (({ whole := ⟨some 0, some 2, true⟩, groups := [{ id := 1, slot := ⟨some 1, some 2, true⟩ }, { id := 1 }] } : Caps).get 2) = none ∧
    ¬ (andThen (.cap 1 none [.cc (.chr 97)]) (.cap 1 none [.cc (.chr 98)])).Numbered := by
  refine ⟨by decide +kernel, by decide +kernel, ?_⟩
  rintro ⟨h1, h2⟩
  exact absurd h1 (by decide)

/-- `ab* | a+` and `ab* >> a+`: the hypotheses hold. -/
def sampleLeft : Re := .seq [.cc (.chr 97), .rep .greedy 0 0 [.cc (.chr 98)]]
def sampleRight : Re := .rep .greedy 1 0 [.cc (.chr 97)]

example : sampleLeft.captures = [] ∧ sampleRight.captures = [] := ⟨rfl, rfl⟩
example : sampleLeft.Numbered ∧ sampleRight.Numbered := ⟨⟨by decide, by decide⟩, ⟨by decide, by decide⟩⟩
example : cStartsWith {} 40 [97, 97, 98] {} (orPattern sampleLeft sampleRight) = .done { whole := ⟨some 0, some 1, true⟩ } := by decide +kernel
example : cStartsWith {} 40 [97, 97, 98] {} (orPattern sampleRight sampleLeft) = .done { whole := ⟨some 0, some 2, true⟩ } := by decide +kernel
example : (cMatch {} 40 [97, 98, 97, 97] {} (andThen sampleLeft sampleRight)).success = true := by decide +kernel
example : Complete { greedyOpt := false } (andThen sampleLeft sampleRight) := C02_fragment rfl (by decide) (by decide)
example : (andThen sampleLeft sampleRight).WellNumbered := ⟨by decide, by decide, by decide⟩

end Ctre
