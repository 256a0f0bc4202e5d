import Verif.Lemmas.Respell
import Verif.Props.TextOrder
import Verif.Props.Results

/-
C78: different spellings of a pattern give the same results.
-/
namespace Ctre
open Parse Surface

/-- Both slots are missing, or both are not matched, or they are equal. -/
def SameSlot : Option Slot → Option Slot → Prop
  | none, none => True
  | some a, some b => a.matched = b.matched ∧ (a.matched = true → a = b)
  | _, _ => False

/-- Two results report the same: both have the same groups, both are failures or both are matches, and then the whole match and
every group are the same. -/
structure SameReport (c c' : Caps) : Prop where
  matched : c.whole.matched = c'.whole.matched
  names : c.groups.map (fun g => (g.id, g.name)) = c'.groups.map (fun g => (g.id, g.name))
  slots : c.whole.matched = true → ∀ id, SameSlot (c.get id) (c'.get id)

variable {P : PropTable} {t t' : List Nat} {r r' : Re} {b b' : Body}

theorem get_isSome {c c' : Caps} (h : shape c.groups = shape c'.groups) (id : Nat) : (c.get id).isSome = (c'.get id).isSome := by
  simp only [Caps.get]
  split
  · rfl
  · rw [Bool.eq_iff_iff, selectId_isSome, selectId_isSome, hasId_iff, hasId_iff, groupIds_shape, groupIds_shape, h]

theorem sameReport_of {c c' : Caps} {p : Nat} {τ : MState} (hs : shape c.groups = shape c'.groups) (h : c.whole.matched = true)
    (h' : c'.whole.matched = true) (hr : Reports c p τ) (hr' : Reports c' p τ) : SameReport c c' := by
  refine ⟨by rw [h, h'], hs, fun _ id => ?_⟩
  by_cases h0 : id = 0
  · subst h0
    rw [hr.whole, hr'.whole]
    exact ⟨rfl, fun _ => rfl⟩
  · have hi := get_isSome hs id
    cases e : c.get id with
    | none =>
      rw [e] at hi
      cases e' : c'.get id with
      | none => trivial
      | some _ => rw [e'] at hi; simp at hi
    | some sl =>
      rw [e] at hi
      cases e' : c'.get id with
      | none => rw [e'] at hi; simp at hi
      | some sl' =>
        have g := hr.group id sl h0 e
        have g' := hr'.group id sl' h0 e'
        cases hc : τ.cap id with
        | none =>
          rw [hc] at g g'
          simp only at g g'
          exact ⟨by rw [g, g'], fun h => by rw [g] at h; simp at h⟩
        | some x =>
          rw [hc] at g g'
          simp only at g g'
          subst g; subst g'
          exact ⟨rfl, fun _ => rfl⟩

theorem sameReport_first {c c' : Caps} {p : Nat} {L L' : List MState} (hs : shape c.groups = shape c'.groups) (h : FirstSame L L')
    (hr : ReportsFirst c p L) (hr' : ReportsFirst c' p L') : SameReport c c' := by
  have := h.head
  cases L with
  | nil =>
    cases L' with
    | nil => exact ⟨by rw [show c.whole.matched = false from hr, show c'.whole.matched = false from hr'], hs,
        fun h => by rw [show c.whole.matched = false from hr] at h; simp at h⟩
    | cons _ _ => simp at this
  | cons τ L =>
    cases L' with
    | nil => simp at this
    | cons τ' L' =>
      simp only [List.head?_cons, Option.some.injEq] at this
      subst this
      exact sameReport_of hs hr.1 hr'.1 hr.2 hr'.2

theorem shape_match {C : Cfg} {n : Nat} {s : List Ch} {f : Flags} {p : Nat} {c : Caps} (hr : r.Numbered) (hp : p ≤ s.length)
    (h : matchAt C n s f r p = .done c) : shape c.groups = shape r.captures := by
  unfold matchAt at h
  cases ho : attemptFull C n s f r p with
  | ok d =>
    rw [ho] at h
    cases h
    exact ((attemptFull_safe C hr hp).2 c ho).1.shape
  | fail => rw [ho] at h; cases h; rfl
  | timeout => rw [ho] at h; cases h
  | ub => rw [ho] at h; cases h
  | ill => rw [ho] at h; cases h

theorem shape_startsWith {C : Cfg} {n : Nat} {s : List Ch} {f : Flags} {p : Nat} {c : Caps} (hr : r.Numbered) (hp : p ≤ s.length)
    (h : startsWithAt C n s f r p = .done c) : shape c.groups = shape r.captures := by
  unfold startsWithAt at h
  cases ho : attempt C n s f r p with
  | ok d =>
    rw [ho] at h
    cases h
    exact shape_attempt hr hp ho
  | fail => rw [ho] at h; cases h; rfl
  | timeout => rw [ho] at h; cases h
  | ub => rw [ho] at h; cases h
  | ill => rw [ho] at h; cases h

theorem alike_shape (h : build P t = .pattern r) (h' : build P t' = .pattern r') (hb : Orderly P.find t b) (hb' : Orderly P.find t' b')
    (ha : Alike (.body b) (.body b')) : shape r.captures = shape r'.captures := by
  rw [hb.tree h, hb'.tree h', captures_body b hb.reading.1, captures_body b' hb'.reading.1]
  rw [show b.visible = b'.visible from alike_visible ha]

theorem Orderly.wellNumbered (h : build P t = .pattern r) (hb : Orderly P.find t b) : r.WellNumbered :=
  hb.tree h ▸ body_wellNumbered hb.reading.1 hb.faithful hb.selfFree

/-- Different spellings prescribe the same first way. -/
theorem C78_ways (ha : Alike (.body b) (.body b')) {C : Cfg} {s : List Ch} {f : Flags} {p : Nat} (hp : p ≤ s.length) :
    FirstSame (textWays C s f b p) (textWays C s f b' p) := by
  have e : b.env C = b'.env C := by simp only [Body.env, show b.visible = b'.visible from alike_visible ha]
  have := alike_ways (E := b.env C) ha (s := s) (σ := MState.start p f) hp
  simp only [Piece.ways] at this
  unfold textWays
  rw [← e]
  exact this

/-- C78 for `match` and `starts_with`: patterns that are spellings of the same pattern report the same. -/
theorem C78_match (h : build P t = .pattern r) (h' : build P t' = .pattern r') (hb : Orderly P.find t b) (hb' : Orderly P.find t' b')
    (ha : Alike (.body b) (.body b')) {C : Cfg} (hC : C.greedyOpt = false) {n n' : Nat} {s : List Ch} {f : Flags} {p : Nat} (hp : p ≤ s.length)
    (hn : r.weight + s.length + 7 ≤ n) (hn' : r'.weight + s.length + 7 ≤ n') :
    (∃ c c', matchAt C n s f r p = .done c ∧ matchAt C n' s f r' p = .done c' ∧ SameReport c c') ∧
    (∃ c c', startsWithAt C n s f r p = .done c ∧ startsWithAt C n' s f r' p = .done c' ∧ SameReport c c') := by
  obtain ⟨⟨c, h1, h2⟩, ⟨d, h3, h4⟩⟩ := C75_match h hb hC (f := f) hp hn
  obtain ⟨⟨c', h1', h2'⟩, ⟨d', h3', h4'⟩⟩ := C75_match h' hb' hC (f := f) hp hn'
  have hsh := alike_shape h h' hb hb' ha
  have hw := (hb.wellNumbered h).numbered
  have hw' := (hb'.wellNumbered h').numbered
  refine ⟨⟨c, c', h1, h1', sameReport_first ?_ ((C78_ways ha hp).filter _) h2 h2'⟩, ⟨d, d', h3, h3', sameReport_first ?_ (C78_ways ha hp) h4 h4'⟩⟩
  · rw [shape_match hw hp h1, shape_match hw' hp h1', hsh]
  · rw [shape_startsWith hw hp h3, shape_startsWith hw' hp h3', hsh]

theorem sameReport_search {C : Cfg} {s : List Ch} {f : Flags} {c c' : Caps} (ha : Alike (.body b) (.body b')) (hs : shape c.groups = shape c'.groups)
    (h2 : (c.whole.matched = true ∧ ∃ q τ rest, q ≤ s.length ∧ textWays C s f b q = τ :: rest ∧ Reports c q τ ∧
          ∀ i, i < q → textWays C s f b i = []) ∨
        (c.whole.matched = false ∧ ∀ i, i ≤ s.length → textWays C s f b i = []))
    (h2' : (c'.whole.matched = true ∧ ∃ q τ rest, q ≤ s.length ∧ textWays C s f b' q = τ :: rest ∧ Reports c' q τ ∧
          ∀ i, i < q → textWays C s f b' i = []) ∨
        (c'.whole.matched = false ∧ ∀ i, i ≤ s.length → textWays C s f b' i = [])) : SameReport c c' := by
  have hnil : ∀ i, i ≤ s.length → (textWays C s f b i = [] ↔ textWays C s f b' i = []) := by
    intro i hi
    have := (C78_ways ha (C := C) (s := s) (f := f) hi).head
    cases e1 : textWays C s f b i <;> cases e2 : textWays C s f b' i <;> simp_all
  rcases h2 with ⟨m, q, τ, rest, hq, hw, hr, hno⟩ | ⟨m, hno⟩
  · rcases h2' with ⟨m', q', τ', rest', hq', hw', hr', hno'⟩ | ⟨m', hno'⟩
    · have hqq : q = q' := by
        rcases Nat.lt_trichotomy q q' with hlt | heq | hgt
        · have := (hnil q hq).2 (hno' q hlt); rw [hw] at this; simp at this
        · exact heq
        · have := (hnil q' hq').1 (hno q' hgt); rw [hw'] at this; simp at this
      subst hqq
      have := (C78_ways ha (C := C) (s := s) (f := f) hq).head
      rw [hw, hw'] at this
      simp only [List.head?_cons, Option.some.injEq] at this
      subst this
      exact sameReport_of hs m m' hr hr'
    · have := (hnil q hq).2 (hno' q hq); rw [hw] at this; simp at this
  · rcases h2' with ⟨m', q', τ', rest', hq', hw', hr', hno'⟩ | ⟨m', hno'⟩
    · have := (hnil q' hq').1 (hno q' hq'); rw [hw'] at this; simp at this
    · exact ⟨by rw [m, m'], hs, fun h => by rw [m] at h; simp at h⟩

/-- C78 for `search`, for patterns without `^` and `\A`, or without a repetition before the anchor that may be skipped. -/
theorem C78_search (h : build P t = .pattern r) (h' : build P t' = .pattern r') (hb : Orderly P.find t b) (hb' : Orderly P.find t' b')
    (ha : Alike (.body b) (.body b')) {C : Cfg} (hC : C.greedyOpt = false) {n n' : Nat} {s : List Ch} {f : Flags}
    (hbeg : b.noBegin = true ∨ r.noStarsBefore f.ml = true) (hbeg' : b'.noBegin = true ∨ r'.noStarsBefore f.ml = true)
    (hn : r.weight + s.length + 7 ≤ n) (hn' : r'.weight + s.length + 7 ≤ n') :
    ∃ c c', cSearch C n s f r = .done c ∧ cSearch C n' s f r' = .done c' ∧ SameReport c c' := by
  obtain ⟨c, h1, h2⟩ := C75_search h hb hC (f := f) hbeg hn
  obtain ⟨c', h1', h2'⟩ := C75_search h' hb' hC (f := f) hbeg' hn'
  refine ⟨c, c', h1, h1', sameReport_search ha ?_ h2 h2'⟩
  rw [shape_search (hb.wellNumbered h).numbered h1, shape_search (hb'.wellNumbered h').numbered h1', alike_shape h h' hb hb' ha]

/-- C78 with the optimisation of greedy repetitions, for patterns it is harmless for (see C34). -/
theorem C78_optimised (h : build P t = .pattern r) (h' : build P t' = .pattern r') (hb : Orderly P.find t b) (hb' : Orderly P.find t' b')
    (ha : Alike (.body b) (.body b')) {C : Cfg} {ml : Bool} (hC : C.greedyOpt = false ∨ r.scannable true = true)
    (hC' : C.greedyOpt = false ∨ r'.scannable true = true) (hst : r.steady ml false false = true) (hst' : r'.steady ml false false = true)
    {n n' : Nat} {s : List Ch} {f : Flags} {p : Nat} (hs : ∀ v ∈ s, IsCh v) (hblk : f.blk = false) (hci : r.CaseSafe f.ci) (hci' : r'.CaseSafe f.ci)
    (hml : f.ml = true → ml = true) (hp : p ≤ s.length) (hn : r.weight + s.length + 7 ≤ n) (hn' : r'.weight + s.length + 7 ≤ n')
    (hbeg : b.noBegin = true ∨ r.noStarsBefore f.ml = true) (hbeg' : b'.noBegin = true ∨ r'.noStarsBefore f.ml = true) :
    (∃ c c', matchAt C n s f r p = .done c ∧ matchAt C n' s f r' p = .done c' ∧ SameReport c c') ∧
    (∃ c c', startsWithAt C n s f r p = .done c ∧ startsWithAt C n' s f r' p = .done c' ∧ SameReport c c') ∧
    ∃ c c', cSearch C n s f r = .done c ∧ cSearch C n' s f r' = .done c' ∧ SameReport c c' := by
  obtain ⟨⟨c, h1, h2⟩, ⟨d, h3, h4⟩⟩ := C75_match_optimised h hb hC hst (f := f) hs hblk hci hml hp hn
  obtain ⟨⟨c', h1', h2'⟩, ⟨d', h3', h4'⟩⟩ := C75_match_optimised h' hb' hC' hst' (f := f) hs hblk hci' hml hp hn'
  obtain ⟨e, h5, h6⟩ := C75_search_optimised h hb hC hst (f := f) hs hblk hci hml hbeg hn
  obtain ⟨e', h5', h6'⟩ := C75_search_optimised h' hb' hC' hst' (f := f) hs hblk hci' hml hbeg' hn'
  have hsh := alike_shape h h' hb hb' ha
  have hw := (hb.wellNumbered h).numbered
  have hw' := (hb'.wellNumbered h').numbered
  refine ⟨⟨c, c', h1, h1', sameReport_first ?_ ((C78_ways ha hp).filter _) h2 h2'⟩,
    ⟨d, d', h3, h3', sameReport_first ?_ (C78_ways ha hp) h4 h4'⟩, ⟨e, e', h5, h5', sameReport_search ha ?_ h6 h6'⟩⟩
  · rw [shape_match hw hp h1, shape_match hw' hp h1', hsh]
  · rw [shape_startsWith hw hp h3, shape_startsWith hw' hp h3', hsh]
  · rw [shape_search hw h5, shape_search hw' h5', hsh]

/-! ### Cases -/

/-- `(?:b|a)+(c)` -/
def sampleRespell1 : Body := .alt (.one (.cons (.group (.alt (.bar (.one (.ch (.plain 98)) .none) (.one (.one (.ch (.plain 97)) .none)))))
  (.plus .greedy) (.one (.cap 1 (.alt (.one (.one (.ch (.plain 99)) .none)))) .none)))

/-- `[ab][b\x61]*(c)` -/
def sampleRespell2 : Body := .alt (.one (.cons (.set false [.one (.plain 97), .one (.plain 98)]) .none
  (.cons (.set false [.one (.plain 98), .one (.x2 54 49)]) (.star .greedy) (.one (.cap 1 (.alt (.one (.one (.ch (.plain 99)) .none)))) .none))))

theorem sampleRespell_alike : Alike (.body sampleRespell1) (.body sampleRespell2) := by
  refine .alt (.one (.append (c := .one _ (.plus .greedy)) (c' := .cons _ .none (.one _ (.star .greedy))) ?_ (.refl _)))
  have h1 : Alike (.atom (.group (.alt (.bar (.one (.ch (.plain 98)) .none) (.one (.one (.ch (.plain 97)) .none))))))
      (.atom (.set false [.one (.plain 98), .one (.plain 97)])) :=
    .trans (.group (.alt (.bar (.item (.symm .setChar)) (.one (.item (.symm .setChar)))))) (.symm (.setUnion (l := [_]) (m := [_])))
  refine .trans (.item h1) (.trans (.split (ds := [49]) (q' := .star .greedy) rfl (by simp) (by simp) rfl rfl rfl) ?_)
  refine .append (c := .one _ _) (d := .one _ _) (c' := .one _ _) (d' := .one _ _)
    (.trans (.once rfl rfl rfl) (.item (.setOrder (by intro i; simp [or_comm])))) ?_
  exact .item (.setItems (l := [_]) (m := []) (.char (c := .plain 97) (d := .x2 54 49) rfl))

theorem sampleRespell1_orderly : Orderly (PropTable.find {}) [40, 63, 58, 98, 124, 97, 41, 43, 40, 99, 41] sampleRespell1 where
  reading := by
    refine ⟨?_, rfl⟩
    simp [sampleRespell1, Body.WF, Alt.WF, Cat.WF, Atom.WF, Char1.WF, special, Quant.WF, Atom.groups, Cat.groups, Alt.groups, Body.groups]
  faithful := by
    simp [sampleRespell1, Body.Faithful, Alt.Faithful, Cat.Faithful, Atom.Faithful, Quant.Faithful, Char1.Faithful, possessiveItem,
      Quant.kind]
  size := by decide +kernel
  inOrder := by decide +kernel
  selfFree := by simp [sampleRespell1, Body.selfFree, Alt.selfFree, Cat.selfFree, Atom.selfFree]
  known := by decide +kernel
  attentive := by decide +kernel

theorem sampleRespell2_orderly : Orderly (PropTable.find {})
    [91, 97, 98, 93, 91, 98, 92, 120, 54, 49, 93, 42, 40, 99, 41] sampleRespell2 where
  reading := by
    refine ⟨?_, rfl⟩
    simp [sampleRespell2, Body.WF, Alt.WF, Cat.WF, Atom.WF, Char1.WF, special, Quant.WF, Atom.groups, Cat.groups, Alt.groups, Body.groups,
      SetWF, SetItem.WF, specialInSet, isHex, isDec]
  faithful := by
    simp [sampleRespell2, Body.Faithful, Alt.Faithful, Cat.Faithful, Atom.Faithful, Quant.Faithful, Char1.Faithful, possessiveItem,
      Quant.kind, Atom.possessive, SetItem.Faithful]
  size := by decide +kernel
  inOrder := by decide +kernel
  selfFree := by simp [sampleRespell2, Body.selfFree, Alt.selfFree, Cat.selfFree, Atom.selfFree]
  known := by decide +kernel
  attentive := by decide +kernel

example : ∃ r r', build {} [40, 63, 58, 98, 124, 97, 41, 43, 40, 99, 41] = .pattern r ∧
    build {} [91, 97, 98, 93, 91, 98, 92, 120, 54, 49, 93, 42, 40, 99, 41] = .pattern r' ∧
    cSearch {} 60 [120, 97, 98, 97, 99] {} r =
      .done { whole := ⟨some 1, some 5, true⟩, groups := [{ id := 1, slot := ⟨some 4, some 5, true⟩ }] } ∧
    cSearch {} 60 [120, 97, 98, 97, 99] {} r' =
      .done { whole := ⟨some 1, some 5, true⟩, groups := [{ id := 1, slot := ⟨some 4, some 5, true⟩ }] } ∧
    r.scannable true = true ∧ r'.scannable true = true ∧ r.steady false false false = true ∧ r'.steady false false false = true :=
  ⟨_, _, rfl, rfl, by decide +kernel, by decide +kernel, by decide +kernel, by decide +kernel, by decide +kernel, by decide +kernel⟩

/-- The condition of the law `a?` = `(?:a|)` is needed: `(?:a|ab)?c` does not match "abc", `(?:a|ab|)c` does. -/
theorem C78_fails_two_ways : ∃ r r',
    build {} [40, 63, 58, 97, 124, 97, 98, 41, 63, 99] = .pattern r ∧
    build {} [40, 63, 58, 97, 124, 97, 98, 124, 41, 99] = .pattern r' ∧
    (cMatch {} 60 [97, 98, 99] {} r).success = false ∧ (cMatch {} 60 [97, 98, 99] {} r').success = true :=
  ⟨_, _, rfl, rfl, by decide +kernel, by decide +kernel⟩

/-- The law `a{1}` = `a` needs its condition about modes: `(?:(?i)a)b` matches "aB", `(?:(?i)a){1}b` does not. -/
theorem C78_fails_modes : ∃ r r',
    build {} [40, 63, 58, 40, 63, 105, 41, 97, 41, 98] = .pattern r ∧
    build {} [40, 63, 58, 40, 63, 105, 41, 97, 41, 123, 49, 125, 98] = .pattern r' ∧
    (cMatch {} 60 [97, 66] {} r).success = true ∧ (cMatch {} 60 [97, 66] {} r').success = false :=
  ⟨_, _, rfl, rfl, by decide +kernel, by decide +kernel⟩

/-- `(?>x*)` is not `x*+`: with an atomic group the empty iteration is a failure. -/
theorem C78_fails_atomic_star : ∃ r r',
    build {} [40, 63, 62, 97, 42, 41, 98] = .pattern r ∧ build {} [97, 42, 43, 98] = .pattern r' ∧
    (cMatch {} 60 [98] {} r).success = false ∧ (cMatch {} 60 [98] {} r').success = true :=
  ⟨_, _, rfl, rfl, by decide +kernel, by decide +kernel⟩

end Ctre
