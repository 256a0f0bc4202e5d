import Verif.Props.Access
import Verif.Props.Results
import Verif.Props.Language
/-
C38, C69: comparison of results with text, output, and structured bindings.
-/
namespace Ctre

open Parse Surface

variable {C : Cfg} {n : Nat} {s : List Ch} {f : Flags} {r : Re} {p : Nat} {c : Caps}

/-! ### C38 -/

/-- C38: for every result of `match`, `starts_with` or `search`, `==` is true exactly when the call succeeded and the matched text
equals the given one, and `!=` is its negation, whatever the order of the operands; provided that the match does not begin behind
the last character (or `std::to_address` is used). -/
theorem C38_result_equals (msvc : Bool) (hr : r.Numbered) (hp : p ≤ s.length) (hs : s.length < 18446744073709551616)
    (h : Returned C n s f r p c) (hb : ∀ b e, c.get 0 = some ⟨some b, some e, true⟩ → msvc = true ∨ b < s.length) (v : List Ch) :
    ∃ x, c.eqView msvc s v = some x ∧ Caps.viewEq msvc s v c = some x ∧ c.neView msvc s v = some (!x) ∧
      Caps.viewNe msvc s v c = some (!x) ∧
      (x = true ↔ ∃ b e, c.get 0 = some ⟨some b, some e, true⟩ ∧ slice s (b, e) = v) := by
  cases hm : c.whole.matched with
  | false =>
    refine ⟨false, by simp [Caps.eqView, hm], by simp [Caps.viewEq, hm], by simp [Caps.neView, hm], by simp [Caps.viewNe, hm], ?_⟩
    simp only [Bool.false_eq_true, false_iff, not_exists, not_and]
    intro b e h1
    simp only [Caps.get, if_true, Option.some.injEq] at h1
    rw [h1] at hm; simp at hm
  | true =>
    have hg : c.get 0 = some c.whole := by simp [Caps.get]
    rcases slot_cases hr hp h hm hg with ⟨b, e, h1, h2, h3⟩ | h3
    · have hv := toView_span msvc h1 h2 hs (hb b e (by rw [hg, h3]))
      refine ⟨decide (slice s (b, e) = v), ?_, ?_, ?_, ?_, ?_⟩
      · simp only [Caps.eqView, h3, if_true, hv, Option.map_some]
      · simp only [Caps.viewEq, h3, if_true, hv, Option.map_some, eq_comm]
      · simp only [Caps.neView, h3, if_true, hv, Option.map_some, ne_eq, decide_not]
      · simp only [Caps.viewNe, h3, if_true, hv, Option.map_some, ne_eq, decide_not, eq_comm]
      · rw [hg, h3, decide_eq_true_eq]
        constructor
        · intro h; exact ⟨b, e, rfl, h⟩
        · rintro ⟨b', e', h4, h5⟩
          simp only [Option.some.injEq, Slot.mk.injEq, and_true] at h4
          rw [h4.1, h4.2]; exact h5
    · rw [h3] at hm; cases hm

/-- C38: for every capture that has taken part in a match, `==` is true exactly when its text equals the given one, and `!=` is its
negation, whatever the order of the operands; provided that the capture does not begin behind the last character (or
`std::to_address` is used). -/
theorem C38_capture_equals (msvc : Bool) (hr : r.Numbered) (hp : p ≤ s.length) (hs : s.length < 18446744073709551616)
    (h : Returned C n s f r p c) (hm : c.whole.matched = true) {id : Nat} {sl : Slot} (hg : c.get id = some sl)
    (ht : sl.matched = true) (hb : ∀ b, sl.b = some b → msvc = true ∨ b < s.length) (v : List Ch) :
    ∃ b e x, sl = ⟨some b, some e, true⟩ ∧ (x = true ↔ slice s (b, e) = v) ∧
      sl.eqView msvc s v = some x ∧ Slot.viewEq msvc s v sl = some x ∧ sl.neView msvc s v = some (!x) ∧
      Slot.viewNe msvc s v sl = some (!x) := by
  rcases slot_cases hr hp h hm hg with ⟨b, e, h1, h2, h3⟩ | h3
  · have hv := toView_span msvc h1 h2 hs (hb b (by rw [h3]))
    refine ⟨b, e, decide (slice s (b, e) = v), h3, decide_eq_true_iff, ?_, ?_, ?_, ?_⟩
    · simp only [Slot.eqView, h3, if_true, hv, Option.map_some]
    · simp only [Slot.viewEq, h3, if_true, hv, Option.map_some, eq_comm]
    · simp only [Slot.neView, h3, if_true, hv, Option.map_some, ne_eq, decide_not]
    · simp only [Slot.viewNe, h3, if_true, hv, Option.map_some, ne_eq, decide_not, eq_comm]
  · rw [h3] at ht; cases ht

/-- C38, the defect: for a capture that has not taken part, both `==` and `!=` are false. -/
theorem C38_fails_for_unmatched_capture {sl : Slot} (hm : sl.matched = false) (msvc : Bool) (v : List Ch) :
    sl.eqView msvc s v = some false ∧ sl.neView msvc s v = some false ∧
    Slot.viewEq msvc s v sl = some false ∧ Slot.viewNe msvc s v sl = some false := by
  simp [Slot.eqView, Slot.neView, Slot.viewEq, Slot.viewNe, hm]

/-- C38 fails for an empty match at the end of the subject: the comparison dereferences the end iterator (except with MSVC). -/
theorem C38_fails_empty_at_end : ∃ c, cSearch {} 20 [97] {} .sEnd = .done c ∧ c.whole.matched = true ∧
    c.eqView false [97] [] = none ∧ c.neView false [97] [] = none ∧ c.eqView true [97] [] = some true :=
  ⟨_, rfl, by decide +kernel, by decide +kernel, by decide +kernel, by decide +kernel⟩

/-! ### C69 -/

/-- C69: the output of a capture that has taken part in a match is its text; provided that it does not begin behind the last character
(or `std::to_address` is used). -/
theorem C69_output (msvc : Bool) (hr : r.Numbered) (hp : p ≤ s.length) (hs : s.length < 18446744073709551616)
    (h : Returned C n s f r p c) (hm : c.whole.matched = true) {id : Nat} {sl : Slot} (hg : c.get id = some sl)
    (ht : sl.matched = true) (hb : ∀ b, sl.b = some b → msvc = true ∨ b < s.length) :
    ∃ b e, sl = ⟨some b, some e, true⟩ ∧ sl.output msvc s = some (slice s (b, e)) ∧
      (id = 0 → c.output msvc s = some (slice s (b, e))) := by
  rcases slot_cases hr hp h hm hg with ⟨b, e, h1, h2, h3⟩ | h3
  · have hv := toView_span msvc h1 h2 hs (hb b (by rw [h3]))
    refine ⟨b, e, h3, by rw [h3]; exact hv, fun hi => ?_⟩
    subst hi
    simp only [Caps.get, if_true, Option.some.injEq] at hg
    rw [Caps.output, hg, h3]
    exact hv
  · rw [h3] at ht; cases ht

/-- C69 fails for captures that have not taken part and for failed calls: their output dereferences a value-initialised iterator. -/
theorem C69_fails_unmatched (msvc : Bool) (s : List Ch) : Slot.output msvc s {} = none ∧ (initCaps r).output msvc s = none := by
  constructor <;> rfl

theorem selectId_ascending : ∀ (gs : List Group) (k : Nat), groupIds gs = List.range' k gs.length → ∀ i (hi : i < gs.length),
    selectId (k + i) gs = some (gs[i]).slot := by
  intro gs
  induction gs with
  | nil => intro k _ i hi; simp at hi
  | cons g gs ih =>
    intro k h i hi
    simp only [groupIds, List.map_cons, List.length_cons, List.range'_succ, List.cons.injEq] at h
    cases i with
    | zero => simp [selectId, h.1]
    | succ i =>
      rw [selectId, if_neg (by omega), show k + (i + 1) = (k + 1) + i by omega]
      exact ih (k + 1) h.2 i (by simpa using hi)

theorem shape_returned (hr : r.Numbered) (hp : p ≤ s.length) (h : Returned C n s f r p c) : shape c.groups = shape r.captures := by
  cases hm : c.whole.matched with
  | true =>
    rcases h with h | h | h
    · exact ((attemptFull_safe C hr hp).2 c (toExec_done h hm)).1.shape
    · exact shape_attempt hr hp (toExec_done h hm)
    · obtain ⟨j, hj, h1, _⟩ := searchLoop_ok h hm
      exact shape_attempt hr (by split at hj <;> omega) h1
  | false =>
    rcases h with h | h | h
    · unfold matchAt at h
      cases ho : attemptFull C n s f r p with
      | ok c' =>
        rw [ho] at h
        have h1 := ((attemptFull_safe C hr hp).2 c' ho).1.shape
        simp only [Out.toExec, Exec.done.injEq] at h
        rwa [← h]
      | fail => rw [ho] at h; simp only [Out.toExec, Exec.done.injEq] at h; rw [← h]; rfl
      | _ => rw [ho] at h; simp [Out.toExec] at h
    · unfold startsWithAt at h
      cases ho : attempt C n s f r p with
      | ok c' =>
        rw [ho] at h
        have h1 := shape_attempt hr hp ho
        simp only [Out.toExec, Exec.done.injEq] at h
        rwa [← h]
      | fail => rw [ho] at h; simp only [Out.toExec, Exec.done.injEq] at h; rw [← h]; rfl
      | _ => rw [ho] at h; simp [Out.toExec] at h
    · have := (searchLoop_fail' hr (by split <;> omega) h hm).1
      rw [this]; rfl

theorem mapM_some {α β : Type} {g : α → Option β} {k : α → β} : ∀ {l : List α}, (∀ x ∈ l, g x = some (k x)) →
    l.mapM g = some (l.map k)
  | [], _ => rfl
  | x :: l, h => by
    rw [List.mapM_cons, h x (by simp), mapM_some fun y hy => h y (by simp [hy])]
    rfl

theorem bindings_of_ids (hids : groupIds c.groups = List.range' 1 c.groups.length) :
    c.bindings = some (c.whole :: c.groups.map (·.slot)) ∧ ∀ i (hi : i < c.groups.length), c.get (i + 1) = some (c.groups[i]).slot := by
  have key := selectId_ascending _ 1 hids
  have hget : ∀ i (hi : i < c.groups.length), c.get (i + 1) = some (c.groups[i]).slot := by
    intro i hi
    have := key i hi
    rw [Nat.add_comm] at this
    simpa [Caps.get] using this
  refine ⟨?_, hget⟩
  unfold Caps.bindings Caps.count
  have h1 : ∀ i ∈ List.range (c.groups.length + 1), c.get i =
      some ((c.whole :: c.groups.map (·.slot))[i]?.getD {}) := by
    intro i hi
    rw [List.mem_range] at hi
    cases i with
    | zero => simp [Caps.get]
    | succ i =>
      rw [hget i (by omega)]
      simp [show i < c.groups.length by omega]
  rw [mapM_some h1]
  congr 1
  apply List.ext_getElem
  · simp
  · intro i h2 h3
    simp only [List.length_cons, List.length_map] at h3
    simp [List.getElem?_eq_getElem (l := c.whole :: c.groups.map (·.slot)) (i := i) (by simpa using h3)]

/-- C69: a structured binding of a result binds the whole match and the groups in the order of their numbers, if the groups that are
part of the result are numbered without gaps. -/
theorem C69_bindings (hr : r.Numbered) (hp : p ≤ s.length) (hn : groupIds r.captures = List.range' 1 r.captures.length)
    (h : Returned C n s f r p c) :
    ∃ l, c.bindings = some (c.whole :: l) ∧ l.length = r.captures.length ∧ ∀ i (hi : i < l.length), c.get (i + 1) = some l[i] := by
  have hsh := shape_returned hr hp h
  have hlen : c.groups.length = r.captures.length := by
    have := congrArg List.length hsh
    simpa [shape] using this
  have hids : groupIds c.groups = List.range' 1 c.groups.length := by
    rw [groupIds_shape, hsh, ← groupIds_shape, hn, hlen]
  obtain ⟨h1, h2⟩ := bindings_of_ids hids
  refine ⟨c.groups.map (·.slot), h1, by simpa using hlen, fun i hi => ?_⟩
  rw [h2 i (by simpa using hi)]
  simp

/-- C69 for every accepted text whose groups are outside of atomic and lookbehind groups: a structured binding has as many elements
as the text has groups, and one more; they are the whole match and the groups in the order of their opening parentheses. -/
theorem C69_bindings_text {P : PropTable} {t : List Nat} (h : build P t = .pattern r) (hu : ¬ Unusual t) :
    ∃ b, Reading P.find t b ∧ (b.visible = b.opened → ∀ x,
      (cMatch C n s f r = .done x ∨ cStartsWith C n s f r = .done x ∨ cSearch C n s f r = .done x) →
      ∃ l, x.bindings = some (x.whole :: l) ∧ l.length = b.groups ∧ ∀ i (hi : i < l.length), x.get (i + 1) = some l[i]) := by
  obtain ⟨b, h1, h2, h3, h4⟩ := C30_accepted_from_one h hu
  refine ⟨b, h1, fun hv x hx => ?_⟩
  have h5 := h4 C n s f x hx
  rw [hv] at h5
  have h6 : groupIds x.groups = List.range' 1 b.groups := by
    rw [← h2, ← h5, List.map_map]
    rfl
  have h7 : x.groups.length = b.groups := by
    have := congrArg List.length h6
    simpa [groupIds] using this
  obtain ⟨h8, h9⟩ := bindings_of_ids (c := x) (by rw [h6, h7])
  refine ⟨x.groups.map (·.slot), h8, by simpa using h7, fun i hi => ?_⟩
  rw [h9 i (by simpa using hi)]
  simp

/-- C69 fails for patterns with groups inside of atomic groups: in `(?>(a))(b)` the second group is the only one of the result, and a
structured binding does not compile. -/
theorem C69_fails_gap {c : Caps} (h : shape c.groups = shape (Re.captures (.seq [.atomic [.cap 1 none [.cc (.chr 97)]],
    .cap 2 none [.cc (.chr 98)]]))) : c.count = 2 ∧ c.get 1 = none ∧ c.bindings = none := by
  obtain ⟨w, gs⟩ := c
  match gs, h with
  | [⟨i, nm, sl⟩], h =>
    simp [shape, Re.captures, capturesList] at h
    obtain ⟨rfl, rfl⟩ := h
    refine ⟨rfl, rfl, rfl⟩

/-! ### Concrete cases -/

/-- `(?<x>a)|(b)` on "b": both groups, of which the second has taken part -/
example : cSearch {} 20 [98] {} sampleNamed = .done { whole := ⟨some 0, some 1, true⟩, groups :=
      [{ id := 1, name := some [120] }, { id := 2, slot := ⟨some 0, some 1, true⟩ }] } ∧
    groupIds sampleNamed.captures = List.range' 1 sampleNamed.captures.length := by decide +kernel
example : Caps.bindings { whole := ⟨some 0, some 1, true⟩, groups :=
      [{ id := 1, name := some [120] }, { id := 2, slot := ⟨some 0, some 1, true⟩ }] } =
    some [⟨some 0, some 1, true⟩, {}, ⟨some 0, some 1, true⟩] := rfl
-- the unmatched capture is neither equal nor unequal to "a"
example : Slot.eqView false [98] {} [97] = some false ∧ Slot.neView false [98] {} [97] = some false := by decide
-- the matched one is equal to "b" and written as "b"
example : Slot.eqView false [98] ⟨some 0, some 1, true⟩ [98] = some true ∧ Slot.neView false [98] ⟨some 0, some 1, true⟩ [97] = some true ∧
    Slot.output false [98] ⟨some 0, some 1, true⟩ = some [98] := by decide

end Ctre
