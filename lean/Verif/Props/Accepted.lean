import Verif.Lemmas.Numbering
import Verif.Props.Syntax
import Verif.Props.Search

/-
C03, C04, C05, C07, C08, C30 for every pattern text that is accepted.
-/
namespace Ctre
open Parse

variable {P : PropTable} {text : List Nat} {r : Re}

/-- C30, every accepted text: the groups of the result have positive numbers, in increasing order. -/
theorem C30_accepted_increasing (h : build P text = .pattern r) {C : Cfg} {n : Nat} {s : List Ch} {f : Flags} {x : Caps}
    (hx : cMatch C n s f r = .done x ∨ cStartsWith C n s f r = .done x ∨ cSearch C n s f r = .done x) :
    (x.groups.map fun g => g.id).Pairwise (· < ·) ∧ ∀ g ∈ x.groups, 1 ≤ g.id := by
  have hr := build_numbered h
  obtain ⟨k, m, h1, h2⟩ := build_block h
  have hs : shape x.groups = shape r.captures := by
    rcases hx with hx | hx | hx
    · exact shape_toExec hx fun c hc => ((attemptFull_safe C hr (Nat.zero_le _)).2 c hc).1.shape
    · exact shape_toExec hx fun c hc => ((attempt_safe C hr (Nat.zero_le _)).2 c hc).1.shape
    · refine shape_searchLoop hr _ _ ?_ hx
      split <;> omega
  have hi : groupIds x.groups = groupIds r.captures := by rw [groupIds_shape, hs, ← groupIds_shape]
  refine ⟨?_, ?_⟩
  · have : (groupIds x.groups).Pairwise (· < ·) := by rw [hi]; exact h2
    exact this
  · intro g hg
    have h3 : g.id ∈ groupIds r.captures := by rw [← hi]; exact List.mem_map_of_mem hg
    have h4 := (h1.mem _).1 ((captures_sub r).subset h3)
    omega

/-- C30, every accepted text: all groups of the pattern together, those in lookbehinds and atomic groups included, have
consecutive numbers, each of them once. -/
theorem C30_accepted_consecutive (h : build P text = .pattern r) :
    r.ids.Nodup ∧ ∃ k m, ∀ i, i ∈ r.ids ↔ k < i ∧ i ≤ m := by
  obtain ⟨k, m, h1, _⟩ := build_block h
  exact ⟨h1.nodup, k, m, h1.mem⟩

/-- The numbers need not begin with 1, because a mode group with several letters drops what is before it:
`(a)(?im)(c)` has a group with the number 2, and none with the number 1. -/
theorem C30_fails_letters : ∃ r, build {} [40, 97, 41, 40, 63, 105, 109, 41, 40, 99, 41] = .pattern r ∧
    groupIds (initCaps r).groups = [2] := ⟨_, rfl, rfl⟩

/-- C03, every accepted text. -/
theorem C03_accepted (h : build P text = .pattern r) {C : Cfg} {n : Nat} {s : List Ch} {f : Flags} {c : Caps}
    (hc : cMatch C n s f r = .done c) (hm : c.whole.matched = true) : c.get 0 = some ⟨some 0, some s.length, true⟩ :=
  C03_match_spans_subject (build_numbered h) hc hm

/-- C04, every accepted text. -/
theorem C04_accepted (h : build P text = .pattern r) {C : Cfg} {n : Nat} {s : List Ch} {f : Flags} {c : Caps}
    (hc : cMatch C n s f r = .done c) (hm : c.whole.matched = true) :
    ∃ c', cStartsWith C (n+1) s f r = .done c' ∧ cSearch C (n+1) s f r = .done c' ∧ c'.whole.matched = true ∧
      c'.whole.b = some 0 := by
  obtain ⟨c', h1, h2, h3⟩ := C04_match_implies_starts_with (build_numbered h) hc hm
  exact ⟨c', h1, C04_starts_with_implies_search h1 h2, h2, h3⟩

/-- C05, every accepted text. -/
theorem C05_accepted (h : build P text = .pattern r) {C : Cfg} {n : Nat} {s : List Ch} {f : Flags} {p : Nat} {c : Caps}
    (hp : p ≤ s.length) (hc : searchAt C n s f r p = .done c) (hm : c.whole.matched = true) :
    ∃ b, c.whole.b = some b ∧ p ≤ b ∧ b ≤ s.length ∧ startsWithAt C n s f r b = .done c ∧
      ∀ i c', p ≤ i → i < b → startsWithAt C n s f r i = .done c' → c'.whole.matched = false :=
  C05_search_leftmost (build_numbered h) hp hc hm

/-- C07, every accepted text. -/
theorem C07_accepted (h : build P text = .pattern r) {C : Cfg} {n : Nat} {s : List Ch} {f : Flags} {p : Nat} {c : Caps}
    (hp : p ≤ s.length)
    (hc : matchAt C n s f r p = .done c ∨ startsWithAt C n s f r p = .done c ∨ searchAt C n s f r p = .done c)
    (hm : c.whole.matched = true) {id : Nat} {sl : Slot} (hg : c.get id = some sl) (hs : sl.matched = true) :
    sl.Inside s := by
  rcases hc with hc | hc | hc
  · exact C07_captures_inside_match (build_numbered h) hp hc hm hg hs
  · exact C07_captures_inside_starts_with (build_numbered h) hp hc hm hg hs
  · exact C07_captures_inside_search (build_numbered h) hp hc hm hg hs

/-- C08, every accepted text. -/
theorem C08_accepted (h : build P text = .pattern r) (C : Cfg) (n : Nat) {s : List Ch} (f : Flags) {p : Nat} (hp : p ≤ s.length) :
    matchAt C n s f r p ≠ .ub ∧ startsWithAt C n s f r p ≠ .ub ∧ searchAt C n s f r p ≠ .ub :=
  C08_no_out_of_bounds (build_numbered h) hp

/-! ### Case: `(a(?<x>b)|c)\2+` on "abb" -/

example : ∃ r, build {} [40, 97, 40, 63, 60, 120, 62, 98, 41, 124, 99, 41, 92, 50, 43] = .pattern r ∧
    groupIds r.captures = [1, 2] ∧ (cMatch {} 60 [97, 98, 98] {} r).success = true := ⟨_, rfl, rfl, rfl⟩

end Ctre
