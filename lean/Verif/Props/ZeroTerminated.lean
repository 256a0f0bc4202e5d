import Verif.Lemmas.ZeroTerminated
import Verif.Props.Bounds

/-
C41: zero-terminated subjects.
-/
namespace Ctre

/-- C41: matching a zero-terminated array gives the result of matching a view of the characters before the first NUL,
whatever follows the NUL, and reads nothing after it. -/
theorem C41_zero_terminated (C : Cfg) (n : Nat) {s : List Ch} (hs : (0 : Int) ∉ s) (rest : List Ch) {r : Re}
    (hr : r.Numbered) (f : Flags) :
    matchC C n (zeroCursor (s ++ 0 :: rest)) f r 0 = cMatch C n s f r ∧
    startsWithC C n (zeroCursor (s ++ 0 :: rest)) f r 0 = cStartsWith C n s f r ∧
    searchC C n (zeroCursor (s ++ 0 :: rest)) f r 0 = cSearch C n s f r := by
  have H := zero_walks hs rest ⟨true, true, true, true⟩
  have h0 : 0 ≤ s.length := Nat.zero_le _
  have hub := C08_no_out_of_bounds (C := C) (n := n) (f := f) hr h0
  have h1 := (matchC_sim C n H (fits_all r) f h0).resolve_left hub.1
  have h2 := (startsWithC_sim C n H (fits_all r) f h0).resolve_left hub.2.1
  have h3 := (searchC_sim C n H (fits_all r) f h0).resolve_left hub.2.2
  rw [mapPos_id] at h1 h2 h3
  exact ⟨h1, h2, h3⟩

/-- C41: a view of an array, as an iterator, gives the results of the plain model. -/
theorem C41_view (C : Cfg) (n : Nat) (s : List Ch) {r : Re} (hr : r.Numbered) (f : Flags) :
    matchC C n (viewCursor s) f r 0 = cMatch C n s f r ∧ startsWithC C n (viewCursor s) f r 0 = cStartsWith C n s f r ∧
    searchC C n (viewCursor s) f r 0 = cSearch C n s f r := by
  have H : Walks ⟨true, true, true, true⟩ (viewCursor s) s false id := {
    inj := fun i j _ _ h => h
    size := Nat.le_refl _
    atBegin := fun _ i _ => rfl
    atEnd := fun i _ => rfl
    deref := fun i v hv => hv
    next := fun i hi => by simp only [viewCursor, id, hi, if_true]
    prev := fun _ i _ => rfl
    narrow := fun _ v _ => rfl
    store := rfl
    refs := fun _ => rfl }
  have h0 : 0 ≤ s.length := Nat.zero_le _
  have hub := C08_no_out_of_bounds (C := C) (n := n) (f := f) hr h0
  have h1 := (matchC_sim C n H (fits_all r) f h0).resolve_left hub.1
  have h2 := (startsWithC_sim C n H (fits_all r) f h0).resolve_left hub.2.1
  have h3 := (searchC_sim C n H (fits_all r) f h0).resolve_left hub.2.2
  rw [mapPos_id] at h1 h2 h3
  exact ⟨h1, h2, h3⟩

/-- C41: an array without a NUL is read beyond its end. -/
theorem C41_needs_terminator : searchC {} 10 (zeroCursor [97, 98]) {} (.cc (.chr 99)) 0 = .ub := by decide +kernel

-- `(a+)\1$` on "aaaa\0xyz"
example : (0 : Int) ∉ ([97, 97, 97, 97] : List Int) := by decide

example : matchC { greedyOpt := false } 40 (zeroCursor [97, 97, 97, 97, 0, 120, 121, 122]) {}
    (.seq [.cap 1 none [.rep .greedy 1 0 [.cc (.chr 97)]], .bref 1, .lEnd]) 0 =
    .done { whole := ⟨some 0, some 4, true⟩, groups := [{ id := 1, slot := ⟨some 0, some 2, true⟩ }] } := by
  decide +kernel

end Ctre
