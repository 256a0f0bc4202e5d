import Verif.Lemmas.Cursor

/-
The iterator over a zero-terminated array walks over the characters before the NUL.
-/
namespace Ctre

theorem zero_walks {s : List Ch} (hs : (0 : Int) ∉ s) (rest : List Ch) (o : Needs) :
    Walks o (zeroCursor (s ++ 0 :: rest)) s false id where
  inj := fun i j _ _ h => h
  size := by simp only [zeroCursor, List.length_append]; omega
  atBegin := by intro _ i _; rfl
  atEnd := by
    intro i hi
    simp only [zeroCursor, id]
    by_cases h : i = s.length
    · subst h
      rw [List.getElem?_append_right (Nat.le_refl _)]
      simp
    · have hlt : i < s.length := by omega
      rw [List.getElem?_append_left hlt, List.getElem?_eq_getElem hlt]
      simp only [Option.map_some, h, decide_false, Option.some.injEq, decide_eq_false_iff_not]
      intro h0
      exact hs (h0 ▸ List.getElem_mem hlt)
  deref := by
    intro i v hv
    have hlt := (List.getElem?_eq_some_iff.1 hv).1
    simp only [zeroCursor, id]
    rw [List.getElem?_append_left hlt, hv]
  next := by
    intro i hi
    simp only [zeroCursor, id, List.length_append]
    rw [if_pos (by omega)]
  prev := by intro _ i _; rfl
  narrow := by intro _ v _; rfl
  store := rfl
  refs := by intro _; rfl

theorem mapPos_id (e : Exec) : e.mapPos id = e := by
  cases e with
  | done c =>
    have h : ∀ sl : Slot, sl.mapPos id = sl := by intro sl; simp [Slot.mapPos]
    have h2 : (Group.mapPos id) = id := by funext g; simp [Group.mapPos, h]
    simp [Exec.mapPos, Caps.mapPos, h, h2]
  | _ => rfl

theorem fits_all (r : Re) : r.fits ⟨true, true, true, true⟩ = true := by
  induction r using Re.rec (motive_2 := fun l => fitsList ⟨true, true, true, true⟩ l = true) with
  | nil => rfl
  | cons r l ih1 ih2 => simp [fitsList, ih1, ih2]
  | _ => simp_all [Re.fits]

end Ctre
