import Verif.Model.TypeList

/-
The folds of the type list operations.
-/
namespace Ctre.TypeList

variable {α : Type}

theorem rotate_fold (l acc : List α) : l.foldl (fun acc t => t :: acc) acc = l.reverse ++ acc := by
  induction l generalizing acc with
  | nil => rfl
  | cons t l ih => rw [List.foldl_cons, ih]; simp

theorem rotate_eq (l : List α) : rotate l = l.reverse := by
  rw [rotate, rotate_fold, List.append_nil]

theorem existsIn_iff (conv : α → α → Bool) (t : α) (l : List α) : existsIn conv t l = true ↔ ∃ y ∈ l, conv y t = true := by
  induction l with
  | nil => simp [existsIn]
  | cons y l ih =>
    rw [existsIn, List.foldr_cons, Bool.or_eq_true]
    rw [existsIn] at ih
    rw [ih]
    simp

theorem remove_fold [DecidableEq α] (t : α) (l acc : List α) :
    l.foldl (fun acc y => if y = t then acc else acc ++ [y]) acc = acc ++ l.filter fun y => Decidable.decide (y ≠ t) := by
  induction l generalizing acc with
  | nil => simp
  | cons y l ih =>
    rw [List.foldl_cons, ih]
    by_cases h : y = t <;> simp [h]

theorem removeItem_eq [DecidableEq α] (t : α) (l : List α) : removeItem t l = l.filter fun y => Decidable.decide (y ≠ t) := by
  rw [removeItem, remove_fold, List.nil_append]

end Ctre.TypeList
