import Verif.Lemmas.TypeList

/-
C77: the operations on type lists.
-/
namespace Ctre
open TypeList

section
variable {α : Type}

/-- C77: `size` adds up under `concat` and grows by one under `push_front`; a list is `empty` exactly if its size is 0. -/
theorem C77_size (t : α) (a b : List α) :
    size (concat a b) = size a + size b ∧ size (pushFront t a) = size a + 1 ∧ (TypeList.empty a = true ↔ size a = 0) := by
  refine ⟨List.length_append, rfl, ?_⟩
  cases a <;> simp [TypeList.empty, size]

/-- C77: `push_front` puts the type where `front`, `pop_front` and `pop_and_get_front` take it from, whatever default is
given; on the empty list they give the default and the empty list. -/
theorem C77_front (t d : α) (l : List α) :
    front (pushFront t l) d = t ∧ popFront (pushFront t l) = l ∧ popAndGetFront (pushFront t l) d = (t, l) ∧
    front ([] : List α) d = d ∧ popFront ([] : List α) = [] ∧ popAndGetFront [] d = (d, []) ∧
    (TypeList.empty l = false → pushFront (front l d) (popFront l) = l) ∧ popFrontAndPushFront t (pushFront d l) = pushFront t l := by
  refine ⟨rfl, rfl, rfl, rfl, rfl, rfl, fun h => ?_, rfl⟩
  cases l with
  | nil => simp [TypeList.empty] at h
  | cons a l => rfl

/-- C77: `concat` is associative, the empty list is neutral. -/
theorem C77_concat (a b c : List α) :
    concat (concat a b) c = concat a (concat b c) ∧ concat a [] = a ∧ concat [] a = a := by
  simp [concat]

/-- C77: `rotate` reverses: the type at position `i` of the result is the one at position `i` counted from the end. -/
theorem C77_rotate (l : List α) :
    size (rotate l) = size l ∧ (∀ i, i < size l → (rotate l)[i]? = l[size l - 1 - i]?) ∧ rotate (rotate l) = l ∧
    ∀ m, rotate (concat l m) = concat (rotate m) (rotate l) := by
  refine ⟨by simp [rotate_eq, size], fun i hi => ?_, by simp [rotate_eq], fun m => by simp [rotate_eq, concat]⟩
  rw [rotate_eq, List.getElem?_reverse hi]
  rfl

/-- C77: `exists_in` is true exactly if some type of the list converts to the given one; in a list of unrelated types, exactly
if the type is in the list. -/
theorem C77_exists (conv : α → α → Bool) (t : α) (l : List α) :
    (existsIn conv t l = true ↔ ∃ y ∈ l, conv y t = true) ∧
    ((∀ a b, conv a b = true ↔ a = b) → (existsIn conv t l = true ↔ t ∈ l)) := by
  refine ⟨existsIn_iff conv t l, fun h => ?_⟩
  rw [existsIn_iff]
  constructor
  · rintro ⟨y, h1, h2⟩
    rw [← (h y t).1 h2]
    exact h1
  · intro h1
    exact ⟨t, h1, (h t t).2 rfl⟩

/-- C77: `add_item` keeps the list as its beginning, adds nothing but the type, adds it at most once, and does nothing the
second time. -/
theorem C77_add (conv : α → α → Bool) (hc : ∀ a, conv a a = true) (t : α) (l : List α) :
    (∃ m, addItem conv t l = l ++ m ∧ (m = [] ∨ m = [t])) ∧ existsIn conv t (addItem conv t l) = true ∧
    addItem conv t (addItem conv t l) = addItem conv t l ∧ (l.Nodup → (addItem conv t l).Nodup) := by
  have h2 : existsIn conv t (addItem conv t l) = true := by
    unfold addItem
    split
    · assumption
    · rw [existsIn_iff]
      exact ⟨t, by simp, hc t⟩
  refine ⟨?_, h2, ?_, fun hn => ?_⟩
  · unfold addItem
    split
    · exact ⟨[], by simp, .inl rfl⟩
    · exact ⟨[t], rfl, .inr rfl⟩
  · rw [show addItem conv t (addItem conv t l) = if existsIn conv t (addItem conv t l) then addItem conv t l else
      addItem conv t l ++ [t] from rfl, if_pos h2]
  · unfold addItem
    split
    · exact hn
    · rename_i h
      refine List.nodup_append.2 ⟨hn, by simp, fun a ha b hb hab => ?_⟩
      simp only [List.mem_singleton] at hb
      subst hb
      subst hab
      exact h ((existsIn_iff conv a l).2 ⟨a, ha, hc a⟩)

/-- C77: `remove_item` removes every occurrence of the type and keeps all other types with their order and number. -/
theorem C77_remove [DecidableEq α] (t : α) (l : List α) :
    t ∉ removeItem t l ∧ (removeItem t l).Sublist l ∧ (∀ y, y ≠ t → (removeItem t l).count y = l.count y) ∧
    removeItem t (removeItem t l) = removeItem t l := by
  rw [removeItem_eq]
  refine ⟨by simp, List.filter_sublist, fun y hy => List.count_filter (by simp [hy]), ?_⟩
  rw [removeItem_eq]
  simp

/-- C77: `remove_item` undoes `add_item` of a type that was not in the list, if the types are unrelated. -/
theorem C77_add_remove [DecidableEq α] (conv : α → α → Bool) (hc : ∀ a b, conv a b = true ↔ a = b) (t : α) (l : List α)
    (h : t ∉ l) : removeItem t (addItem conv t l) = l := by
  have he : ¬ existsIn conv t l = true := fun he => h (((C77_exists conv t l).2 hc).1 he)
  rw [addItem, if_neg he, removeItem_eq, List.filter_append]
  have h1 : l.filter (fun y => Decidable.decide (y ≠ t)) = l := by
    rw [List.filter_eq_self]
    intro a ha
    simp only [ne_eq, decide_eq_true_eq]
    rintro rfl
    exact h ha
  rw [h1]
  simp

end

/-- Two types, the first of which converts to the second. -/
def oneWay (a b : Bool) : Bool := a == b || (!a && b)

/-- C77: with convertible types the two functions disagree: `exists_in` finds a type that is not in the list, `add_item` does
not add it, and `remove_item` has nothing to remove. -/
theorem C77_fails_convertible : (∀ a, oneWay a a = true) ∧ existsIn oneWay true [false] = true ∧ true ∉ [false] ∧
    true ∉ addItem oneWay true [false] ∧ removeItem true [false] = [false] := by decide

example : rotate [1, 2, 3] = [3, 2, 1] := by decide
example : removeItem 2 [1, 2, 3, 2] = [1, 3] := by decide
example : addItem (fun a b => a == b) 4 [1, 2] = [1, 2, 4] ∧ addItem (fun a b => a == b) 2 [1, 2] = [1, 2] := by decide

end Ctre
