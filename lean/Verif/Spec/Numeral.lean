import Verif.Model.Chars
import Mathlib.Data.Nat.Digits.Defs
/-
Numbers in front of a text.
-/
namespace Ctre

/-- The character `v` is a digit for the number `d`: one of `0` to `9`, `a` to `z`, `A` to `Z`. -/
def DigitChar (d : Nat) (v : Int) : Prop :=
  (d < 10 ∧ v = 48 + (d : Int)) ∨ (10 ≤ d ∧ d < 36 ∧ (v = 87 + (d : Int) ∨ v = 55 + (d : Int)))

/-- The text begins with a number, with a minus sign only if `signed`: `ds` are its digits, `rest` is the text behind, which does
not begin with a digit. -/
structure Numeral (signed : Bool) (base : Nat) (w : List Ch) (neg : Bool) (ds : List Nat) : Prop where
  sign : neg = true → signed = true
  some : ds ≠ []
  small : ∀ d ∈ ds, d < base
  text : ∃ dt rest, w = (if neg then [45] else []) ++ dt ++ rest ∧ List.Forall₂ DigitChar ds dt ∧
    ∀ v l, rest = v :: l → ∀ d, d < base → ¬ DigitChar d v

/-- The value of a number with a sign and digits. -/
def numeralValue (base : Nat) (neg : Bool) (ds : List Nat) : Int :=
  if neg then -(Nat.ofDigits base ds.reverse : Nat) else (Nat.ofDigits base ds.reverse : Nat)

/-- `-12x` begins with the number -12. -/
example : Numeral true 10 [45, 49, 50, 120] true [1, 2] where
  sign := fun _ => rfl
  some := by simp
  small := by simp
  text := ⟨[49, 50], [120], rfl, by simp [DigitChar], by
    rintro v l h d hd
    cases h
    rintro (⟨h1, h2⟩ | ⟨h1, h2, h3⟩)
    · have : (120 : Int) = 48 + (d : Int) := h2
      omega
    · omega⟩
example : numeralValue 10 true [1, 2] = -12 := by decide
example : numeralValue 16 false [15, 15] = 255 := by decide

end Ctre
