import Verif.Spec.Surface

/-
Two features of pattern texts that are not described by the syntax trees of `Verif.Spec.Surface`.
-/
namespace Ctre.Surface

/-- `i`, `c`, `s`, `m` -/
def modeLetters : List Nat := [105, 99, 115, 109]

/-- The text contains `(?` with two mode letters (as in `(?im)`), or `)?+`. -/
def Unusual (t : List Nat) : Prop :=
  (∃ u v x y, x ∈ modeLetters ∧ y ∈ modeLetters ∧ t = u ++ [40, 63, x, y] ++ v) ∨ (∃ u v, t = u ++ [41, 63, 43] ++ v)

end Ctre.Surface
