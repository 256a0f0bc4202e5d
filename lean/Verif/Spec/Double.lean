import Mathlib.Data.Rat.Floor
/-
Numbers that a `double` can hold (binary64 of IEEE 754).
-/
namespace Ctre

/-- A significand of 53 binary digits, and the exponents of binary64. -/
def IsDouble (x : ℚ) : Prop := ∃ m k : ℤ, |m| < 2 ^ 53 ∧ -1074 ≤ k ∧ k ≤ 971 ∧ x = m * 2 ^ k

/-- `x` can be held, and nothing that can be held is nearer to `q`. -/
def NearestDouble (q x : ℚ) : Prop := IsDouble x ∧ ∀ y, IsDouble y → |q - x| ≤ |q - y|

end Ctre
