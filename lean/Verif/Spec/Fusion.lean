import Verif.Spec.Surface

/-
Bounds of quantifiers.
-/
namespace Ctre.Surface

/-- The quantifier is `*`, `+`, `{n}`, `{n,}` or `{n,m}`. -/
def Quant.counts : Quant → Bool
  | .none => false
  | .opt _ => false
  | _ => true

/-- The smallest number of iterations. -/
def Quant.least : Quant → Nat
  | .plus _ => 1
  | .exactly ds => decimal ds
  | .atLeast ds _ => decimal ds
  | .between ds _ _ => decimal ds
  | _ => 0

/-- The largest number of iterations, 0 if there is no limit. -/
def Quant.most : Quant → Nat
  | .opt _ => 1
  | .exactly ds => decimal ds
  | .between _ es _ => decimal es
  | _ => 0

end Ctre.Surface

namespace Ctre

/-- The upper bound of two repetitions together, 0 if there is no limit. -/
def fusedMax (b d : Nat) : Nat := if b ≠ 0 ∧ d ≠ 0 then b + d else 0

end Ctre
