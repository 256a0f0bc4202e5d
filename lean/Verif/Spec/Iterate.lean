/-
Finite iteration of a relation.
-/
namespace Ctre

/-- `Iterate R k x y`: `y` is reached from `x` by exactly `k` steps of `R`. -/
inductive Iterate {α : Type} (R : α → α → Prop) : Nat → α → α → Prop
  | zero (x : α) : Iterate R 0 x x
  | succ {k : Nat} {x y z : α} : R x y → Iterate R k y z → Iterate R (k + 1) x z

end Ctre
