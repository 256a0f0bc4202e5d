import Verif.Spec.Semantics
import Verif.Spec.Shapes
import Verif.Spec.Runs

/-
What a result object says about a declarative match.
-/
namespace Ctre

/-- The meaning of properties and group names for a pattern. -/
def envOf (C : Cfg) (r : Re) : Env := { uni := C.uni, number := groupNumber r.captures }

/-- The result `c` reports the match from `b` to the state `τ`: `get<0>()` is the span from `b` to the
position of `τ`, and `get<id>()` tests true exactly for the groups captured in `τ`, with the span
captured there. -/
structure Reports (c : Caps) (b : Nat) (τ : MState) : Prop where
  whole : c.get 0 = some ⟨some b, some τ.pos, true⟩
  group : ∀ id sl, id ≠ 0 → c.get id = some sl →
    match τ.cap id with
    | some (b, e) => sl = ⟨some b, some e, true⟩
    | none => sl.matched = false

end Ctre
