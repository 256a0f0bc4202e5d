import Verif.Spec.Semantics

/-
Lookbehind.
-/
namespace Ctre

mutual
/-- Characters, classes, strings, word boundaries, concatenation and alternation. -/
def Re.backward : Re → Bool
  | .cc _ | .any | .str _ | .empty | .boundary _ | .notBoundary _ => true
  | .reject own => own
  | .sel l => backwardAll l
  | .seq l => !l.isEmpty && backwardAll l
  | _ => false

def backwardAll : List Re → Bool
  | [] => true
  | r :: l => r.backward && backwardAll l
end

/-- Some stretch of the subject that ends at `p` matches the concatenation `l`. -/
def Before (E : Env) (l : List Re) (s : List Ch) (f : Flags) (p : Nat) : Prop :=
  ∃ b, b ≤ p ∧ MatchAll E l s (.start b f) (.start p f)

end Ctre
