import Verif.Model.Atoms

/-
Patterns that look only at the text they match.
-/
namespace Ctre

mutual
/-- The pattern has no anchors, no word boundaries and no lookarounds. -/
def Re.inner : Re → Bool
  | .cc _ | .any | .str _ | .empty | .bref _ | .brefName _ | .mode _ | .reject _ => true
  | .sel l => !l.isEmpty && innerList l
  | .seq l | .rep _ _ _ l | .cap _ _ l | .atomic l => innerList l
  | _ => false

def innerList : List Re → Bool
  | [] => true
  | r :: l => r.inner && innerList l
end

end Ctre
