import Verif.Spec.Cursor
import Verif.Model.Iterators

/-
Patterns whose outcome depends only on the text from the current position on.
-/
namespace Ctre

mutual
/-- The pattern has no `^`, `\A`, `\b`, `\B` and no lookbehind; alternations have branches. -/
def Re.forward : Re → Bool
  | .sBegin | .lBegin | .boundary _ | .notBoundary _ | .behind _ _ => false
  | .sel l => !l.isEmpty && forwardAll l
  | .seq l | .rep _ _ _ l | .cap _ _ l | .ahead _ l | .atomic l => forwardAll l
  | .cc _ | .any | .str _ | .empty | .sEnd | .sEndLine | .lEnd | .bref _ | .brefName _ | .mode _ | .reject _ => true

/-- The same of every part of a list. -/
def forwardAll : List Re → Bool
  | [] => true
  | r :: l => Re.forward r && forwardAll l
end

/-- The result for the text from position `k` on, seen as a result for the whole text. -/
def Caps.moved (k : Nat) (c : Caps) : Caps := c.mapPos (k + ·)

/-- The same of an outcome. -/
def Exec.moved (k : Nat) (e : Exec) : Exec := e.mapPos (k + ·)

/-- The same of an iterator of `search_all` and `tokenize`. -/
def RIter.moved (k : Nat) (it : RIter) : RIter := { current := k + it.current, result := it.result.moved k }

/-- The same of an iterator of `split`. -/
def SIter.moved (k : Nat) (it : SIter) : SIter :=
  { current := k + it.current, result := it.result.moved k, lastMatch := it.lastMatch }

end Ctre
