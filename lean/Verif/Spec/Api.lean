import Verif.Model.Api
import Verif.Spec.Cursor

/-
Answers over different representations of the same subject.
-/
namespace Ctre

/-- All positions of an iterator moved by `φ`. -/
def RIter.mapPos (φ : Nat → Nat) (it : RIter) : RIter := { current := φ it.current, result := it.result.mapPos φ }
def SIter.mapPos (φ : Nat → Nat) (it : SIter) : SIter :=
  { current := φ it.current, result := it.result.mapPos φ, lastMatch := it.lastMatch }

/-- All positions of an answer moved by `φ`. -/
def Answer.mapPos (φ : Nat → Nat) : Answer → Answer
  | .one e => .one (e.mapPos φ)
  | .many it => .many fun k => (it k).map (RIter.mapPos φ)
  | .pieces it => .pieces fun k => (it k).map (SIter.mapPos φ)

/-- The answer on a sequence of values. -/
def Method.plain (C : Cfg) (n : Nat) (f : Flags) (r : Re) (s : List Ch) : Method → Answer
  | .match_ => .one (cMatch C n s f r)
  | .search => .one (cSearch C n s f r)
  | .startsWith => .one (cStartsWith C n s f r)
  | .searchAll | .iterator => .many (searchAllNth C n s f r)
  | .tokenize => .many (tokenizeNth C n s f r)
  | .split => .pieces (splitNth C n s f r)

end Ctre
