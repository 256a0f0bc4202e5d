import Verif.Model.Atoms

/-
Patterns whose matching terminates.

An iteration of a loop is run with the demand that it consumes something.  The demand is dropped when a part of the
iteration has consumed a character, and also, with or without consumption, when a greedy loop of minimum 0 is left.
-/
namespace Ctre

mutual
/-- Whatever is matched by `r` is not empty. -/
def Re.moves : Re → Bool
  | .cc _ | .any | .reject _ => true
  | .str cs => !cs.isEmpty
  | .sel l => movesAll l
  | .seq l | .cap _ _ l => movesAny l
  | .rep _ a _ l => decide (1 ≤ a) && (movesAny l || honestAll l)
  | .atomic l => movesAny l || honestAll l
  | _ => false

/-- The demand that an iteration consumes something is dropped by `r` only if `r` has consumed something. -/
def Re.honest : Re → Bool
  | .sel l => honestAll l
  | .seq l | .cap _ _ l => movesAny l || honestAll l
  | .rep .greedy a _ l => decide (1 ≤ a) && (movesAny l || honestAll l)
  | .rep .lazy _ _ l => movesAny l || honestAll l
  | _ => true

def movesAll : List Re → Bool
  | [] => true
  | r :: l => r.moves && movesAll l

def movesAny : List Re → Bool
  | [] => false
  | r :: l => r.moves || movesAny l

def honestAll : List Re → Bool
  | [] => true
  | r :: l => r.honest && honestAll l
end

mutual
/-- Every successful iteration of every unbounded loop outside lookbehinds consumes something. -/
def Re.progressive : Re → Bool
  | .sel l | .seq l | .cap _ _ l | .ahead _ l | .atomic l => progressiveAll l
  | .rep _ _ b l => (decide (b ≠ 0) || movesAny l || honestAll l) && progressiveAll l
  | _ => true

def progressiveAll : List Re → Bool
  | [] => true
  | r :: l => r.progressive && progressiveAll l
end

mutual
/-- Size of a pattern, with the finite upper bounds of the repetitions. -/
def Re.weight : Re → Nat
  | .sel l => 1 + weightAll l
  | .seq l => 1 + weightAll l
  | .rep .greedy _ b l => 4 + b + weightAll l
  | .rep _ _ b l => 3 + b + weightAll l
  | .cap _ _ l => 3 + weightAll l
  | .ahead _ l | .behind _ l => 3 + weightAll l
  | .atomic l => 5 + weightAll l
  | _ => 1

def weightAll : List Re → Nat
  | [] => 0
  | r :: l => (r.weight + 1) + weightAll l
end

end Ctre
