import Verif.Model.Atoms
/-
Patterns that are written in one case, as far as it matters when case is ignored.
-/
namespace Ctre

/-- The character with an ASCII letter in upper case (`up`) or lower case. -/
def caseForm (up : Bool) (v : Int) : Int :=
  if up = true then (if 97 ≤ v ∧ v ≤ 122 then v - 32 else v) else (if 65 ≤ v ∧ v ≤ 90 then v + 32 else v)

/-- An ASCII letter. -/
def IsLetter (v : Int) : Prop := (65 ≤ v ∧ v ≤ 90) ∨ (97 ≤ v ∧ v ≤ 122)

/-- A letter that belongs to the class when case is ignored belongs to it, when case is not ignored, in the given case; whichever Unicode
properties the letter has. -/
def CC.Folds (up : Bool) (c : CC) : Prop :=
  ∀ (P : Nat → Bool) (v : Ch), IsLetter v → c.matchChar (fun p _ => P p) true v = true →
    c.matchChar (fun p _ => P p) false (caseForm up v) = true

mutual
/-- The leaves of a tree, except the empty pattern and the one that never matches; a string counts as its characters. -/
def Re.leaves : Re → List Re
  | .str cs => cs.map fun c => .cc (.chr c)
  | .sel l | .seq l | .rep _ _ _ l | .cap _ _ l | .ahead _ l | .behind _ l | .atomic l => leavesAll l
  | .empty | .reject _ => []
  | r => [r]

def leavesAll : List Re → List Re
  | [] => []
  | r :: l => r.leaves ++ leavesAll l
end

/-- Case is never ignored, or all classes are written in the same case.  `ci`: case is ignored at the beginning. -/
def Re.CaseSafe (ci : Bool) (r : Re) : Prop :=
  (ci = false ∧ Re.mode .caseInsensitive ∉ r.leaves) ∨ ∃ up, ∀ c, Re.cc c ∈ r.leaves → c.Folds up

end Ctre
