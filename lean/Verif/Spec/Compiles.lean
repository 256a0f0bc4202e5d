import Verif.Model.Atoms
import Verif.Model.Results

/-
Patterns for which every instantiation compiles.
-/
namespace Ctre

/-- The names of the groups of a result. -/
def groupNames (gs : List Group) : List (List Nat) := gs.filterMap (·.name)

mutual
/-- Every group and every back reference refers to one of the groups of the result; a lookbehind contains no
repetition, atomic group, group or back reference.  `lb`: the pattern is inside a lookbehind. -/
def Re.tame (ids : List Nat) (names : List (List Nat)) : Bool → Re → Bool
  | lb, .sel l | lb, .seq l | lb, .ahead _ l => tameAll ids names lb l
  | _, .behind _ l => tameAll ids names true l
  | lb, .rep _ _ _ l | lb, .atomic l => !lb && tameAll ids names false l
  | lb, .cap id _ l => !lb && ids.contains id && tameAll ids names false l
  | lb, .bref id => !lb && ids.contains id
  | lb, .brefName n => !lb && names.contains n
  | _, _ => true

def tameAll (ids : List Nat) (names : List (List Nat)) : Bool → List Re → Bool
  | _, [] => true
  | lb, r :: l => r.tame ids names lb && tameAll ids names lb l
end

mutual
/-- May be a member of a negative set. -/
def CC.listable : CC → Bool
  | .set l => listableAll l
  | .negSet _ | .negate _ => false
  | _ => true

def listableAll : List CC → Bool
  | [] => true
  | c :: l => c.listable && listableAll l
end

mutual
/-- May be a member of a set. -/
def CC.member : CC → Bool
  | .set l => memberAll l
  | .negSet l => listableAll l
  | .negate _ => false
  | _ => true

def memberAll : List CC → Bool
  | [] => true
  | c :: l => c.member && memberAll l
end

/-- A class which the analysis of first characters can handle. -/
def CC.scans : CC → Bool
  | .negate l => listableAll l
  | c => c.member

mutual
/-- The analysis of first characters can handle the pattern: no `\B`, no mode switch. -/
def Re.scans : Re → Bool
  | .cc c => c.scans
  | .notBoundary _ | .mode _ | .reject _ => false
  | .sel l | .seq l | .rep _ _ _ l | .cap _ _ l | .atomic l => scansAll l
  | _ => true

def scansAll : List Re → Bool
  | [] => true
  | r :: l => r.scans && scansAll l
end

mutual
/-- The analysis of first characters can handle the content of every greedy repetition and what follows it.
`T`: it can handle what follows the pattern. -/
def Re.scannable (T : Bool) : Re → Bool
  | .sel l => scannableEach T l
  | .seq l | .cap _ _ l => scannableAll T l
  | .rep k _ _ l => (decide (k ≠ .greedy) || (scansAll l && T)) && scannableAll true l
  | .atomic l | .ahead _ l => scannableAll true l
  | _ => true

def scannableAll (T : Bool) : List Re → Bool
  | [] => true
  | r :: l => r.scannable (scansAll l && T) && scannableAll T l

def scannableEach (T : Bool) : List Re → Bool
  | [] => true
  | r :: l => r.scannable T && scannableEach T l
end

end Ctre
