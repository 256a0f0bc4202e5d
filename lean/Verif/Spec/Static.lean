import Verif.Model.Atoms
import Verif.Spec.Compiles

/-
Which patterns compile: conditions on the pattern alone.
-/
namespace Ctre

/-- Bounds that nothing can meet. -/
def inverted (a b : Nat) : Bool := decide (b ≠ 0 ∧ a > b)

mutual
/-- What follows the pattern is looked at: it is not behind an impossible repetition. -/
def Re.opens : Re → Bool
  | .reject _ => false
  | .sel l => opensAny l
  | .seq l | .cap _ _ l => !l.isEmpty && opensAll l
  | .rep _ a b _ => !inverted a b
  | _ => true

def opensAny : List Re → Bool
  | [] => false
  | r :: l => r.opens || opensAny l

def opensAll : List Re → Bool
  | [] => true
  | r :: l => r.opens && opensAll l
end

mutual
/-- Groups and back references refer to groups of the result; no repetition, atomic group, group or back reference in a
lookbehind (`lb`).  What is behind an impossible repetition, or inside of it, does not matter. -/
def Re.lawful (id : Nat → Bool) (name : List Nat → Bool) : Bool → Re → Bool
  | lb, .sel l => lawfulEach id name lb l
  | lb, .seq l | lb, .ahead _ l => lawfulSeq id name lb l
  | _, .behind _ l => lawfulSeq id name true l
  | lb, .rep _ a b l => inverted a b || (!lb && lawfulSeq id name false l)
  | lb, .atomic l => !lb && lawfulSeq id name false l
  | lb, .cap i _ l => !lb && id i && lawfulSeq id name false l
  | lb, .bref i => !lb && id i
  | lb, .brefName n => !lb && name n
  | _, _ => true

def lawfulEach (id : Nat → Bool) (name : List Nat → Bool) : Bool → List Re → Bool
  | _, [] => true
  | lb, r :: l => r.lawful id name lb && lawfulEach id name lb l

def lawfulSeq (id : Nat → Bool) (name : List Nat → Bool) : Bool → List Re → Bool
  | _, [] => true
  | lb, r :: l => r.lawful id name lb && (!r.opens || lawfulSeq id name lb l)
end

mutual
/-- Among the things that a text may begin with there is no `\B` and no mode switch.  `T`: the same for what follows. -/
def Re.seen (T : Bool) : Re → Bool
  | .str [] | .empty | .boundary _ | .sBegin | .lBegin => T
  | .sel l => seenEach T l
  | .seq l | .cap _ _ l | .atomic l => seenSeq T l
  | .rep _ a _ l => (decide (a ≠ 0) || T) && seenSeq T l
  | .notBoundary _ | .mode _ | .reject _ => false
  | _ => true

def seenEach (T : Bool) : List Re → Bool
  | [] => true
  | r :: l => r.seen T && seenEach T l

def seenSeq (T : Bool) : List Re → Bool
  | [] => T
  | r :: l => r.seen (seenSeq T l)
end

mutual
/-- There is no `\B` and no mode switch among the things that the content of a greedy repetition, or what follows it, may
begin with.  `T`: as for `Re.seen`. -/
def Re.analysed (T : Bool) : Re → Bool
  | .sel l => analysedEach T l
  | .seq l | .cap _ _ l => analysedSeq T l
  | .rep k a b l => inverted a b || ((decide (k ≠ .greedy) || (seenSeq true l && T)) && analysedSeq true l)
  | .atomic l | .ahead _ l => analysedSeq true l
  | _ => true

def analysedEach (T : Bool) : List Re → Bool
  | [] => true
  | r :: l => r.analysed T && analysedEach T l

def analysedSeq (T : Bool) : List Re → Bool
  | [] => true
  | r :: l => r.analysed (seenSeq T l) && (!r.opens || analysedSeq T l)
end

mutual
/-- No negated class inside of a class. -/
def Re.flatClasses : Re → Bool
  | .cc c => c.scans
  | .sel l | .seq l | .rep _ _ _ l | .cap _ _ l | .ahead _ l | .behind _ l | .atomic l => flatClassesAll l
  | _ => true

def flatClassesAll : List Re → Bool
  | [] => true
  | r :: l => r.flatClasses && flatClassesAll l
end

mutual
/-- Number of nodes of a pattern; a class is one node. -/
def Re.nodes : Re → Nat
  | .sel l | .seq l | .rep _ _ _ l | .cap _ _ l | .ahead _ l | .behind _ l | .atomic l => 1 + nodesAll l
  | _ => 1

def nodesAll : List Re → Nat
  | [] => 0
  | r :: l => r.nodes + nodesAll l
end

end Ctre
