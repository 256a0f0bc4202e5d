import Verif.Model.Eval

/-
The growth of the work with the length of the subject, read off the pattern.
-/
namespace Ctre

mutual
/-- Number of repetitions without an upper limit and of back references. -/
def Re.loops : Re → Nat
  | .rep _ _ b l => (if b = 0 then 1 else 0) + loopsAll l
  | .bref _ | .brefName _ => 1
  | .sel l | .seq l | .cap _ _ l | .ahead _ l | .behind _ l | .atomic l => loopsAll l
  | _ => 0

def loopsAll : List Re → Nat
  | [] => 0
  | r :: l => r.loops + loopsAll l
end

mutual
/-- Repetitions without an upper limit have been marked possessive and are not nested; there are no back references. -/
def Re.swift : Re → Bool
  | .rep k _ b l => if b = 0 then decide (k = .poss) && boundedAll l else swiftAll l
  | .bref _ | .brefName _ => false
  | .sel l | .seq l | .cap _ _ l | .ahead _ l | .behind _ l | .atomic l => swiftAll l
  | _ => true

def swiftAll : List Re → Bool
  | [] => true
  | r :: l => r.swift && swiftAll l

/-- No repetition without an upper limit and no back reference. -/
def Re.bounded : Re → Bool
  | .rep _ _ b l => decide (b ≠ 0) && boundedAll l
  | .bref _ | .brefName _ => false
  | .sel l | .seq l | .cap _ _ l | .ahead _ l | .behind _ l | .atomic l => boundedAll l
  | _ => true

def boundedAll : List Re → Bool
  | [] => true
  | r :: l => r.bounded && boundedAll l
end

mutual
/-- The exponent for a pattern that is followed by the stack `t`, whose exponent is `d`.  A repetition that gives back
iterations tries the rest of the pattern after each of them; a possessive one (or a greedy one that cannot collide with
what follows) tries it once. -/
def Re.degree (C : Cfg) (t : Stack) (d : Nat) : Re → Nat
  | .reject _ => 0
  | .sel l => degreeSel C t d l
  | .seq l => degreeSeq C t d l
  | .rep k _ b m =>
    let e := degreeItems C [.endCycle] 0 m
    let again := if b = 0 then 1 else 0
    match k with
    | .lazy => again + max e d
    | .poss => max (again + e) d
    | .greedy =>
      match (if C.greedyOpt then loopCollides m t else some true) with
      | none => 0
      | some false => max (again + e) d
      | some true => again + max e d
  | .cap id _ m => degreeSeq C (.numMark id :: t) d m
  | .bref _ | .brefName _ => max 1 d
  | .ahead _ m => max (degreeSeq C [.endAhead] 0 m) d
  | .behind _ m => max (degreeSeq C [.endBehind] 0 m) d
  | .atomic m => max (degreeItems C [.endCycle] 0 m) d
  | _ => d

def degreeSel (C : Cfg) (t : Stack) (d : Nat) : List Re → Nat
  | [] => 0
  | r :: l => max (r.degree C t d) (degreeSel C t d l)

def degreeSeq (C : Cfg) (t : Stack) (d : Nat) : List Re → Nat
  | [] => 0
  | r :: m => r.degree C (if m.isEmpty then t else .re (.seq m) :: t) (if m.isEmpty then d else degreeSeq C t d m)

def degreeItems (C : Cfg) (t : Stack) (d : Nat) : List Re → Nat
  | [] => d
  | r :: m => r.degree C (items m t) (degreeItems C t d m)
end

/-- The exponent for `starts_with` (and for each attempt of `search`). -/
def Re.prefixDegree (C : Cfg) (r : Re) : Nat := r.degree C [.endMark, .accept] 0

/-- The exponent for `match`. -/
def Re.fullDegree (C : Cfg) (r : Re) : Nat := r.degree C [.re .sEnd, .endMark, .accept] 0

end Ctre
