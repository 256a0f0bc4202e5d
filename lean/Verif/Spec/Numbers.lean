import Verif.Model.Atoms

/-
Which group numbers a pattern uses.
-/
namespace Ctre

mutual
/-- Every group and every back reference of the pattern has one of the numbers; no back reference is by name. -/
def Re.numbersIn (I : List Nat) : Re → Bool
  | .sel l | .seq l | .rep _ _ _ l | .ahead _ l | .behind _ l | .atomic l => numbersInAll I l
  | .cap id _ l => I.contains id && numbersInAll I l
  | .bref id => I.contains id
  | .brefName _ => false
  | _ => true

def numbersInAll (I : List Nat) : List Re → Bool
  | [] => true
  | r :: l => r.numbersIn I && numbersInAll I l
end

mutual
/-- The pattern with the same number for all groups. -/
def Re.bare : Re → Re
  | .sel l => .sel (bareAll l)
  | .seq l => .seq (bareAll l)
  | .rep k a b l => .rep k a b (bareAll l)
  | .ahead p l => .ahead p (bareAll l)
  | .behind p l => .behind p (bareAll l)
  | .atomic l => .atomic (bareAll l)
  | .cap _ name l => .cap 1 name (bareAll l)
  | r => r

def bareAll : List Re → List Re
  | [] => []
  | r :: l => r.bare :: bareAll l
end

mutual
/-- There is a back reference. -/
def Re.refers : Re → Bool
  | .sel l | .seq l | .rep _ _ _ l | .ahead _ l | .behind _ l | .atomic l | .cap _ _ l => refersAny l
  | .bref _ | .brefName _ => true
  | _ => false

def refersAny : List Re → Bool
  | [] => false
  | r :: l => r.refers || refersAny l
end

/-- The patterns differ only in the numbers of their groups, and do not refer to them. -/
def Re.SameButNumbers (r r' : Re) : Prop := r.bare = r'.bare ∧ r.refers = false ∧ r'.refers = false

mutual
/-- All groups have numbers that are larger by `k`. -/
def Re.shift (k : Nat) : Re → Re
  | .sel l => .sel (shiftAll k l)
  | .seq l => .seq (shiftAll k l)
  | .rep kd a b l => .rep kd a b (shiftAll k l)
  | .ahead p l => .ahead p (shiftAll k l)
  | .behind p l => .behind p (shiftAll k l)
  | .atomic l => .atomic (shiftAll k l)
  | .cap id name l => .cap (id + k) name (shiftAll k l)
  | r => r

def shiftAll (k : Nat) : List Re → List Re
  | [] => []
  | r :: l => r.shift k :: shiftAll k l
end

end Ctre
