import Verif.Spec.Shapes

/-
A decidable class of patterns with unambiguous loops.
-/
namespace Ctre

mutual
/-- The pattern consumes at least one character. -/
def Re.consumes : Re → Bool
  | .cc _ => true
  | .any => true
  | .str cs => !cs.isEmpty
  | .sel l => consumesAll l
  | .seq l => consumesSome l
  | .rep _ a _ l => a != 0 && consumesSome l
  | .cap _ _ l => consumesSome l
  | .atomic l => consumesSome l
  | .reject _ => true
  | _ => false

/-- Some part of a sequence consumes. -/
def consumesSome : List Re → Bool
  | [] => false
  | r :: l => Re.consumes r || consumesSome l

/-- Every alternative consumes. -/
def consumesAll : List Re → Bool
  | [] => true
  | r :: l => Re.consumes r && consumesAll l
end

mutual
/-- The constants the first consumed character must be one of (up to letter case), if known. -/
def Re.heads : Re → Option (List Nat)
  | .cc (.chr c) => some [c]
  | .cc (.enum cs) => some cs
  | .str (c :: _) => some [c]
  | .sel l => headsAny l
  | .seq l => headsSeq l
  | .rep _ a _ l => if a = 0 then none else headsSeq l
  | .cap _ _ l => headsSeq l
  | .atomic l => headsSeq l
  | _ => none

def headsSeq : List Re → Option (List Nat)
  | [] => none
  | r :: _ => Re.heads r

def headsAny : List Re → Option (List Nat)
  | [] => some []
  | r :: l => match Re.heads r, headsAny l with
    | some H, some K => some (H ++ K)
    | _, _ => none
end

/-- Lower case of an ASCII letter. -/
def foldCase (c : Nat) : Nat := if isUpper c then c + 32 else c

/-- The two lists of constants have no common character, up to letter case. -/
def apart (H K : List Nat) : Bool := H.all fun c => K.all fun d => foldCase c != foldCase d

mutual
/-- The pattern contains no capture group. -/
def Re.noGroups : Re → Bool
  | .sel l => noGroupsList l
  | .seq l => noGroupsList l
  | .rep _ _ _ l => noGroupsList l
  | .cap _ _ _ => false
  | .ahead _ l => noGroupsList l
  | .behind _ l => noGroupsList l
  | .atomic l => noGroupsList l
  | _ => true

def noGroupsList : List Re → Bool
  | [] => true
  | r :: l => Re.noGroups r && noGroupsList l
end

mutual
/-- From every position the pattern matches in at most one way: no repetition with a variable count,
and alternatives begin with different characters. -/
def Re.rigid : Re → Bool
  | .sel l => rigidAny l
  | .seq l => rigidList l
  | .rep _ a b l => a != 0 && a == b && rigidList l
  | .cap _ _ l => rigidList l
  | .ahead true l => rigidList l || noGroupsList l
  | .behind true l => rigidList l || noGroupsList l
  | .atomic l => rigidList l
  | _ => true

def rigidList : List Re → Bool
  | [] => true
  | r :: l => Re.rigid r && rigidList l

/-- Each alternative is rigid and begins with characters no later alternative begins with. -/
def rigidAny : List Re → Bool
  | [] => true
  | [r] => Re.rigid r
  | r :: l => Re.rigid r && rigidAny l && (match Re.heads r, headsAny l with
    | some H, some K => apart H K
    | _, _ => false)
end

mutual
/-- Decidable version of `Re.Plain`. -/
def Re.plain : Re → Bool
  | .sel l => plainList l
  | .seq l => !l.isEmpty && plainList l
  | .rep k a b l => (k != .poss || (a == b && b != 0)) && rigidList l && consumesSome l && plainList l
  | .cap _ _ l => !l.isEmpty && plainList l
  | .ahead pos l => (!pos || rigidList l || noGroupsList l) && !l.isEmpty && plainList l
  | .behind pos l => (!pos || rigidList l || noGroupsList l) && !l.isEmpty && plainList l
  | .atomic l => rigidList l && consumesSome l && plainList l
  | _ => true

def plainList : List Re → Bool
  | [] => true
  | r :: l => Re.plain r && plainList l
end

end Ctre
