import Verif.Model.Results

/-
Syntactic conditions on patterns used as hypotheses.
-/
namespace Ctre

mutual
/-- No group contains a back reference to itself (or to an enclosing group) or a group with the same
number; group numbers are positive. `O` are the groups that are open. -/
def Re.noSelf (num : List Nat → Option Nat) : List Nat → Re → Bool
  | O, .sel l => noSelfList num O l
  | O, .seq l => noSelfList num O l
  | O, .rep _ _ _ l => noSelfList num O l
  | O, .cap id _ l => id != 0 && !O.contains id && noSelfList num (id :: O) l
  | O, .bref id => !O.contains id
  | O, .brefName n => match num n with
    | some id => !O.contains id
    | none => true
  | O, .ahead _ l => noSelfList num O l
  | O, .behind _ l => noSelfList num O l
  | O, .atomic l => noSelfList num O l
  | _, _ => true

def noSelfList (num : List Nat → Option Nat) : List Nat → List Re → Bool
  | _, [] => true
  | O, r :: l => Re.noSelf num O r && noSelfList num O l
end

mutual
/-- Every group of the pattern has its number in `G`. -/
def Re.capsIn (G : List Nat) : Re → Bool
  | .sel l => capsInList G l
  | .seq l => capsInList G l
  | .rep _ _ _ l => capsInList G l
  | .cap id _ l => G.contains id && capsInList G l
  | .ahead _ l => capsInList G l
  | .behind _ l => capsInList G l
  | .atomic l => capsInList G l
  | _ => true

def capsInList (G : List Nat) : List Re → Bool
  | [] => true
  | r :: l => Re.capsIn G r && capsInList G l
end

mutual
/-- Negative lookaround contains only groups with numbers in `G`. -/
def Re.negCaps (G : List Nat) : Re → Bool
  | .sel l => negCapsList G l
  | .seq l => negCapsList G l
  | .rep _ _ _ l => negCapsList G l
  | .cap _ _ l => negCapsList G l
  | .ahead pos l => negCapsList G l && (pos || capsInList G l)
  | .behind pos l => negCapsList G l && (pos || capsInList G l)
  | .atomic l => negCapsList G l
  | _ => true

def negCapsList (G : List Nat) : List Re → Bool
  | [] => true
  | r :: l => Re.negCaps G r && negCapsList G l
end

mutual
/-- The pattern contains no negative lookahead or lookbehind. -/
def Re.noNegLook : Re → Bool
  | .sel l => noNegLookList l
  | .seq l => noNegLookList l
  | .rep _ _ _ l => noNegLookList l
  | .cap _ _ l => noNegLookList l
  | .ahead pos l => pos && noNegLookList l
  | .behind pos l => pos && noNegLookList l
  | .atomic l => noNegLookList l
  | _ => true

def noNegLookList : List Re → Bool
  | [] => true
  | r :: l => Re.noNegLook r && noNegLookList l
end

/-- Number of the first group with the name, in the order of the opening parentheses. -/
def groupNumber : List Group → List Nat → Option Nat
  | [], _ => none
  | g :: gs, n => if g.name = some n then some g.id else groupNumber gs n

/-- The numbers of the groups of a result. -/
def groupIds (gs : List Group) : List Nat := gs.map (·.id)

mutual
/-- A group inside a group has a different positive number. -/
def Re.noReopen : List Nat → Re → Bool
  | O, .sel l => noReopenList O l
  | O, .seq l => noReopenList O l
  | O, .rep _ _ _ l => noReopenList O l
  | O, .cap id _ l => id != 0 && !O.contains id && noReopenList (id :: O) l
  | O, .ahead _ l => noReopenList O l
  | O, .behind _ l => noReopenList O l
  | O, .atomic l => noReopenList O l
  | _, _ => true

def noReopenList : List Nat → List Re → Bool
  | _, [] => true
  | O, r :: l => Re.noReopen O r && noReopenList O l
end

/-- Groups have distinct positive numbers. -/
structure Re.Numbered (r : Re) : Prop where
  distinct : (groupIds r.captures).Nodup
  nested : r.noReopen [] = true

/-- Groups have distinct positive numbers, and no group refers to itself from inside. -/
structure Re.WellNumbered (r : Re) : Prop where
  distinct : (groupIds r.captures).Nodup
  positive : 0 ∉ groupIds r.captures
  noSelf : r.noSelf (groupNumber r.captures) [] = true

end Ctre
