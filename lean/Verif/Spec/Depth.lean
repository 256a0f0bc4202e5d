import Verif.Model.Eval

/-
Patterns whose evaluation nests calls to a depth that does not depend on the subject.
-/
namespace Ctre

/-- The greedy repetition of `m` before the rest `t` is not replaced by a possessive one. -/
def givesBack (C : Cfg) (m : List Re) (t : Stack) : Bool :=
  if C.greedyOpt then loopCollides m t == some true else true

mutual
/-- Every unlimited greedy repetition outside of lookbehinds is replaced by a possessive one, when `t` follows. -/
def Re.shallow (C : Cfg) (t : Stack) : Re → Bool
  | .sel l => shallowSel C t l
  | .seq l => shallowSeq C t l
  | .rep k _ b m => (decide (b ≠ 0) || decide (k ≠ .greedy) || !givesBack C m t) && shallowItems C [.endCycle] m
  | .cap id _ m => shallowSeq C (.numMark id :: t) m
  | .ahead _ m => shallowSeq C [.endAhead] m
  | .atomic m => shallowItems C [.endCycle] m
  | _ => true

def shallowSel (C : Cfg) (t : Stack) : List Re → Bool
  | [] => true
  | r :: l => r.shallow C t && shallowSel C t l

def shallowSeq (C : Cfg) (t : Stack) : List Re → Bool
  | [] => true
  | r :: m => r.shallow C (if m.isEmpty then t else .re (.seq m) :: t) && shallowSeq C t m

def shallowItems (C : Cfg) (t : Stack) : List Re → Bool
  | [] => true
  | r :: m => r.shallow C (items m t) && shallowItems C t m
end

mutual
/-- No unlimited greedy repetition is written outside of lookbehinds. -/
def Re.ungreedy : Re → Bool
  | .sel l | .seq l | .cap _ _ l | .ahead _ l | .atomic l => ungreedyAll l
  | .rep k _ b l => (decide (b ≠ 0) || decide (k ≠ .greedy)) && ungreedyAll l
  | _ => true

def ungreedyAll : List Re → Bool
  | [] => true
  | r :: l => r.ungreedy && ungreedyAll l
end

end Ctre
