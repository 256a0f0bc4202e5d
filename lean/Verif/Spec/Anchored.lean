import Verif.Model.Atoms

/-
Patterns that can only match at the beginning of the subject.
-/
namespace Ctre

mutual
/-- On every way through the pattern `\A`, or `^` when not in multiline mode, is met before any character is consumed;
`k` says whether this holds for what follows.  A repetition with minimum zero may be skipped. -/
def Re.anchored (ml : Bool) (k : Bool) : Re → Bool
  | .sBegin => true
  | .lBegin => !ml || k
  | .boundary _ | .notBoundary _ | .sEnd | .sEndLine | .lEnd => k
  | .sel l => anchoredAlts ml k l
  | .seq l => anchoredSeq ml k l
  | .rep _ a _ l => anchoredSeq ml k l && (decide (0 < a) || k)
  | .cap _ _ l => anchoredSeq ml k l
  | _ => false

def anchoredSeq (ml : Bool) (k : Bool) : List Re → Bool
  | [] => k
  | r :: l => Re.anchored ml (anchoredSeq ml k l) r

def anchoredAlts (ml : Bool) (k : Bool) : List Re → Bool
  | [] => true
  | r :: l => Re.anchored ml k r && anchoredAlts ml k l
end

mutual
/-- No repetition that may be skipped, other than `?` and `??`, comes before the anchor: it has a positive minimum, or
it follows an item that is anchored by itself. -/
def Re.noStarsBefore (ml : Bool) : Re → Bool
  | .sel l => noStarsAlts ml l
  | .seq l | .cap _ _ l | .ahead _ l | .behind _ l | .atomic l => noStarsSeq ml l
  | .rep k a b l => (decide (0 < a) || (decide (b = 1) && decide (k ≠ .poss))) && noStarsSeq ml l
  | _ => true

def noStarsSeq (ml : Bool) : List Re → Bool
  | [] => true
  | r :: l => Re.noStarsBefore ml r && (Re.anchored ml false r || noStarsSeq ml l)

def noStarsAlts (ml : Bool) : List Re → Bool
  | [] => true
  | r :: l => Re.noStarsBefore ml r && noStarsAlts ml l
end

end Ctre
