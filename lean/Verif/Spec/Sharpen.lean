import Verif.Model.First

/-
The pattern that the default build effectively matches: greedy repetitions which cannot begin like what follows them are
possessive.
-/
namespace Ctre

/-- The kind of a repetition of `l` before `t`: a greedy one becomes possessive if the analysis of first characters
(`loopCollides`) says that `l` does not begin like `t`. -/
def sharpKind (l : List Re) (t : Stack) : RepKind → RepKind
  | .greedy => if loopCollides l t = some false then .poss else .greedy
  | k => k

mutual
/-- The pattern before `t`, with the sharpened repetitions.  Nothing but a mark follows the content of a repetition, of an
atomic group or of a lookaround. -/
def Re.sharpen (t : Stack) : Re → Re
  | .sel l => .sel (sharpenEach t l)
  | .seq l => .seq (sharpenAll t l)
  | .cap id name l => .cap id name (sharpenAll (.numMark id :: t) l)
  | .rep k a b l => .rep (sharpKind l t k) a b (sharpenAll [.endCycle] l)
  | .atomic l => .atomic (sharpenAll [.endCycle] l)
  | .ahead pos l => .ahead pos (sharpenAll [.endAhead] l)
  | .behind pos l => .behind pos (sharpenAll [.endBehind] l)
  | r => r

/-- A concatenation before `t`. -/
def sharpenAll (t : Stack) : List Re → List Re
  | [] => []
  | r :: l => r.sharpen (items l t) :: sharpenAll t l

/-- Alternatives before `t`. -/
def sharpenEach (t : Stack) : List Re → List Re
  | [] => []
  | r :: l => r.sharpen t :: sharpenEach t l
end

/-- A stack with the sharpened repetitions. -/
def sharpenSt : Stack → Stack
  | [] => []
  | .re r :: t => .re (r.sharpen t) :: sharpenSt t
  | i :: t => i :: sharpenSt t

/-- For `match`: the end of the subject follows. -/
def Re.sharpFull (r : Re) : Re := r.sharpen [.re .sEnd, .endMark, .accept]

/-- For `starts_with` and `search`: nothing follows. -/
def Re.sharp (r : Re) : Re := r.sharpen [.endMark, .accept]

end Ctre
