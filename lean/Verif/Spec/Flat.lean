import Verif.Model.Atoms

/-
Patterns up to the bracketing of concatenations.
-/
namespace Ctre

mutual
/-- The pieces of a pattern after all nested concatenations, at every depth, have been written out flat. -/
def Re.flat : Re → List Re
  | .seq l => if l.isEmpty then [.seq []] else flatList l
  | .sel l => [.sel (flatAlts l)]
  | .rep k a b l => [.rep k a b (flatList l)]
  | .cap id name l => [.cap id name (flatList l)]
  | .ahead pos l => [.ahead pos (flatList l)]
  | .behind pos l => [.behind pos (flatList l)]
  | .atomic l => [.atomic (flatList l)]
  | r => [r]

def flatList : List Re → List Re
  | [] => []
  | r :: l => r.flat ++ flatList l

/-- Each alternative is written out flat on its own. -/
def flatAlts : List Re → List Re
  | [] => []
  | r :: l => .seq r.flat :: flatAlts l
end

/-- The two patterns differ only in how concatenations are bracketed. -/
def SameUpToBrackets (r r' : Re) : Prop := r.flat = r'.flat

end Ctre
