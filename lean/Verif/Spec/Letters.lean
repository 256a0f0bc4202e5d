import Verif.Spec.Modes

/-
Patterns with an inline mode of several letters.
-/
namespace Ctre
namespace Surface

/-- The pieces, each with its quantifier, in front of a sequence. -/
def Cat.preceded : List (Atom × Quant) → Cat → Cat
  | [], c => c
  | (a, q) :: l, c => .cons a q (Cat.preceded l c)

/-- The text of the pieces. -/
def piecesText : List (Atom × Quant) → List Nat
  | [] => []
  | (a, q) :: l => a.print ++ q.print ++ piecesText l

/-- The text `(?im…)`. -/
def lettersText (ms : List Mode) : List Nat := [40, 63] ++ ms.map modeLetter ++ [41]

/-- The same modes as `(?i)(?m)…`. -/
def letterPieces (ms : List Mode) : List (Atom × Quant) := ms.map fun m => (.mode m, .none)

/-- The sequence with the alternatives after it, if there are some. -/
def Cat.orElse (c : Cat) : Option Alt → Alt
  | none => .one c
  | some l => .bar c l

end Surface
end Ctre
