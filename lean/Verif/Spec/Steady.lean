import Verif.Spec.Terminates
import Verif.Spec.FirstSets

/-
Patterns on which the replacement of greedy by possessive repetition is harmless.

A greedy repetition is at risk when what follows it may succeed on empty text at some places and not at others: the
analysis looks at first characters only, and does not see conditions such as a word boundary.
-/
namespace Ctre

mutual
/-- The pattern may test a condition that is not about the next character, outside repetitions and lookarounds. -/
def Re.tests : Re → Bool
  | .boundary _ | .notBoundary _ | .sBegin | .lBegin => true
  | .sel l | .seq l | .cap _ _ l => testsAny l
  | _ => false

def testsAny : List Re → Bool
  | [] => false
  | r :: l => r.tests || testsAny l
end

mutual
/-- `ml`: multiline mode may be on.  `M`: what follows the pattern has to consume something.  `K`: what follows may
test a condition (`Re.tests`).

The content of every repetition and atomic group consumes something.  What follows a greedy repetition consumes
something or contains no test.  The end of a line is only tested when multiline mode is off. -/
def Re.steady (ml : Bool) (M K : Bool) : Re → Bool
  | .cc c => c.sane
  | .str cs => cs.all fun c => decide (c < 2147483648)
  | .sel l => steadyEach ml M K l
  | .seq l | .cap _ _ l => steadyAll ml M K l
  | .rep k _ _ l => movesAny l && (decide (k ≠ .greedy) || M || !K) && steadyAll ml false false l
  | .atomic l => movesAny l && steadyAll ml false false l
  | .ahead _ l | .behind _ l => steadyAll ml false false l
  | .sEndLine | .lEnd => !ml
  | .mode .multiline => ml
  | _ => true

/-- A sequence. -/
def steadyAll (ml : Bool) (M K : Bool) : List Re → Bool
  | [] => true
  | r :: l => r.steady ml (movesAny l || M) (testsAny l || K) && steadyAll ml M K l

/-- Alternatives. -/
def steadyEach (ml : Bool) (M K : Bool) : List Re → Bool
  | [] => true
  | r :: l => r.steady ml M K && steadyEach ml M K l
end

end Ctre
