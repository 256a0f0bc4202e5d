import Verif.Spec.SurfaceWays
import Verif.Spec.OneCase
/-
Pattern texts that never ignore case, and pattern texts that are written in one case.

This file does not mention the parser, the trees it builds, or the evaluation machine.
-/
namespace Ctre.Surface

/-- The codes of the ASCII letters. -/
def letterCodes : List Nat := (List.range 26).flatMap fun k => [65 + k, 97 + k]

/-- The set contains the letter with the code `k`, properties aside. -/
def setLists (ci neg : Bool) (l : List SetItem) (k : Int) : Bool :=
  (l.any fun i => decide (i.has (fun _ _ => false) ci k)) != neg

/-- A member `\P`. -/
def SetItem.negProp : SetItem → Bool
  | .cls (.prop n _ _ _) => n
  | _ => false

/-- Each letter that the set contains when case is ignored is contained in the given case when case is not ignored; `\P` does not occur in
it. -/
def setWritten (up neg : Bool) (l : List SetItem) : Bool :=
  (letterCodes.all fun k => !setLists true neg l k || setLists false neg l (caseForm up k)) && l.all fun i => !i.negProp

mutual
/-- Characters that are letters are written in upper case (`up`) or in lower case, and sets are as in `setWritten`. -/
def Atom.written (up : Bool) : Atom → Bool
  | .ch c => !(if up = true then isLower c.code else isUpper c.code)
  | .set neg l => setWritten up neg l
  | .cap _ b => b.written up
  | .named _ _ b => b.written up
  | .group b => b.written up
  | .ahead _ b => b.written up
  | .behind _ b => b.written up
  | .atomic b => b.written up
  | _ => true

def Cat.written (up : Bool) : Cat → Bool
  | .one a _ => a.written up
  | .cons a _ l => a.written up && l.written up

def Alt.written (up : Bool) : Alt → Bool
  | .empty => true
  | .one c => c.written up
  | .bar c l => c.written up && l.written up

def Body.written (up : Bool) : Body → Bool
  | .alt l => l.written up
  | .lead l => l.written up
end

mutual
/-- `(?i)` occurs. -/
def Atom.ignores : Atom → Bool
  | .mode .caseInsensitive => true
  | .cap _ b => b.ignores
  | .named _ _ b => b.ignores
  | .group b => b.ignores
  | .ahead _ b => b.ignores
  | .behind _ b => b.ignores
  | .atomic b => b.ignores
  | _ => false

def Cat.ignores : Cat → Bool
  | .one a _ => a.ignores
  | .cons a _ l => a.ignores || l.ignores

def Alt.ignores : Alt → Bool
  | .empty => false
  | .one c => c.ignores
  | .bar c l => c.ignores || l.ignores

def Body.ignores : Body → Bool
  | .alt l => l.ignores
  | .lead l => l.ignores
end

/-- Case is never ignored, or the text is written in one case.  `ci`: case is ignored at the beginning. -/
def Body.caseSafe (ci : Bool) (b : Body) : Bool := (!ci && !b.ignores) || b.written false || b.written true

end Ctre.Surface
