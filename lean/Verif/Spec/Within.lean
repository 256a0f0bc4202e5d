import Verif.Spec.SurfaceWays

/-
Texts of patterns that look only at what they match.

This file does not mention the parser, the trees it builds, or the evaluation machine.
-/
namespace Ctre.Surface

mutual
/-- There are no anchors, no word boundaries and no lookarounds. -/
def Atom.within : Atom → Bool
  | .bol | .eol | .subjectBegin | .subjectEnd | .subjectEndLine | .wordBoundary | .notWordBoundary | .ahead _ _ | .behind _ _ => false
  | .cap _ b => b.within
  | .named _ _ b => b.within
  | .group b => b.within
  | .atomic b => b.within
  | _ => true

def Cat.within : Cat → Bool
  | .one a _ => a.within
  | .cons a _ l => a.within && l.within

def Alt.within : Alt → Bool
  | .empty => true
  | .one c => c.within
  | .bar c l => c.within && l.within

def Body.within : Body → Bool
  | .alt l => l.within
  | .lead l => l.within
end

end Ctre.Surface
