import Verif.Spec.Robust

/-
Texts that begin with an anchor, and the pieces that `split` yields for them.

This file does not mention the model of the library.
-/
namespace Ctre.Surface

mutual
/-- Every way through the text begins with `\A`, or with `^` if multiline mode is off, and the anchor is not inside a named group. -/
def Atom.hooked (ml : Bool) : Atom → Bool
  | .subjectBegin => true
  | .bol => !ml
  | .cap _ b => b.hooked ml
  | .group b => b.hooked ml
  | _ => false

def Cat.hooked (ml : Bool) : Cat → Bool
  | .one a q => decide (q = .none) && a.hooked ml
  | .cons a q _ => decide (q = .none) && a.hooked ml

def Alt.hooked (ml : Bool) : Alt → Bool
  | .empty => false
  | .one c => c.hooked ml
  | .bar c l => c.hooked ml && l.hooked ml

def Body.hooked (ml : Bool) : Body → Bool
  | .alt l => l.hooked ml
  | .lead _ => false
end

end Ctre.Surface

namespace Ctre

/-- The pieces if there can only be a match at the beginning; `m` is the end of that match, `len` the length of the subject.  The rest of
the subject after the match is never part of a piece: unless the match reaches the end, an empty piece is yielded for ever. -/
def anchoredPieces (m : Option Nat) (len : Nat) : List (Nat × Nat) × Option Nat :=
  match m with
  | none => if len = 0 then ([(0, 0)], none) else ([], some 0)
  | some 0 => ([], some 0)
  | some (e + 1) => if e + 1 = len then ([(0, 0), (len, len)], none) else ([(0, 0)], some (e + 1))

end Ctre
