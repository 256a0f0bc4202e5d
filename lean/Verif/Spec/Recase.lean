import Verif.Spec.Written
/-
Pattern texts for which ignoring case amounts to bringing the subject into one case.

This file does not mention the parser, the trees it builds, or the evaluation machine.
-/
namespace Ctre

/-- The code point with an ASCII letter in upper case (`up`) or lower case. -/
def caseCode (up : Bool) (c : Nat) : Nat :=
  if up = true then (if 97 ≤ c ∧ c ≤ 122 then c - 32 else c) else (if 65 ≤ c ∧ c ≤ 90 then c + 32 else c)

namespace Surface

/-- A member `\p` or `\P`. -/
def SetItem.isProp : SetItem → Bool
  | .cls (.prop _ _ _ _) => true
  | _ => false

/-- The set contains a letter when case is ignored if and only if it contains the letter, in the given case, when case is not ignored.
Unicode properties do not occur in it. -/
def setRecased (up neg : Bool) (l : List SetItem) : Bool :=
  (letterCodes.all fun k => setLists true neg l k == setLists false neg l (caseForm up k)) && l.all fun i => !i.isProp

mutual
/-- Characters that are letters are written in upper case (`up`) or in lower case, sets are as in `setRecased`; there is no back reference,
no Unicode property and no `(?c)`. -/
def Atom.recased (up : Bool) : Atom → Bool
  | .ch c => !(if up = true then isLower c.code else isUpper c.code)
  | .set neg l => setRecased up neg l
  | .cls (.prop _ _ _ _) => false
  | .ref _ => false
  | .refNumber _ => false
  | .refRelative _ _ => false
  | .refName _ => false
  | .mode .caseSensitive => false
  | .cap _ b => b.recased up
  | .named _ _ b => b.recased up
  | .group b => b.recased up
  | .ahead _ b => b.recased up
  | .behind _ b => b.recased up
  | .atomic b => b.recased up
  | _ => true

def Cat.recased (up : Bool) : Cat → Bool
  | .one a _ => a.recased up
  | .cons a _ l => a.recased up && l.recased up

def Alt.recased (up : Bool) : Alt → Bool
  | .empty => true
  | .one c => c.recased up
  | .bar c l => c.recased up && l.recased up

def Body.recased (up : Bool) : Body → Bool
  | .alt l => l.recased up
  | .lead l => l.recased up
end

end Surface
end Ctre
