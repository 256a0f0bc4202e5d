import Verif.Spec.Surface
/-
Pattern texts for which ignoring case makes no difference, and pattern texts for which multiline mode makes no difference.

This file does not mention the parser, the trees it builds, or the evaluation machine.
-/
namespace Ctre
namespace Surface

/-- The number a written character stands for; numbers are computed modulo 2^64. -/
def Char1.num : Char1 → Nat
  | .x ds => hexadecimal ds % 2 ^ 64
  | .u ds => hexadecimal ds % 2 ^ 64
  | c => c.code

/-- The member of a set contains the ASCII character `k` (negated classes and Unicode properties aside). -/
def SetItem.lists (k : Nat) : SetItem → Bool
  | .one c => decide (c.num = k)
  | .range a b => decide (a.num ≤ k) && decide (k ≤ b.num)
  | .cls (.letter l) => decide (97 ≤ l) && (letterClass l).matchChar (fun _ _ => false) false k
  | .posix false n => n.cls.matchChar (fun _ _ => false) false k
  | _ => false

/-- `[:^lower:]` or `[:^upper:]`. -/
def SetItem.negCase : SetItem → Bool
  | .posix true .lower => true
  | .posix true .upper => true
  | _ => false

/-- The set contains every ASCII letter in both cases or in none. -/
def caseClosed (l : List SetItem) : Bool :=
  ((List.range 26).all fun k => l.any (SetItem.lists (65 + k)) == l.any (SetItem.lists (97 + k))) && l.all fun i => !i.negCase

mutual
/-- No character of the pattern is an ASCII letter, and sets contain letters in both cases or in none. -/
def Atom.caseFree : Atom → Bool
  | .ch c => !isAlpha c.num
  | .set _ l => caseClosed l
  | .cap _ b => b.caseFree
  | .named _ _ b => b.caseFree
  | .group b => b.caseFree
  | .ahead _ b => b.caseFree
  | .behind _ b => b.caseFree
  | .atomic b => b.caseFree
  | _ => true

def Cat.caseFree : Cat → Bool
  | .one a _ => a.caseFree
  | .cons a _ l => a.caseFree && l.caseFree

def Alt.caseFree : Alt → Bool
  | .empty => true
  | .one c => c.caseFree
  | .bar c l => c.caseFree && l.caseFree

def Body.caseFree : Body → Bool
  | .alt l => l.caseFree
  | .lead l => l.caseFree
end

mutual
/-- No dot, `^`, `$` or `\Z` occurs. -/
def Atom.lineFree : Atom → Bool
  | .dot | .bol | .eol | .subjectEndLine => false
  | .cap _ b => b.lineFree
  | .named _ _ b => b.lineFree
  | .group b => b.lineFree
  | .ahead _ b => b.lineFree
  | .behind _ b => b.lineFree
  | .atomic b => b.lineFree
  | _ => true

def Cat.lineFree : Cat → Bool
  | .one a _ => a.lineFree
  | .cons a _ l => a.lineFree && l.lineFree

def Alt.lineFree : Alt → Bool
  | .empty => true
  | .one c => c.lineFree
  | .bar c l => c.lineFree && l.lineFree

def Body.lineFree : Body → Bool
  | .alt l => l.lineFree
  | .lead l => l.lineFree
end

end Surface
end Ctre
