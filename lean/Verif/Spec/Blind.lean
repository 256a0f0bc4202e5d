import Verif.Spec.SurfaceWays
/-
Characters that a pattern text does not tell apart.

This file does not mention the parser, the trees it builds, or the evaluation machine.
-/
namespace Ctre.Surface

mutual
/-- Every character, class and set in the text contains both characters or neither, whether or not case is ignored; if `.`, `^`, `$` or
`\Z` occurs, both are newlines or neither is; if `\b` or `\B` occurs, both are word characters or neither is. -/
def Atom.Blind (U : Uni) (v v' : Ch) : Atom → Prop
  | .ch c => ∀ ci, (CC.chr c.code).matchChar U ci v = (CC.chr c.code).matchChar U ci v'
  | .cls c => ∀ ci, c.has U ci v ↔ c.has U ci v'
  | .set _ l => ∀ ci, (∃ i ∈ l, i.has U ci v) ↔ (∃ i ∈ l, i.has U ci v')
  | .dot => v = 10 ↔ v' = 10
  | .bol => v = 10 ↔ v' = 10
  | .eol => v = 10 ↔ v' = 10
  | .subjectEndLine => v = 10 ↔ v' = 10
  | .wordBoundary => ∀ ci, wordChars.matchChar U ci v = wordChars.matchChar U ci v'
  | .notWordBoundary => ∀ ci, wordChars.matchChar U ci v = wordChars.matchChar U ci v'
  | .cap _ b => b.Blind U v v'
  | .named _ _ b => b.Blind U v v'
  | .group b => b.Blind U v v'
  | .ahead _ b => b.Blind U v v'
  | .behind _ b => b.Blind U v v'
  | .atomic b => b.Blind U v v'
  | .unknown _ _ => True
  | .subjectBegin => True
  | .subjectEnd => True
  | .ref _ => True
  | .refNumber _ => True
  | .refRelative _ _ => True
  | .refName _ => True
  | .mode _ => True

def Cat.Blind (U : Uni) (v v' : Ch) : Cat → Prop
  | .one a _ => a.Blind U v v'
  | .cons a _ l => a.Blind U v v' ∧ l.Blind U v v'

def Alt.Blind (U : Uni) (v v' : Ch) : Alt → Prop
  | .empty => True
  | .one c => c.Blind U v v'
  | .bar c l => c.Blind U v v' ∧ l.Blind U v v'

def Body.Blind (U : Uni) (v v' : Ch) : Body → Prop
  | .alt l => l.Blind U v v'
  | .lead l => l.Blind U v v'
end

mutual
/-- A back reference occurs. -/
def Atom.refers : Atom → Bool
  | .ref _ => true
  | .refNumber _ => true
  | .refRelative _ _ => true
  | .refName _ => true
  | .cap _ b => b.refers
  | .named _ _ b => b.refers
  | .group b => b.refers
  | .ahead _ b => b.refers
  | .behind _ b => b.refers
  | .atomic b => b.refers
  | _ => false

def Cat.refers : Cat → Bool
  | .one a _ => a.refers
  | .cons a _ l => a.refers || l.refers

def Alt.refers : Alt → Bool
  | .empty => false
  | .one c => c.refers
  | .bar c l => c.refers || l.refers

def Body.refers : Body → Bool
  | .alt l => l.refers
  | .lead l => l.refers
end

/-- Subjects of the same length that differ only in characters that the text does not tell apart; if there are back references, the
same characters are equal in both. -/
structure Body.Twins (U : Uni) (b : Body) (s s' : List Ch) : Prop where
  length : s.length = s'.length
  alike : ∀ (i : Nat) (v v' : Ch), s[i]? = some v → s'[i]? = some v' → b.Blind U v v'
  equal : b.refers = true → ∀ i j : Nat, i < s.length → j < s.length → (s[i]? = s[j]? ↔ s'[i]? = s'[j]?)

/-! ### Characters beyond those that occur in a text -/

/-- The letter class mentions only characters below `k`. -/
def Cls.beneath (k : Nat) : Cls → Bool
  | .letter l => if l = 104 ∨ l = 72 ∨ l = 118 ∨ l = 86 then decide (0x3000 < k) else true
  | .prop _ _ _ _ => false

def SetItem.beneath (k : Nat) : SetItem → Bool
  | .one c => decide (c.code < k)
  | .range a b => decide (a.code < k) && decide (b.code < k)
  | .cls c => c.beneath k
  | .posix _ _ => true

mutual
/-- Only characters below `k` are mentioned, and no Unicode property. -/
def Atom.beneath (k : Nat) : Atom → Bool
  | .ch c => decide (c.code < k)
  | .cls c => c.beneath k
  | .set _ l => l.all (SetItem.beneath k)
  | .cap _ b => b.beneath k
  | .named _ _ b => b.beneath k
  | .group b => b.beneath k
  | .ahead _ b => b.beneath k
  | .behind _ b => b.beneath k
  | .atomic b => b.beneath k
  | _ => true

def Cat.beneath (k : Nat) : Cat → Bool
  | .one a _ => a.beneath k
  | .cons a _ l => a.beneath k && l.beneath k

def Alt.beneath (k : Nat) : Alt → Bool
  | .empty => true
  | .one c => c.beneath k
  | .bar c l => c.beneath k && l.beneath k

def Body.beneath (k : Nat) : Body → Bool
  | .alt l => l.beneath k
  | .lead l => l.beneath k
end

/-- The text with its characters cut off at `k`. -/
def cutAt (k : Nat) (s : List Nat) : List Nat := s.map (min k)

end Ctre.Surface
