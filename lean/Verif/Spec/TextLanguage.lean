import Verif.Spec.SurfaceWays
import Mathlib.Computability.Language
/-
The formal language of a pattern as it is written, for the syntax of regular expressions in the sense of formal languages:
characters, classes, sets, dots, groups, alternatives and quantifiers.

This file does not mention the parser, the trees it builds, or the evaluation machine.  Mathlib's `Language` is a set of words; `+` is
union, `*` is concatenation, `^` is the power, `1` is the language of the empty word, `0` is empty.
-/
namespace Ctre

/-- The words of one letter with the property. -/
def letters {α : Type} (p : α → Prop) : Language α := {w | ∃ v, w = [v] ∧ p v}

/-- The powers of a language with exponents in `S`. -/
def powers {α : Type} (L : Language α) (S : Nat → Prop) : Language α := {w | ∃ k, S k ∧ w ∈ L ^ k}

namespace Surface

mutual
/-- Only characters, classes, sets, dots, groups, alternatives and quantifiers occur. -/
def Atom.regular : Atom → Bool
  | .ch _ | .cls _ | .set _ _ | .dot | .unknown _ _ => true
  | .cap _ b => b.regular
  | .named _ _ b => b.regular
  | .group b => b.regular
  | _ => false

def Cat.regular : Cat → Bool
  | .one a _ => a.regular
  | .cons a _ l => a.regular && l.regular

def Alt.regular : Alt → Bool
  | .empty => true
  | .one c => c.regular
  | .bar c l => c.regular && l.regular

def Body.regular : Body → Bool
  | .alt l => l.regular
  | .lead l => l.regular
end

mutual
/-- The language of an atom, in multiline mode (the dot takes no newline) or not, and with case ignored or not. -/
def Atom.lang (U : Uni) (ml ci : Bool) : Atom → Language Ch
  | .ch c => letters fun v => (CC.chr c.code).matchChar U ci v = true
  | .cls c => letters fun v => c.has U ci v
  | .set neg l => letters fun v => (∃ i ∈ l, i.has U ci v) ↔ neg = false
  | .dot => letters fun v => ¬ (ml = true ∧ v = 10)
  | .cap _ b => b.lang U ml ci
  | .named _ _ b => b.lang U ml ci
  | .group b => b.lang U ml ci
  | _ => 0

def Cat.lang (U : Uni) (ml ci : Bool) : Cat → Language Ch
  | .one a q => powers (a.lang U ml ci) q.admits
  | .cons a q l => powers (a.lang U ml ci) q.admits * l.lang U ml ci

def Alt.lang (U : Uni) (ml ci : Bool) : Alt → Language Ch
  | .empty => 1
  | .one c => c.lang U ml ci
  | .bar c l => c.lang U ml ci + l.lang U ml ci

def Body.lang (U : Uni) (ml ci : Bool) : Body → Language Ch
  | .alt l => l.lang U ml ci
  | .lead l => 1 + l.lang U ml ci
end

/-- The character is below 2^31. -/
def Char1.small (c : Char1) : Bool := decide (c.code < 2147483648)

/-- The member of a set can be handled by the analysis of first characters: no negated class inside a negated set, no `[:^name:]`, no
`\P` in a set, ranges from the smaller to the larger character. -/
def SetItem.small (neg : Bool) : SetItem → Bool
  | .one c => c.small
  | .range a b => decide (a.code ≤ b.code) && b.small
  | .cls (.letter l) => !neg || decide (97 ≤ l)
  | .cls (.prop n _ _ _) => !n
  | .posix n _ => !n

mutual
/-- The characters and sets can be handled by the analysis of first characters, and all values of properties exist. -/
def Atom.small : Atom → Bool
  | .ch c => c.small
  | .set neg l => l.all (SetItem.small neg)
  | .unknown _ _ => false
  | .cap _ b => b.small
  | .named _ _ b => b.small
  | .group b => b.small
  | _ => true

def Cat.small : Cat → Bool
  | .one a _ => a.small
  | .cons a _ l => a.small && l.small

def Alt.small : Alt → Bool
  | .empty => true
  | .one c => c.small
  | .bar c l => c.small && l.small

def Body.small : Body → Bool
  | .alt l => l.small
  | .lead l => l.small
end

end Surface

end Ctre
