import Verif.Spec.TextLanguage

/-
Texts of patterns for which the default build does what the text says: conditions on the text under which the call compiles, the
replacement of greedy by possessive repetition is harmless, and the treatment of anchored patterns by `search` is right.

This file does not mention the parser, the trees it builds, or the evaluation machine.
-/
namespace Ctre.Surface

/-- The quantified atom may test a condition: an atom with a quantifier is not looked into. -/
def itemTests (q : Quant) (t : Bool) : Bool := decide (q = .none) && t

mutual
/-- A condition may be tested that is not about the next character: `\b`, `^` or `\A`, outside of quantified parts, atomic groups and
lookarounds. -/
def Atom.tests : Atom → Bool
  | .bol | .subjectBegin | .wordBoundary | .notWordBoundary => true
  | .cap _ b => b.tests
  | .named _ _ b => b.tests
  | .group b => b.tests
  | _ => false

def Cat.tests : Cat → Bool
  | .one a q => itemTests q a.tests
  | .cons a q l => itemTests q a.tests || l.tests

def Alt.tests : Alt → Bool
  | .empty => false
  | .one c => c.tests
  | .bar c l => c.tests || l.tests

def Body.tests : Body → Bool
  | .alt l => l.tests
  | .lead l => l.tests
end

mutual
/-- The analysis of first characters can handle the text: no mode is switched, no property value is unknown, and the sets are as in
`SetItem.small`. -/
def Atom.scans : Atom → Bool
  | .set neg l => l.all (SetItem.small neg)
  | .unknown _ _ | .mode _ => false
  | .cap _ b => b.scans
  | .named _ _ b => b.scans
  | .group b => b.scans
  | .atomic b => b.scans
  | _ => true

def Cat.scans : Cat → Bool
  | .one a _ => a.scans
  | .cons a _ l => a.scans && l.scans

def Alt.scans : Alt → Bool
  | .empty => true
  | .one c => c.scans
  | .bar c l => c.scans && l.scans

def Body.scans : Body → Bool
  | .alt l => l.scans
  | .lead l => l.scans
end

/-- The condition on a quantifier.  `mv`, `sc`: the atom has to consume something, and can be analysed.  `M`, `K`, `T`: what follows has to
consume something, may test a condition, can be analysed. -/
def Quant.robust (q : Quant) (mv sc M K T : Bool) : Bool := mv && (decide (q.kind ≠ .greedy) || ((M || !K) && sc && T))

mutual
/-- `ml`: multiline mode may be on.  `M`: what follows has to consume something.  `K`: what follows may test a condition.  `T`: what
follows can be analysed.

Whatever is repeated and the content of atomic groups has to consume something.  What follows a greedy quantifier has to consume
something or tests no condition, and both can be analysed.  `$` and `\Z` only occur when multiline mode is off. -/
def Atom.robust (ml M K T : Bool) : Atom → Bool
  | .ch c => c.small
  | .set neg l => l.all (SetItem.small neg)
  | .eol | .subjectEndLine => !ml
  | .cap _ b => b.robust ml M K T
  | .named _ _ b => b.robust ml M K T
  | .group b => b.robust ml M K T
  | .ahead _ b => b.robust ml false false true
  | .behind _ b => b.robust ml false false true
  | .atomic b => b.moves && b.robust ml false false true
  | .mode .multiline => ml
  | _ => true

def Cat.robust (ml M K T : Bool) : Cat → Bool
  | .one a .none => a.robust ml M K T
  | .one a q => q.robust a.moves a.scans M K T && a.robust ml false false true
  | .cons a .none l => a.robust ml (l.moves || M) (l.tests || K) (l.scans && T) && l.robust ml M K T
  | .cons a q l => q.robust a.moves a.scans (l.moves || M) (l.tests || K) (l.scans && T) && a.robust ml false false true &&
      l.robust ml M K T

def Alt.robust (ml M K T : Bool) : Alt → Bool
  | .empty => true
  | .one c => c.robust ml M K T
  | .bar c l => c.robust ml M K T && l.robust ml M K T

def Body.robust (ml M K T : Bool) : Body → Bool
  | .alt l => l.robust ml M K T
  | .lead l => l.robust ml M K T
end

mutual
/-- Every way through the text begins with `\A`, or with `^` if multiline mode is off. -/
def Atom.begins (ml : Bool) : Atom → Bool
  | .subjectBegin => true
  | .bol => !ml
  | .cap _ b => b.begins ml
  | .named _ _ b => b.begins ml
  | .group b => b.begins ml
  | _ => false

def Cat.begins (ml : Bool) : Cat → Bool
  | .one a q => decide (q = .none) && a.begins ml
  | .cons a q _ => decide (q = .none) && a.begins ml

def Alt.begins (ml : Bool) : Alt → Bool
  | .empty => false
  | .one c => c.begins ml
  | .bar c l => c.begins ml && l.begins ml

def Body.begins (ml : Bool) : Body → Bool
  | .alt l => l.begins ml
  | .lead _ => false
end

mutual
/-- `\A` does not occur, nor `^` unless multiline mode is on, outside of lookarounds and atomic groups. -/
def Atom.unanchored (ml : Bool) : Atom → Bool
  | .subjectBegin => false
  | .bol => ml
  | .cap _ b => b.unanchored ml
  | .named _ _ b => b.unanchored ml
  | .group b => b.unanchored ml
  | _ => true

def Cat.unanchored (ml : Bool) : Cat → Bool
  | .one a _ => a.unanchored ml
  | .cons a _ l => a.unanchored ml && l.unanchored ml

def Alt.unanchored (ml : Bool) : Alt → Bool
  | .empty => true
  | .one c => c.unanchored ml
  | .bar c l => c.unanchored ml && l.unanchored ml

def Body.unanchored (ml : Bool) : Body → Bool
  | .alt l => l.unanchored ml
  | .lead l => l.unanchored ml
end

mutual
/-- Nothing that a quantifier allows to be skipped contains `\A`, or `^` unless multiline mode is on, outside of lookarounds and atomic
groups. -/
def Atom.placed (ml : Bool) : Atom → Bool
  | .cap _ b => b.placed ml
  | .named _ _ b => b.placed ml
  | .group b => b.placed ml
  | _ => true

def Cat.placed (ml : Bool) : Cat → Bool
  | .one a q => a.placed ml && (decide (0 < q.low) || a.unanchored ml)
  | .cons a q l => a.placed ml && (decide (0 < q.low) || a.unanchored ml) && l.placed ml

def Alt.placed (ml : Bool) : Alt → Bool
  | .empty => true
  | .one c => c.placed ml
  | .bar c l => c.placed ml && l.placed ml

def Body.placed (ml : Bool) : Body → Bool
  | .alt l => l.placed ml
  | .lead l => l.placed ml
end

mutual
/-- There is no back reference and no lookbehind. -/
def Atom.forward : Atom → Bool
  | .ref _ | .refNumber _ | .refRelative _ _ | .refName _ | .behind _ _ => false
  | .cap _ b => b.forward
  | .named _ _ b => b.forward
  | .group b => b.forward
  | .ahead _ b => b.forward
  | .atomic b => b.forward
  | _ => true

def Cat.forward : Cat → Bool
  | .one a _ => a.forward
  | .cons a _ l => a.forward && l.forward

def Alt.forward : Alt → Bool
  | .empty => true
  | .one c => c.forward
  | .bar c l => c.forward && l.forward

def Body.forward : Body → Bool
  | .alt l => l.forward
  | .lead l => l.forward
end

end Ctre.Surface
