import Verif.Spec.Semantics

/-
The concrete syntax of patterns: syntax trees, how they are written, and what they mean.

This file does not mention the grammar tables or the parser.  A `Body` is a syntax tree, `Body.print` the text of the
pattern, `Body.Match` its meaning.  `Body.WF` says that the tree can be written down (digits are digits, a reference
refers to a group that has been opened), and `Body.Faithful` collects the conditions under which the library gives the
pattern its documented meaning.
-/
namespace Ctre.Surface

/-! ### Numbers and single characters -/

def isDec (v : Nat) : Prop := 48 ≤ v ∧ v ≤ 57
def isHex (v : Nat) : Prop := isDec v ∨ (97 ≤ v ∧ v ≤ 102) ∨ (65 ≤ v ∧ v ≤ 70)
/-- A letter or an underscore. -/
def isNameStart (v : Nat) : Prop := (65 ≤ v ∧ v ≤ 90) ∨ v = 95 ∨ (97 ≤ v ∧ v ≤ 122)
def isNameChar (v : Nat) : Prop := isNameStart v ∨ isDec v
/-- Characters of property names and values. -/
def isPropChar (v : Nat) : Prop := isNameChar v ∨ v = 46

/-- The number written with the decimal digits `ds`. -/
def decimal (ds : List Nat) : Nat := ds.foldl (fun n d => 10 * n + (d - 48)) 0

def hexDigit (d : Nat) : Nat := if d ≤ 57 then d - 48 else if d ≤ 70 then d - 55 else d - 87

/-- The number written with the hexadecimal digits `ds`. -/
def hexadecimal (ds : List Nat) : Nat := ds.foldl (fun n d => 16 * n + hexDigit d) 0

/-- A single character. -/
inductive Char1 where
  | plain (v : Nat)
  /-- backslash and a punctuation character -/
  | escaped (v : Nat)
  /-- `\a \e \f \n \r \t \0` -/
  | control (letter : Nat)
  /-- `\xHH` -/
  | x2 (a b : Nat)
  /-- `\x{H...}` -/
  | x (ds : List Nat)
  /-- `\uHHHH` -/
  | u4 (a b c d : Nat)
  /-- `\u{H...}` -/
  | u (ds : List Nat)

def Char1.print : Char1 → List Nat
  | .plain v => [v]
  | .escaped v => [92, v]
  | .control l => [92, l]
  | .x2 a b => [92, 120, a, b]
  | .x ds => [92, 120, 123] ++ ds ++ [125]
  | .u4 a b c d => [92, 117, a, b, c, d]
  | .u ds => [92, 117, 123] ++ ds ++ [125]

/-- The code of the control characters. -/
def controlCode (l : Nat) : Nat :=
  if l = 97 then 7 else if l = 101 then 27 else if l = 102 then 12 else if l = 110 then 10 else if l = 114 then 13
  else if l = 116 then 9 else 0

/-- The character that is meant. -/
def Char1.code : Char1 → Nat
  | .plain v => v
  | .escaped v => v
  | .control l => controlCode l
  | .x2 a b => hexadecimal [a, b]
  | .x ds => hexadecimal ds
  | .u4 a b c d => hexadecimal [a, b, c, d]
  | .u ds => hexadecimal ds

/-- `$ ( ) * + - . / < > ? [ \ " ] ^ { | }` -/
def escapable : List Nat := [36, 40, 41, 42, 43, 45, 46, 47, 60, 62, 63, 91, 92, 34, 93, 94, 123, 124, 125]

/-- `\ [ ( ) ^ $ . | * + ? { }` -/
def special : List Nat := [92, 91, 40, 41, 94, 36, 46, 124, 42, 43, 63, 123, 125]

/-- `\ [ ] -` have to be escaped inside a set. -/
def specialInSet : List Nat := [92, 91, 93, 45]

/-- The character can be written where the characters `bad` have to be escaped. -/
def Char1.WF (bad : List Nat) : Char1 → Prop
  | .plain v => v ∉ bad
  | .escaped v => v ∈ escapable
  | .control l => l ∈ [97, 101, 102, 110, 114, 116, 48]
  | .x2 a b => isHex a ∧ isHex b
  | .x ds => ds ≠ [] ∧ (∀ d ∈ ds, isHex d) ∧ hexadecimal ds % 2 ^ 64 < 2 ^ 32
  | .u4 a b c d => isHex a ∧ isHex b ∧ isHex c ∧ isHex d
  | .u ds => ds ≠ [] ∧ (∀ d ∈ ds, isHex d) ∧ hexadecimal ds % 2 ^ 64 < 2 ^ 32

/-- `\e` does not mean the escape character; numbers are computed modulo 2^64. -/
def Char1.Faithful : Char1 → Prop
  | .control l => l ≠ 101
  | .x ds => hexadecimal ds < 2 ^ 64
  | .u ds => hexadecimal ds < 2 ^ 64
  | _ => True

/-! ### Classes and sets -/

/-- `\d \D \s \S \w \W \h \H \v \V \N`, `\p{name}`, `\P{name}`, `\p{name=value}`, `\P{name=value}`; `p` is the property
with this name. -/
inductive Cls where
  | letter (l : Nat)
  | prop (neg : Bool) (p : Nat) (name : List Nat) (value : Option (List Nat))

/-- `=value` -/
def printValue : Option (List Nat) → List Nat
  | none => []
  | some w => 61 :: w

def Cls.print : Cls → List Nat
  | .letter l => [92, l]
  | .prop neg _ name value => [92, if neg then 80 else 112, 123] ++ name ++ printValue value ++ [125]

def isPropWord (w : List Nat) : Prop := w ≠ [] ∧ ∀ v ∈ w, isPropChar v

/-- `find` looks up properties. -/
def Cls.WF (find : List Nat → Option (List Nat) → Option Nat) : Cls → Prop
  | .letter l => l ∈ [100, 68, 115, 83, 119, 87, 104, 72, 118, 86, 78]
  | .prop _ p name value => isPropWord name ∧ (∀ w, value = some w → isPropWord w) ∧ find name value = some p

/-- The positive class of a letter; `\D` is the complement of `\d` and so on. -/
def letterClass (l : Nat) : CC :=
  if l = 100 ∨ l = 68 then digitChars
  else if l = 115 ∨ l = 83 then spaceChars
  else if l = 119 ∨ l = 87 then wordChars
  else if l = 104 ∨ l = 72 then horizontalSpaceChars
  else if l = 118 ∨ l = 86 then verticalSpaceChars
  else .chr 10

def Cls.has (U : Uni) (ci : Bool) (v : Ch) : Cls → Prop
  | .letter l => if 97 ≤ l then (letterClass l).matchChar U ci v = true else ¬ (letterClass l).matchChar U ci v = true
  | .prop neg p _ _ => if neg then ¬ U p (toU32 v) = true else U p (toU32 v) = true

/-- The POSIX class names. -/
inductive Posix where
  | alnum | alpha | ascii | blank | cntrl | digit | graph | lower | print | punct | space | upper | word | xdigit

def Posix.name : Posix → List Nat
  | .alnum => [97, 108, 110, 117, 109]
  | .alpha => [97, 108, 112, 104, 97]
  | .ascii => [97, 115, 99, 105, 105]
  | .blank => [98, 108, 97, 110, 107]
  | .cntrl => [99, 110, 116, 114, 108]
  | .digit => [100, 105, 103, 105, 116]
  | .graph => [103, 114, 97, 112, 104]
  | .lower => [108, 111, 119, 101, 114]
  | .print => [112, 114, 105, 110, 116]
  | .punct => [112, 117, 110, 99, 116]
  | .space => [115, 112, 97, 99, 101]
  | .upper => [117, 112, 112, 101, 114]
  | .word => [119, 111, 114, 100]
  | .xdigit => [120, 100, 105, 103, 105, 116]

def Posix.cls : Posix → CC
  | .alnum => alphanumChars
  | .alpha => alphaChars
  | .ascii => asciiChars
  | .blank => .enum [32, 9]
  | .cntrl => .set [.range 0 0x1F, .chr 0x7F]
  | .digit => digitChars
  | .graph => .range 0x21 0x7E
  | .lower => .range 97 122
  | .print => .range 0x20 0x7E
  | .punct => punctChars
  | .space => spaceChars
  | .upper => .range 65 90
  | .word => wordChars
  | .xdigit => xdigitChars

inductive SetItem where
  | one (c : Char1)
  | range (a b : Char1)
  | cls (c : Cls)
  /-- `[:name:]`, `[:^name:]` -/
  | posix (neg : Bool) (n : Posix)

def SetItem.print : SetItem → List Nat
  | .one c => c.print
  | .range a b => a.print ++ [45] ++ b.print
  | .cls c => c.print
  | .posix neg n => [91, 58] ++ (if neg then [94] else []) ++ n.name ++ [58, 93]

def SetItem.WF (find : List Nat → Option (List Nat) → Option Nat) (bad : List Nat) : SetItem → Prop
  | .one c => c.WF bad
  | .range a b => a.WF bad ∧ b.WF specialInSet
  | .cls c => c.WF find
  | .posix _ _ => True

def SetItem.has (U : Uni) (ci : Bool) (v : Ch) : SetItem → Prop
  | .one c => (CC.chr c.code).matchChar U ci v = true
  | .range a b => (CC.range a.code b.code).matchChar U ci v = true
  | .cls c => c.has U ci v
  | .posix neg n => if neg then ¬ n.cls.matchChar U ci v = true else n.cls.matchChar U ci v = true

def SetItem.Faithful : SetItem → Prop
  | .one c => c.Faithful
  | .range a b => a.Faithful ∧ b.Faithful
  | _ => True

def printItems : List SetItem → List Nat
  | [] => []
  | i :: l => i.print ++ printItems l

/-- `[...]` and `[^...]`.  The first character of `[...]` must not be an unescaped `^`. -/
def SetWF (find : List Nat → Option (List Nat) → Option Nat) (neg : Bool) : List SetItem → Prop
  | [] => neg = true
  | i :: l => i.WF find (if neg then specialInSet else 94 :: specialInSet) ∧ ∀ j ∈ l, j.WF find specialInSet

/-! ### Quantifiers -/

inductive Quant where
  | none
  | opt (k : RepKind)
  | star (k : RepKind)
  | plus (k : RepKind)
  /-- `{n}`; takes no `?` or `+` -/
  | exactly (ds : List Nat)
  | atLeast (ds : List Nat) (k : RepKind)
  | between (ds es : List Nat) (k : RepKind)

def printKind : RepKind → List Nat
  | .greedy => []
  | .lazy => [63]
  | .poss => [43]

def Quant.print : Quant → List Nat
  | .none => []
  | .opt k => 63 :: printKind k
  | .star k => 42 :: printKind k
  | .plus k => 43 :: printKind k
  | .exactly ds => [123] ++ ds ++ [125]
  | .atLeast ds k => [123] ++ ds ++ [44, 125] ++ printKind k
  | .between ds es k => [123] ++ ds ++ [44] ++ es ++ [125] ++ printKind k

def isNumber (ds : List Nat) : Prop := ds ≠ [] ∧ ∀ d ∈ ds, isDec d

def Quant.WF : Quant → Prop
  | .exactly ds => isNumber ds
  | .atLeast ds _ => isNumber ds
  | .between ds es _ => isNumber ds ∧ isNumber es
  | _ => True

/-- The admitted numbers of iterations. -/
def Quant.admits : Quant → Nat → Prop
  | .none, n => n = 1
  | .opt _, n => n ≤ 1
  | .star _, _ => True
  | .plus _, n => 1 ≤ n
  | .exactly ds, n => n = decimal ds
  | .atLeast ds _, n => decimal ds ≤ n
  | .between ds es _, n => decimal ds ≤ n ∧ n ≤ decimal es

/-- Numbers are below 2^64; the upper bound is positive and not below the lower bound. -/
def Quant.Faithful : Quant → Prop
  | .exactly ds => 0 < decimal ds ∧ decimal ds < 2 ^ 64
  | .atLeast ds _ => decimal ds < 2 ^ 64
  | .between ds es _ => decimal ds ≤ decimal es ∧ 0 < decimal es ∧ decimal es < 2 ^ 64
  | _ => True

/-- The largest number written in the quantifier. -/
def Quant.size : Quant → Nat
  | .exactly ds => decimal ds
  | .atLeast ds _ => decimal ds
  | .between _ es _ => decimal es
  | _ => 1

def Quant.kind : Quant → RepKind
  | .opt k => k
  | .star k => k
  | .plus k => k
  | .atLeast _ k => k
  | .between _ _ k => k
  | _ => .greedy

/-! ### Patterns -/

mutual
/-- An atom.  Capture groups carry the number they are expected to get. -/
inductive Atom where
  | ch (c : Char1)
  | cls (c : Cls)
  /-- `\p{name=value}` for a value that does not exist -/
  | unknown (name value : List Nat)
  | set (neg : Bool) (l : List SetItem)
  | dot
  /-- `^` -/
  | bol
  /-- `$` -/
  | eol
  /-- `\A` -/
  | subjectBegin
  /-- `\z` -/
  | subjectEnd
  /-- `\Z` -/
  | subjectEndLine
  /-- `\b` -/
  | wordBoundary
  /-- `\B` -/
  | notWordBoundary
  /-- `\1` ... `\9` -/
  | ref (d : Nat)
  /-- `\g{12}` -/
  | refNumber (ds : List Nat)
  /-- `\g{-1}`; `id` is the group that is meant -/
  | refRelative (ds : List Nat) (id : Nat)
  /-- `\g{name}` -/
  | refName (name : List Nat)
  /-- `(...)` -/
  | cap (id : Nat) (b : Body)
  /-- `(?<name>...)` -/
  | named (id : Nat) (name : List Nat) (b : Body)
  /-- `(?:...)` -/
  | group (b : Body)
  /-- `(?=...)`, `(?!...)` -/
  | ahead (pos : Bool) (b : Body)
  /-- `(?<=...)`, `(?<!...)` -/
  | behind (pos : Bool) (b : Body)
  /-- `(?>...)` -/
  | atomic (b : Body)
  /-- `(?i)`, `(?c)`, `(?s)`, `(?m)` -/
  | mode (m : Mode)

/-- Quantified atoms one after the other. -/
inductive Cat where
  | one (a : Atom) (q : Quant)
  | cons (a : Atom) (q : Quant) (l : Cat)

/-- Alternatives separated by `|`; the last one may be empty. -/
inductive Alt where
  | empty
  | one (c : Cat)
  | bar (c : Cat) (l : Alt)

/-- Alternatives; the first one may be empty as well. -/
inductive Body where
  | alt (l : Alt)
  | lead (l : Alt)
end

def modeLetter : Mode → Nat
  | .caseInsensitive => 105
  | .caseSensitive => 99
  | .singleline => 115
  | .multiline => 109

mutual
def Atom.print : Atom → List Nat
  | .ch c => c.print
  | .cls c => c.print
  | .unknown name value => [92, 112, 123] ++ name ++ [61] ++ value ++ [125]
  | .set neg l => [91] ++ (if neg then [94] else []) ++ printItems l ++ [93]
  | .dot => [46]
  | .bol => [94]
  | .eol => [36]
  | .subjectBegin => [92, 65]
  | .subjectEnd => [92, 122]
  | .subjectEndLine => [92, 90]
  | .wordBoundary => [92, 98]
  | .notWordBoundary => [92, 66]
  | .ref d => [92, d]
  | .refNumber ds => [92, 103, 123] ++ ds ++ [125]
  | .refRelative ds _ => [92, 103, 123, 45] ++ ds ++ [125]
  | .refName n => [92, 103, 123] ++ n ++ [125]
  | .cap _ b => [40] ++ b.print ++ [41]
  | .named _ n b => [40, 63, 60] ++ n ++ [62] ++ b.print ++ [41]
  | .group b => [40, 63, 58] ++ b.print ++ [41]
  | .ahead pos b => [40, 63, if pos then 61 else 33] ++ b.print ++ [41]
  | .behind pos b => [40, 63, 60, if pos then 61 else 33] ++ b.print ++ [41]
  | .atomic b => [40, 63, 62] ++ b.print ++ [41]
  | .mode m => [40, 63, modeLetter m, 41]

def Cat.print : Cat → List Nat
  | .one a q => a.print ++ q.print
  | .cons a q l => a.print ++ q.print ++ l.print

def Alt.print : Alt → List Nat
  | .empty => []
  | .one c => c.print
  | .bar c l => c.print ++ [124] ++ l.print

def Body.print : Body → List Nat
  | .alt l => l.print
  | .lead l => [124] ++ l.print
end

mutual
/-- The number of capture groups. -/
def Atom.groups : Atom → Nat
  | .cap _ b => b.groups + 1
  | .named _ _ b => b.groups + 1
  | .group b => b.groups
  | .ahead _ b => b.groups
  | .behind _ b => b.groups
  | .atomic b => b.groups
  | _ => 0

def Cat.groups : Cat → Nat
  | .one a _ => a.groups
  | .cons a _ l => a.groups + l.groups

def Alt.groups : Alt → Nat
  | .empty => 0
  | .one c => c.groups
  | .bar c l => c.groups + l.groups

def Body.groups : Body → Nat
  | .alt l => l.groups
  | .lead l => l.groups
end

mutual
/-- The text begins with `\g{name}`, possibly after `(?:`. -/
def Atom.leadsName : Atom → Bool
  | .refName _ => true
  | .group b => b.leadsName
  | _ => false

def Cat.leadsName : Cat → Bool
  | .one a _ => a.leadsName
  | .cons a _ _ => a.leadsName

def Alt.leadsName : Alt → Bool
  | .empty => false
  | .one c => c.leadsName
  | .bar c _ => c.leadsName

def Body.leadsName : Body → Bool
  | .alt l => l.leadsName
  | .lead _ => false
end

mutual
/-- Lazy repetitions alone in `(?:...)`. -/
def Atom.lazyOnly : Atom → Bool
  | .group b => b.lazyOnly
  | _ => false

def Cat.lazyOnly : Cat → Bool
  | .one a .none => a.lazyOnly
  | .one a (.opt k) => decide (k = .lazy) || a.lazyOnly
  | .one _ q => decide (q.kind = .lazy)
  | .cons a .none l => a.lazyOnly && l.lazyOnly
  | .cons a (.opt k) l => (decide (k = .lazy) || a.lazyOnly) && l.lazyOnly
  | .cons _ q l => decide (q.kind = .lazy) && l.lazyOnly

def Alt.lazyOnly : Alt → Bool
  | .one c => c.lazyOnly
  | _ => false

def Body.lazyOnly : Body → Bool
  | .alt l => l.lazyOnly
  | .lead _ => false
end

mutual
/-- An inline mode or a value that does not exist occurs outside of lookahead and lookbehind. -/
def Atom.hasMode : Atom → Bool
  | .mode _ => true
  | .unknown _ _ => true
  | .cap _ b => b.hasMode
  | .named _ _ b => b.hasMode
  | .group b => b.hasMode
  | .atomic b => b.hasMode
  | _ => false

def Cat.hasMode : Cat → Bool
  | .one a _ => a.hasMode
  | .cons a _ l => a.hasMode || l.hasMode

def Alt.hasMode : Alt → Bool
  | .empty => false
  | .one c => c.hasMode
  | .bar c l => c.hasMode || l.hasMode

def Body.hasMode : Body → Bool
  | .alt l => l.hasMode
  | .lead l => l.hasMode
end

mutual
/-- The tree can be written, and its groups are numbered by their opening parentheses, when `k` groups have been opened
before.  `?+` after lazy repetitions, and modes and values that do not exist in a lookbehind, are left out because
they do not compile. -/
def Atom.WF (find : List Nat → Option (List Nat) → Option Nat) : Nat → Atom → Prop
  | _, .ch c => c.WF special
  | _, .cls c => c.WF find
  | _, .unknown name value => isPropWord name ∧ isPropWord value ∧ find name (some value) = none
  | _, .set neg l => SetWF find neg l
  | k, .ref d => 49 ≤ d ∧ d ≤ 57 ∧ d - 48 ≤ k
  | k, .refNumber ds => isNumber ds ∧ decimal ds % 2 ^ 64 ≤ k
  | k, .refRelative ds id => isNumber ds ∧ decimal ds % 2 ^ 64 ≤ k ∧ id = k + 1 - decimal ds % 2 ^ 64
  | _, .refName n => ∃ v w, n = v :: w ∧ isNameStart v ∧ ∀ v ∈ w, isNameChar v
  | k, .cap id b => id = k + 1 ∧ b.WF find (k + 1)
  | k, .named id n b => id = k + 1 ∧ b.WF find (k + 1) ∧ (∃ v w, n = v :: w ∧ isNameStart v ∧ ∀ v ∈ w, isNameChar v) ∧
      b.leadsName = false
  | k, .group b => b.WF find k
  | k, .ahead _ b => b.WF find k
  | k, .behind _ b => b.WF find k ∧ b.hasMode = false
  | k, .atomic b => b.WF find k
  | _, _ => True

def Cat.WF (find : List Nat → Option (List Nat) → Option Nat) : Nat → Cat → Prop
  | k, .one a q => a.WF find k ∧ q.WF ∧ (q = .opt .poss → a.lazyOnly = false)
  | k, .cons a q l => a.WF find k ∧ q.WF ∧ (q = .opt .poss → a.lazyOnly = false) ∧ l.WF find (k + a.groups)

def Alt.WF (find : List Nat → Option (List Nat) → Option Nat) : Nat → Alt → Prop
  | _, .empty => True
  | k, .one c => c.WF find k
  | k, .bar c l => c.WF find k ∧ l.WF find (k + c.groups)

def Body.WF (find : List Nat → Option (List Nat) → Option Nat) : Nat → Body → Prop
  | k, .alt l => l.WF find k
  | k, .lead l => l.WF find k
end

/-! ### Meaning -/

/-- The two modes hold only until the end of an iteration. -/
def withModes (σ ρ : MState) : MState := { ρ with multiline := σ.multiline, caseless := σ.caseless }

mutual
/-- The atom matches from `σ` to `τ`. -/
def Atom.Match (E : Env) : Atom → List Ch → MState → MState → Prop
  | .ch c, s, σ, τ => inClass E.uni σ.caseless s σ.pos (.chr c.code) ∧ τ = { σ with pos := σ.pos + 1 }
  | .cls c, s, σ, τ => ∃ v, s[σ.pos]? = some v ∧ c.has E.uni σ.caseless v ∧ τ = { σ with pos := σ.pos + 1 }
  | .unknown _ _, _, _, _ => False
  | .set neg l, s, σ, τ => ∃ v, s[σ.pos]? = some v ∧ ((∃ i ∈ l, i.has E.uni σ.caseless v) ↔ neg = false) ∧
      τ = { σ with pos := σ.pos + 1 }
  | .dot, s, σ, τ => σ.pos < s.length ∧ ¬ (σ.multiline = true ∧ newlineAt s σ.pos) ∧ τ = { σ with pos := σ.pos + 1 }
  | .bol, s, σ, τ => (σ.pos = 0 ∨ (σ.multiline = true ∧ newlineAt s (σ.pos - 1))) ∧ τ = σ
  | .eol, s, σ, τ => (σ.pos = s.length ∨ (σ.multiline = true ∧ newlineAt s σ.pos)) ∧ τ = σ
  | .subjectBegin, _, σ, τ => σ.pos = 0 ∧ τ = σ
  | .subjectEnd, s, σ, τ => σ.pos = s.length ∧ τ = σ
  | .subjectEndLine, s, σ, τ =>
      (σ.pos = s.length ∨ (σ.multiline = true ∧ newlineAt s σ.pos ∧ σ.pos + 1 = s.length)) ∧ τ = σ
  | .wordBoundary, s, σ, τ => atBoundary E.uni σ.caseless s σ.pos wordChars ∧ τ = σ
  | .notWordBoundary, s, σ, τ => ¬ atBoundary E.uni σ.caseless s σ.pos wordChars ∧ τ = σ
  | .ref d, s, σ, τ => Again s σ τ (d - 48)
  | .refNumber ds, s, σ, τ => Again s σ τ (decimal ds)
  | .refRelative _ id, s, σ, τ => Again s σ τ id
  | .refName n, s, σ, τ => ∃ id, E.number n = some id ∧ Again s σ τ id
  | .cap id b, s, σ, τ => ∃ ρ, b.Match E s σ ρ ∧ τ = ρ.setCap id σ.pos ρ.pos
  | .named id _ b, s, σ, τ => ∃ ρ, b.Match E s σ ρ ∧ τ = ρ.setCap id σ.pos ρ.pos
  | .group b, s, σ, τ => b.Match E s σ τ
  | .ahead true b, s, σ, τ => ∃ ρ, b.Match E s σ ρ ∧ τ = { σ with cap := ρ.cap }
  | .ahead false b, s, σ, τ => (¬ ∃ ρ, b.Match E s σ ρ) ∧ τ = σ
  | .behind pos b, s, σ, τ =>
      ((∃ p ρ, p ≤ σ.pos ∧ b.Match E s { σ with pos := p } ρ ∧ ρ.pos = σ.pos) ↔ pos = true) ∧ τ = σ
  | .atomic b, s, σ, τ => ∃ ρ, b.Match E s σ ρ ∧ τ = withModes σ ρ
  | .mode m, _, σ, τ => τ = σ.setMode m

def Cat.Match (E : Env) : Cat → List Ch → MState → MState → Prop
  | .one a .none, s, σ, τ => a.Match E s σ τ
  | .one a q, s, σ, τ => ∃ k, q.admits k ∧ Iterate (fun σ τ => ∃ ρ, a.Match E s σ ρ ∧ τ = withModes σ ρ) k σ τ
  | .cons a .none l, s, σ, τ => ∃ ρ, a.Match E s σ ρ ∧ l.Match E s ρ τ
  | .cons a q l, s, σ, τ => ∃ π, (∃ k, q.admits k ∧
      Iterate (fun σ τ => ∃ ρ, a.Match E s σ ρ ∧ τ = withModes σ ρ) k σ π) ∧ l.Match E s π τ

def Alt.Match (E : Env) : Alt → List Ch → MState → MState → Prop
  | .empty, _, σ, τ => τ = σ
  | .one c, s, σ, τ => c.Match E s σ τ
  | .bar c l, s, σ, τ => c.Match E s σ τ ∨ l.Match E s σ τ

/-- The pattern matches from `σ` to `τ`. -/
def Body.Match (E : Env) : Body → List Ch → MState → MState → Prop
  | .alt l, s, σ, τ => l.Match E s σ τ
  | .lead l, s, σ, τ => τ = σ ∨ l.Match E s σ τ
end

/-! ### Conditions for the documented meaning -/

mutual
/-- Characters, sets, word boundaries, concatenation and alternation: what may appear in a lookbehind. -/
def Atom.plainBehind : Atom → Bool
  | .ch _ | .cls _ | .set _ _ | .dot | .wordBoundary => true
  | .group b => b.plainBehind
  | _ => false

def Cat.plainBehind : Cat → Bool
  | .one a .none => a.plainBehind
  | .cons a .none l => a.plainBehind && l.plainBehind
  | _ => false

def Alt.plainBehind : Alt → Bool
  | .empty => true
  | .one c => c.plainBehind
  | .bar c l => c.plainBehind && l.plainBehind

def Body.plainBehind : Body → Bool
  | .alt l => l.plainBehind
  | .lead l => l.plainBehind
end

mutual
/-- A possessive repetition stands alone in `(?:...)`. -/
def Atom.possessive : Atom → Bool
  | .group b => b.possessive
  | _ => false

def Cat.possessive : Cat → Bool
  | .one a .none => a.possessive
  | .one _ q => decide (q.kind = .poss)
  | _ => false

def Alt.possessive : Alt → Bool
  | .one c => c.possessive
  | _ => false

def Body.possessive : Body → Bool
  | .alt l => l.possessive
  | .lead _ => false
end

/-- The quantified atom is a possessive repetition. -/
def possessiveItem (a : Atom) (q : Quant) : Bool :=
  match q with
  | .none => a.possessive
  | q => decide (q.kind = .poss)

mutual
/-- The text begins with a possessive repetition, possibly after `(?:`. -/
def Atom.leadsPossessive : Atom → Bool
  | .group b => b.leadsPossessive
  | _ => false

def Cat.leadsPossessive : Cat → Bool
  | .one a .none => a.leadsPossessive
  | .one _ q => decide (q.kind = .poss)
  | .cons a .none _ => a.leadsPossessive
  | .cons _ q _ => decide (q.kind = .poss)

def Alt.leadsPossessive : Alt → Bool
  | .one c => c.leadsPossessive
  | _ => false

def Body.leadsPossessive : Body → Bool
  | .alt l => l.leadsPossessive
  | .lead _ => false
end

mutual
/-- The sum of all numbers in quantifiers. -/
def Atom.size : Atom → Nat
  | .cap _ b => b.size
  | .named _ _ b => b.size
  | .group b => b.size
  | .ahead _ b => b.size
  | .behind _ b => b.size
  | .atomic b => b.size
  | _ => 0

def Cat.size : Cat → Nat
  | .one a q => a.size + q.size
  | .cons a q l => a.size + q.size + l.size

def Alt.size : Alt → Nat
  | .empty => 0
  | .one c => c.size
  | .bar c l => c.size + l.size

def Body.size : Body → Nat
  | .alt l => l.size
  | .lead l => l.size
end

mutual
/-- The pattern means what is documented: no `\e`, no `\B`, numbers are not reduced modulo 2^64, no `{0}`, `\g{-0}`, a
possessive repetition is not directly followed by another one, and lookbehind contains only characters, sets,
concatenation and alternation. -/
def Atom.Faithful : Atom → Prop
  | .ch c => c.Faithful
  | .set _ l => ∀ i ∈ l, i.Faithful
  | .notWordBoundary => False
  | .refNumber ds => decimal ds < 2 ^ 64
  | .cap _ b => b.Faithful
  | .named _ _ b => b.Faithful
  | .group b => b.Faithful
  | .ahead _ b => b.Faithful
  | .behind _ b => b.Faithful ∧ b.plainBehind = true
  | .atomic b => b.Faithful
  | _ => True

def Cat.Faithful : Cat → Prop
  | .one a q => a.Faithful ∧ q.Faithful
  | .cons a q l => a.Faithful ∧ q.Faithful ∧ l.Faithful ∧ ¬ (possessiveItem a q = true ∧ l.leadsPossessive = true)

def Alt.Faithful : Alt → Prop
  | .empty => True
  | .one c => c.Faithful
  | .bar c l => c.Faithful ∧ l.Faithful

def Body.Faithful : Body → Prop
  | .alt l => l.Faithful
  | .lead l => l.Faithful
end

/-! ### Groups -/

mutual
/-- The capture groups, numbers and names, in the order of their opening parentheses. -/
def Atom.opened : Atom → List (Nat × Option (List Nat))
  | .cap id b => (id, none) :: b.opened
  | .named id n b => (id, some n) :: b.opened
  | .group b => b.opened
  | .ahead _ b => b.opened
  | .behind _ b => b.opened
  | .atomic b => b.opened
  | _ => []

def Cat.opened : Cat → List (Nat × Option (List Nat))
  | .one a _ => a.opened
  | .cons a _ l => a.opened ++ l.opened

def Alt.opened : Alt → List (Nat × Option (List Nat))
  | .empty => []
  | .one c => c.opened
  | .bar c l => c.opened ++ l.opened

def Body.opened : Body → List (Nat × Option (List Nat))
  | .alt l => l.opened
  | .lead l => l.opened
end

mutual
/-- The capture groups outside of lookbehind and atomic groups. -/
def Atom.visible : Atom → List (Nat × Option (List Nat))
  | .cap id b => (id, none) :: b.visible
  | .named id n b => (id, some n) :: b.visible
  | .group b => b.visible
  | .ahead _ b => b.visible
  | _ => []

def Cat.visible : Cat → List (Nat × Option (List Nat))
  | .one a _ => a.visible
  | .cons a _ l => a.visible ++ l.visible

def Alt.visible : Alt → List (Nat × Option (List Nat))
  | .empty => []
  | .one c => c.visible
  | .bar c l => c.visible ++ l.visible

def Body.visible : Body → List (Nat × Option (List Nat))
  | .alt l => l.visible
  | .lead l => l.visible
end

/-- The number of the first group with the name. -/
def numberOf : List (Nat × Option (List Nat)) → List Nat → Option Nat
  | [], _ => none
  | (id, name) :: l, n => if name = some n then some id else numberOf l n

mutual
/-- No group refers to itself or to a group around it; `O` are the groups that are open, `num` finds groups by name. -/
def Atom.selfFree (num : List Nat → Option Nat) : List Nat → Atom → Prop
  | O, .ref d => d - 48 ∉ O
  | O, .refNumber ds => decimal ds ∉ O
  | O, .refRelative _ id => id ∉ O
  | O, .refName n => ∀ id, num n = some id → id ∉ O
  | O, .cap id b => b.selfFree num (id :: O)
  | O, .named id _ b => b.selfFree num (id :: O)
  | O, .group b => b.selfFree num O
  | O, .ahead _ b => b.selfFree num O
  | O, .behind _ b => b.selfFree num O
  | O, .atomic b => b.selfFree num O
  | _, _ => True

def Cat.selfFree (num : List Nat → Option Nat) : List Nat → Cat → Prop
  | O, .one a _ => a.selfFree num O
  | O, .cons a _ l => a.selfFree num O ∧ l.selfFree num O

def Alt.selfFree (num : List Nat → Option Nat) : List Nat → Alt → Prop
  | _, .empty => True
  | O, .one c => c.selfFree num O
  | O, .bar c l => c.selfFree num O ∧ l.selfFree num O

def Body.selfFree (num : List Nat → Option Nat) : List Nat → Body → Prop
  | O, .alt l => l.selfFree num O
  | O, .lead l => l.selfFree num O
end

mutual
/-- No `(?!...)`, `(?<!...)`. -/
def Atom.noNegative : Atom → Bool
  | .cap _ b => b.noNegative
  | .named _ _ b => b.noNegative
  | .group b => b.noNegative
  | .ahead pos b => pos && b.noNegative
  | .behind pos b => pos && b.noNegative
  | .atomic b => b.noNegative
  | _ => true

def Cat.noNegative : Cat → Bool
  | .one a _ => a.noNegative
  | .cons a _ l => a.noNegative && l.noNegative

def Alt.noNegative : Alt → Bool
  | .empty => true
  | .one c => c.noNegative
  | .bar c l => c.noNegative && l.noNegative

def Body.noNegative : Body → Bool
  | .alt l => l.noNegative
  | .lead l => l.noNegative
end

end Ctre.Surface
