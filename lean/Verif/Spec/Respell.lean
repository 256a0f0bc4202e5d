import Verif.Spec.SurfaceWays

/-
Different spellings of the same pattern: a list of laws such as `x+` = `x{1}x*`, `[ab]` = `(?:a|b)`, `xz|yz` = `(?:x|y)z`, closed
under replacing a part of a pattern, wherever it stands.

This file is about the syntax of patterns only; it mentions neither their meaning nor the library.
-/
namespace Ctre.Surface

/-- A part of a pattern. -/
inductive Piece where
  | atom (a : Atom)
  | cat (c : Cat)
  | alt (l : Alt)
  | body (b : Body)

/-- One concatenation after the other. -/
def Cat.append : Cat → Cat → Cat
  | .one a q, d => .cons a q d
  | .cons a q l, d => .cons a q (l.append d)

/-- Alternatives in front of others. -/
def bars : List Cat → Alt → Alt
  | [], l => l
  | c :: cs, l => .bar c (bars cs l)

/-- `(?:...)` alone. -/
def grouped (l : Alt) : Cat := .one (.group (.alt l)) .none

/-- The number of further iterations allowed after the demanded ones, if there is a bound. -/
def Quant.slack : Quant → Option Nat
  | .none => some 0
  | .opt _ => some 1
  | .star _ => Option.none
  | .plus _ => Option.none
  | .exactly _ => some 0
  | .atLeast _ _ => Option.none
  | .between ds es _ => some (decimal es - decimal ds)

/-- The bound for the iterations of both, if both are bounded. -/
def slackSum : Option Nat → Option Nat → Option Nat
  | some m, some n => some (m + n)
  | _, _ => none

/-- Consumes something, matches in at most one way, and leaves the modes alone. -/
def Atom.plain (a : Atom) : Bool := a.consumes && a.single && !a.hasMode

/-- Different ways to write the same characters of a set. -/
inductive SameItems : List SetItem → List SetItem → Prop
  /-- `a`, `\x61` -/
  | char {c d : Char1} : c.code = d.code → SameItems [.one c] [.one d]
  | range {a b c d : Char1} : a.code = c.code → b.code = d.code → SameItems [.range a b] [.range c d]
  /-- `0-9` and `\d` -/
  | digit {a b : Char1} : a.code = 48 → b.code = 57 → SameItems [.range a b] [.cls (.letter 100)]
  /-- `A-Za-z0-9_` and `\w` -/
  | word {a b c d e f g : Char1} : a.code = 65 → b.code = 90 → c.code = 97 → d.code = 122 → e.code = 48 → f.code = 57 → g.code = 95 →
      SameItems [.range a b, .range c d, .range e f, .one g] [.cls (.letter 119)]
  /-- the six white space characters and `\s` -/
  | space {a b c d e f : Char1} : a.code = 32 → b.code = 9 → c.code = 10 → d.code = 11 → e.code = 12 → f.code = 13 →
      SameItems [.one a, .one b, .one c, .one d, .one e, .one f] [.cls (.letter 115)]
  /-- `[:digit:]`, `[:word:]`, `[:space:]` -/
  | posixDigit : SameItems [.posix false .digit] [.cls (.letter 100)]
  | posixWord : SameItems [.posix false .word] [.cls (.letter 119)]
  | posixSpace : SameItems [.posix false .space] [.cls (.letter 115)]
  /-- `[:^digit:]`, `[:^word:]`, `[:^space:]` -/
  | posixNotDigit : SameItems [.posix true .digit] [.cls (.letter 68)]
  | posixNotWord : SameItems [.posix true .word] [.cls (.letter 87)]
  | posixNotSpace : SameItems [.posix true .space] [.cls (.letter 83)]
  /-- `[:lower:]` and `a-z`, `[:upper:]` and `A-Z`, `[:alpha:]`, `[:alnum:]` -/
  | posixLower {a b : Char1} : a.code = 97 → b.code = 122 → SameItems [.posix false .lower] [.range a b]
  | posixUpper {a b : Char1} : a.code = 65 → b.code = 90 → SameItems [.posix false .upper] [.range a b]
  | posixAlpha {a b c d : Char1} : a.code = 65 → b.code = 90 → c.code = 97 → d.code = 122 →
      SameItems [.posix false .alpha] [.range a b, .range c d]
  | posixAlnum : SameItems [.posix false .alnum] [.posix false .alpha, .cls (.letter 100)]

/-- `\w` as an atom. -/
def word1 : Cat := .one (.cls (.letter 119)) .none

/-- `[\s\S]` as an atom. -/
def anyChar : Cat := .one (.set false [.cls (.letter 115), .cls (.letter 83)]) .none

/-- The two parts are spellings of the same pattern. -/
inductive Alike : Piece → Piece → Prop
  | refl (x : Piece) : Alike x x
  | symm {x y : Piece} : Alike x y → Alike y x
  | trans {x y z : Piece} : Alike x y → Alike y z → Alike x z
  -- a part may be replaced wherever it stands
  | cap {id : Nat} {b b' : Body} : Alike (.body b) (.body b') → Alike (.atom (.cap id b)) (.atom (.cap id b'))
  | named {id : Nat} {n : List Nat} {b b' : Body} : Alike (.body b) (.body b') → Alike (.atom (.named id n b)) (.atom (.named id n b'))
  | group {b b' : Body} : Alike (.body b) (.body b') → Alike (.atom (.group b)) (.atom (.group b'))
  | ahead {pos : Bool} {b b' : Body} : Alike (.body b) (.body b') → Alike (.atom (.ahead pos b)) (.atom (.ahead pos b'))
  | behind {pos : Bool} {b b' : Body} : Alike (.body b) (.body b') → Alike (.atom (.behind pos b)) (.atom (.behind pos b'))
  | atomic {b b' : Body} : Alike (.body b) (.body b') → Alike (.atom (.atomic b)) (.atom (.atomic b'))
  | item {a a' : Atom} {q : Quant} : Alike (.atom a) (.atom a') → Alike (.cat (.one a q)) (.cat (.one a' q))
  | append {c c' d d' : Cat} : Alike (.cat c) (.cat c') → Alike (.cat d) (.cat d') → Alike (.cat (c.append d)) (.cat (c'.append d'))
  | one {c c' : Cat} : Alike (.cat c) (.cat c') → Alike (.alt (.one c)) (.alt (.one c'))
  | bar {c c' : Cat} {l l' : Alt} : Alike (.cat c) (.cat c') → Alike (.alt l) (.alt l') → Alike (.alt (.bar c l)) (.alt (.bar c' l'))
  | alt {l l' : Alt} : Alike (.alt l) (.alt l') → Alike (.body (.alt l)) (.body (.alt l'))
  | lead {l l' : Alt} : Alike (.alt l) (.alt l') → Alike (.body (.lead l)) (.body (.lead l'))
  -- single characters and sets
  /-- `a` = `\x61` -/
  | char {c d : Char1} : c.code = d.code → Alike (.atom (.ch c)) (.atom (.ch d))
  /-- `[a]` = `a` -/
  | setChar {c : Char1} : Alike (.atom (.set false [.one c])) (.atom (.ch c))
  /-- `[\d]` = `\d` -/
  | setCls {c : Cls} : Alike (.atom (.set false [.cls c])) (.atom (.cls c))
  /-- `[^\d]` = `\D`, and so on for `\s`, `\w`, `\h`, `\v` -/
  | notCls {l : Nat} : l ∈ [100, 115, 119, 104, 118] → Alike (.atom (.set true [.cls (.letter l)])) (.atom (.cls (.letter (l - 32))))
  /-- `[^\p{L}]` = `\P{L}` -/
  | notProp {p : Nat} {n : List Nat} {v : Option (List Nat)} :
      Alike (.atom (.set true [.cls (.prop false p n v)])) (.atom (.cls (.prop true p n v)))
  /-- `[^\n]` = `\N` -/
  | notNewline {c : Char1} : c.code = 10 → Alike (.atom (.set true [.one c])) (.atom (.cls (.letter 78)))
  /-- `[ab]` = `[bab]` -/
  | setOrder {neg : Bool} {l m : List SetItem} : (∀ i, i ∈ l ↔ i ∈ m) → Alike (.atom (.set neg l)) (.atom (.set neg m))
  /-- `[x0-9]` = `[x\d]` -/
  | setItems {neg : Bool} {l i i' m : List SetItem} : SameItems i i' → Alike (.atom (.set neg (l ++ i ++ m))) (.atom (.set neg (l ++ i' ++ m)))
  /-- `[ab]` = `(?:[a]|[b])` -/
  | setUnion {l m : List SetItem} : Alike (.atom (.set false (l ++ m)))
      (.atom (.group (.alt (.bar (.one (.set false l) .none) (.one (.one (.set false m) .none))))))
  -- groups
  /-- `(?:a)` = `a` -/
  | groupAtom {a : Atom} : Alike (.atom (.group (.alt (.one (.one a .none))))) (.atom a)
  /-- `(?:xy)` = `xy` -/
  | groupCat {c : Cat} : Alike (.cat (grouped (.one c))) (.cat c)
  /-- `x|(?:y|z)` = `x|y|z` -/
  | groupAlt {l : Alt} : Alike (.alt (.one (grouped l))) (.alt l)
  /-- `(?:x|y)|z` = `x|y|z` -/
  | groupFirst {cs : List Cat} {c : Cat} {l : Alt} : Alike (.alt (.bar (grouped (bars cs (.one c))) l)) (.alt (bars cs (.bar c l)))
  -- alternatives
  /-- `x|y|x|z` = `x|y|z` -/
  | again {cs : List Cat} {c : Cat} {l : Alt} : c ∈ cs → c.groups = 0 → Alike (.alt (bars cs (.bar c l))) (.alt (bars cs l))
  /-- `x|y|x` = `x|y` -/
  | againLast {cs : List Cat} {c d : Cat} : c ∈ d :: cs → c.groups = 0 → Alike (.alt (bars cs (.bar d (.one c)))) (.alt (bars cs (.one d)))
  /-- `(?:x|y)z` = `(?:xz|(?:y)z)` -/
  | after {c z : Cat} {l : Alt} : z.groups = 0 →
      Alike (.cat ((grouped (.bar c l)).append z)) (.cat (grouped (.bar (c.append z) (.one ((grouped l).append z)))))
  /-- `z(?:x|y)` = `(?:zx|z(?:y))` if `z` matches in at most one way -/
  | before {c z : Cat} {l : Alt} : z.groups = 0 → z.single = true →
      Alike (.cat (z.append (grouped (.bar c l)))) (.cat (grouped (.bar (z.append c) (.one (z.append (grouped l))))))
  -- quantifiers
  /-- `x*` = `x{0,}`, `x+?` = `x{1,}?`, `x?` = `x{0,1}`, `x{3}` = `x{03}` -/
  | count {a : Atom} {q q' : Quant} : q ≠ .none → q' ≠ .none → q.low = q'.low → q.slack = q'.slack → q.kind = q'.kind →
      Alike (.cat (.one a q)) (.cat (.one a q'))
  /-- `x{3}` = `x{3,3}` = `x{3,3}?` = `x{3,3}+` -/
  | fixed {a : Atom} {q q' : Quant} : q ≠ .none → q' ≠ .none → q.low = q'.low → q.slack = some 0 → q'.slack = some 0 →
      Alike (.cat (.one a q)) (.cat (.one a q'))
  /-- `x+` = `x{1}x*`, `x{2,}?` = `x{2}x*?`, `x{3,5}` = `x{3}x{0,2}`, `x{5}` = `x{2}x{3}` -/
  | split {a : Atom} {ds : List Nat} {q q' : Quant} : a.groups = 0 → q ≠ .none → q' ≠ .none → q.low = decimal ds + q'.low → q.slack = q'.slack →
      q.kind = q'.kind → Alike (.cat (.one a q)) (.cat (.cons a (.exactly ds) (.one a q')))
  /-- `x*x*` = `x*`, `x+x*` = `x+`, `x?x?` = `x{0,2}`, `x{1,2}?x{3,4}?` = `x{4,6}?` -/
  | join {a : Atom} {p q q' : Quant} : a.groups = 0 → p ≠ .none → q ≠ .none → q' ≠ .none → p.low = q.low + q'.low →
      p.slack = slackSum q.slack q'.slack → p.kind = q.kind → p.kind = q'.kind → p.kind ≠ .poss →
      Alike (.cat (.cons a q (.one a q'))) (.cat (.one a p))
  /-- `a{1}` = `a` -/
  | once {a : Atom} {q : Quant} : a.plain = true → q.low = 1 → q.slack = some 0 → Alike (.cat (.one a q)) (.cat (.one a .none))
  /-- `a?` = `(?:a|)` -/
  | optional {a : Atom} : a.plain = true →
      Alike (.cat (.one a (.opt .greedy))) (.cat (grouped (.bar (.one a .none) .empty)))
  /-- `a??` = `(?:|a)` -/
  | lazyOptional {a : Atom} : a.plain = true →
      Alike (.cat (.one a (.opt .lazy))) (.cat (.one (.group (.lead (.one (.one a .none)))) .none))
  /-- `x++` = `(?>x+)` -/
  | possessive {a : Atom} : a.groups = 0 →
      Alike (.cat (.one a (.plus .poss))) (.cat (.one (.atomic (.alt (.one (.one a (.plus .greedy))))) .none))
  /-- `(?:x?)*` = `x*` -/
  | repeatOptional {a : Atom} {k : RepKind} {q : Quant} : q ≠ .none →
      Alike (.cat (.one (.group (.alt (.one (.one a (.opt k))))) q)) (.cat (.one a q))
  -- assertions
  /-- `\b` = `(?:(?<=\w)(?!\w)|(?<!\w)(?=\w))` -/
  | boundary : Alike (.atom .wordBoundary) (.atom (.group (.alt (.bar
      (.cons (.behind true (.alt (.one word1))) .none (.one (.ahead false (.alt (.one word1))) .none))
      (.one (.cons (.behind false (.alt (.one word1))) .none (.one (.ahead true (.alt (.one word1))) .none)))))))
  /-- `\z` = `(?![\s\S])` -/
  | subjectEnd : Alike (.atom .subjectEnd) (.atom (.ahead false (.alt (.one anyChar))))
  /-- `\A` = `(?<![\s\S])` -/
  | subjectBegin : Alike (.atom .subjectBegin) (.atom (.behind false (.alt (.one anyChar))))

end Ctre.Surface
