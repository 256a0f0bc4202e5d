import Verif.Spec.Surface

/-
Patterns that differ only in the way single characters and numbers are written.
-/
namespace Ctre.Surface

/-- A character without the way it is written: `\n`, `\x0A` and `\u{A}` become the same.  `\e` is kept apart. -/
def Char1.plainly : Char1 → Char1
  | .control l => if l = 101 then .control 101 else .plain (controlCode l)
  | .x ds => .plain (hexadecimal ds % 2 ^ 64)
  | .u ds => .plain (hexadecimal ds % 2 ^ 64)
  | c => .plain c.code

/-- A number without the way it is written, modulo 2^64, as one "digit". -/
def plainNumber (ds : List Nat) : List Nat := [48 + decimal ds % 2 ^ 64]

def SetItem.plainly : SetItem → SetItem
  | .one c => .one c.plainly
  | .range a b => .range a.plainly b.plainly
  | i => i

def Quant.plainly : Quant → Quant
  | .exactly ds => .exactly (plainNumber ds)
  | .atLeast ds k => .atLeast (plainNumber ds) k
  | .between ds es k => .between (plainNumber ds) (plainNumber es) k
  | q => q

mutual
def Atom.plainly : Atom → Atom
  | .ch c => .ch c.plainly
  | .set neg l => .set neg (l.map SetItem.plainly)
  | .refNumber ds => .refNumber (plainNumber ds)
  | .refRelative ds id => .refRelative (plainNumber ds) id
  | .cap id b => .cap id b.plainly
  | .named id n b => .named id n b.plainly
  | .group b => .group b.plainly
  | .ahead pos b => .ahead pos b.plainly
  | .behind pos b => .behind pos b.plainly
  | .atomic b => .atomic b.plainly
  | a => a

def Cat.plainly : Cat → Cat
  | .one a q => .one a.plainly q.plainly
  | .cons a q l => .cons a.plainly q.plainly l.plainly

def Alt.plainly : Alt → Alt
  | .empty => .empty
  | .one c => .one c.plainly
  | .bar c l => .bar c.plainly l.plainly

def Body.plainly : Body → Body
  | .alt l => .alt l.plainly
  | .lead l => .lead l.plainly
end

/-- The two patterns differ at most in the spelling of characters and numbers. -/
def Body.SameUpToSpelling (b b' : Body) : Prop := b.plainly = b'.plainly

end Ctre.Surface
