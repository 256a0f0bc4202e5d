import Verif.Model.Parser
import Verif.Spec.Runs
import Verif.Lemmas.Chars

/-
The documented character classes, and what it means for a pattern text to denote one.
-/
namespace Ctre
open Parse

/-- The code points of a pattern literal. -/
def codes (p : String) : List Nat := p.toList.map Char.toNat

/-- The pattern text `p` is accepted, and the pattern matches a subject of one character exactly when the
character belongs to `D`; the flags are arbitrary among those satisfying `F`. -/
def Accepts (p : String) (F : Flags → Prop) (D : Int → Prop) : Prop :=
  ∀ P, ∃ r, build P (codes p) = .pattern r ∧ ∀ (C : Cfg) (f : Flags) (v : Int), IsCh v → F f →
    ∃ x, Returns (fun n => cMatch C n [v] f r) (.done x) ∧ (x.whole.matched = true ↔ D v)

def anyFlags (_ : Flags) : Prop := True
def caseSensitive (f : Flags) : Prop := f.ci = false
def caseInsensitive (f : Flags) : Prop := f.ci = true

/-! ### The documented sets -/

def isDigit (v : Int) : Prop := 48 ≤ v ∧ v ≤ 57
def isLowerLetter (v : Int) : Prop := 97 ≤ v ∧ v ≤ 122
def isUpperLetter (v : Int) : Prop := 65 ≤ v ∧ v ≤ 90
def isLetter (v : Int) : Prop := isLowerLetter v ∨ isUpperLetter v
def isWord (v : Int) : Prop := isLetter v ∨ isDigit v ∨ v = 95
/-- Space, tab, line feed, vertical tab, form feed, carriage return. -/
def isSpace (v : Int) : Prop := v = 32 ∨ (9 ≤ v ∧ v ≤ 13)
/-- Line feed to carriage return, next line, line and paragraph separator. -/
def isVerticalSpace (v : Int) : Prop := (10 ≤ v ∧ v ≤ 13) ∨ v = 0x85 ∨ v = 0x2028 ∨ v = 0x2029
/-- Tab, space, no-break space and the Unicode spaces. -/
def isHorizontalSpace (v : Int) : Prop :=
  v = 9 ∨ v = 32 ∨ v = 0xA0 ∨ v = 0x1680 ∨ v = 0x180E ∨ (0x2000 ≤ v ∧ v ≤ 0x200A) ∨ v = 0x202F ∨
  v = 0x205F ∨ v = 0x3000
def isHexDigit (v : Int) : Prop := isDigit v ∨ (97 ≤ v ∧ v ≤ 102) ∨ (65 ≤ v ∧ v ≤ 70)
/-- Printable ASCII other than space. -/
def isGraph (v : Int) : Prop := 33 ≤ v ∧ v ≤ 126
def isPunct (v : Int) : Prop := isGraph v ∧ ¬ isLetter v ∧ ¬ isDigit v

end Ctre
