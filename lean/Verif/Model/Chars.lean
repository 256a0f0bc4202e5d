/-
Character matchers.  Source: /repo/include/ctre/atoms_characters.hpp

A subject character is an `Int`: the value of `*current` after integral promotion (so a signed
`char` above 0x7F is negative).  A pattern constant is a `Nat`: the parser stores constants up to
127 as `char` and larger ones as `char32_t` (/repo/include/ctll/parser.hpp:77-105).
-/
namespace Ctre

/-- Subject characters: the promoted value of `*current` (/repo/include/ctre/atoms_characters.hpp:31-48). -/
abbrev Ch := Int

/-- The value a subject character gets when it is compared with a `char32_t` constant: the usual
arithmetic conversions turn it into an unsigned 32-bit number.
(`value == V`, `value >= A`, `value <= B`: /repo/include/ctre/atoms_characters.hpp:43,82.) -/
def toU32 (v : Ch) : Nat := (v % 4294967296).toNat

/-- `value == V` (/repo/include/ctre/atoms_characters.hpp:43).  `V` is a `char` (promoted to `int`)
when it is at most 127, a `char32_t` otherwise. -/
def eqConst (v : Ch) (c : Nat) : Bool :=
  if c ≤ 127 then v == (c : Int) else toU32 v == c

/-- `value >= A` (/repo/include/ctre/atoms_characters.hpp:82), same conversions as `eqConst`. -/
def geConst (v : Ch) (c : Nat) : Bool :=
  if c ≤ 127 then decide ((c : Int) ≤ v) else decide (c ≤ toU32 v)

/-- `value <= B` (/repo/include/ctre/atoms_characters.hpp:82), same conversions as `eqConst`. -/
def leConst (v : Ch) (c : Nat) : Bool :=
  if c ≤ 127 then decide (v ≤ (c : Int)) else decide (toU32 v ≤ c)

/-- `is_ascii_alpha_lowercase` (/repo/include/ctre/atoms_characters.hpp:26-28). -/
def isLower (c : Nat) : Bool := decide (97 ≤ c) && decide (c ≤ 122)

/-- `is_ascii_alpha_uppercase` (/repo/include/ctre/atoms_characters.hpp:30-32). -/
def isUpper (c : Nat) : Bool := decide (65 ≤ c) && decide (c ≤ 90)

/-- `is_ascii_alpha` (/repo/include/ctre/atoms_characters.hpp:22-24). -/
def isAlpha (c : Nat) : Bool := isLower c || isUpper c

/-- `character<V>::match_char` (/repo/include/ctre/atoms_characters.hpp:34-45).
`V ^ 0x20` is only evaluated for ASCII letters. -/
def matchCharacter (ci : Bool) (v : Ch) (c : Nat) : Bool :=
  (isAlpha c && ci && eqConst v (Nat.xor c 0x20)) || eqConst v c

/-- `char_range<A,B>::match_char` (/repo/include/ctre/atoms_characters.hpp:67-84). -/
def matchRange (ci : Bool) (v : Ch) (a b : Nat) : Bool :=
  (((isLower a && isLower b) || (isUpper a && isUpper b)) && ci &&
      geConst v (Nat.xor a 0x20) && leConst v (Nat.xor b 0x20)) ||
    (geConst v a && leConst v b)

/-- Character-like pattern nodes: the types with a `match_char` member
(/repo/include/ctre/atoms_characters.hpp:34-84 and `property<>` types of
/repo/include/ctre/atoms_unicode.hpp).  A Unicode property is only a number here, its meaning is
a parameter of the model (`Uni`). -/
inductive CC where
  /-- `character<V>` -/
  | chr (c : Nat)
  /-- `char_range<A,B>` -/
  | range (a b : Nat)
  /-- `enumeration<Cs...>` (derives from `set<character<Cs>...>`, line 59) -/
  | enum (cs : List Nat)
  /-- `set<Content...>` -/
  | set (l : List CC)
  /-- `negative_set<Content...>` -/
  | negSet (l : List CC)
  /-- `negate<Content...>` -/
  | negate (l : List CC)
  /-- a `binary_property` / `property` type -/
  | prop (p : Nat)
deriving Repr

/-- Meaning of the Unicode property types: an arbitrary predicate on code points.  The meaning given
by the tables of /repo/include/unicode-db is `Ucd.uni` (Model/Unicode.lean). -/
abbrev Uni := Nat → Nat → Bool

mutual
/-- `CharacterLike::match_char` (/repo/include/ctre/atoms_characters.hpp:34-84;
properties: /repo/include/ctre/atoms_unicode.hpp:24-86, which cast the character to `char32_t`). -/
def CC.matchChar (U : Uni) (ci : Bool) (v : Ch) : CC → Bool
  | .chr c => matchCharacter ci v c
  | .range a b => matchRange ci v a b
  | .enum cs => cs.any (matchCharacter ci v)
  | .set l => CC.matchAny U ci v l
  | .negSet l => !(CC.matchAny U ci v l)
  | .negate l => !(CC.matchAny U ci v l)
  | .prop p => U p (toU32 v)

/-- The fold `(Content::match_char(value, f) || ... || false)`
(/repo/include/ctre/atoms_characters.hpp:49,55,63). -/
def CC.matchAny (U : Uni) (ci : Bool) (v : Ch) : List CC → Bool
  | [] => false
  | c :: l => CC.matchChar U ci v c || CC.matchAny U ci v l
end

/-- `word_chars` (/repo/include/ctre/atoms_characters.hpp:85). -/
def wordChars : CC := .set [.range 65 90, .range 97 122, .range 48 57, .chr 95]

/-- `space_chars` (/repo/include/ctre/atoms_characters.hpp:87). -/
def spaceChars : CC := .enum [32, 9, 10, 11, 12, 13]

/-- `vertical_space_chars` (/repo/include/ctre/atoms_characters.hpp:89-97). -/
def verticalSpaceChars : CC := .enum [0x0A, 0x0B, 0x0C, 0x0D, 0x85, 0x2028, 0x2029]

/-- `horizontal_space_chars` (/repo/include/ctre/atoms_characters.hpp:99-119). -/
def horizontalSpaceChars : CC :=
  .enum [0x09, 0x20, 0xA0, 0x1680, 0x180E, 0x2000, 0x2001, 0x2002, 0x2003, 0x2004, 0x2005, 0x2006,
    0x2007, 0x2008, 0x2009, 0x200A, 0x202F, 0x205F, 0x3000]

/-- `alphanum_chars` (/repo/include/ctre/atoms_characters.hpp:121). -/
def alphanumChars : CC := .set [.range 65 90, .range 97 122, .range 48 57]

/-- `alpha_chars` (/repo/include/ctre/atoms_characters.hpp:123). -/
def alphaChars : CC := .set [.range 65 90, .range 97 122]

/-- `xdigit_chars` (/repo/include/ctre/atoms_characters.hpp:125). -/
def xdigitChars : CC := .set [.range 65 70, .range 97 102, .range 48 57]

/-- `punct_chars` (/repo/include/ctre/atoms_characters.hpp:127-130). -/
def punctChars : CC :=
  .enum [0x21, 0x22, 0x23, 0x24, 0x25, 0x26, 0x27, 0x28, 0x29, 0x2A, 0x2B, 0x2C, 0x2D, 0x2E, 0x2F,
    0x3A, 0x3B, 0x3C, 0x3D, 0x3E, 0x3F, 0x40, 0x5B, 0x5C, 0x5D, 0x5E, 0x5F, 0x60, 0x7B, 0x7C, 0x7D,
    0x7E]

/-- `digit_chars` (/repo/include/ctre/atoms_characters.hpp:132). -/
def digitChars : CC := .range 48 57

/-- `ascii_chars` (/repo/include/ctre/atoms_characters.hpp:134). -/
def asciiChars : CC := .range 0 127

end Ctre
