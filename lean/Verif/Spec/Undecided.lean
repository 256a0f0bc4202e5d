import Verif.Spec.Accepted

/-
The features of pattern texts on which the parser may stop without a decision.  Nothing here mentions the parser.
-/
namespace Ctre.Surface

/-- `k` times `(?:`. -/
def opens : Nat → List Nat
  | 0 => []
  | k + 1 => [40, 63, 58] ++ opens k

/-- Seven kinds of texts.  `find` says which property names and values are known. -/
inductive Feature (find : List Nat → Option (List Nat) → Option Nat) : List Nat → Prop
  /-- `(?` and two letters of modes, as in `(?im)` -/
  | letters (x y : Nat) : x ∈ modeLetters → y ∈ modeLetters → Feature find [40, 63, x, y]
  /-- a group without number and a possessive question mark, as in `(?:a??)?+` -/
  | possessive (u : List Nat) : Feature find ([40, 63, 58] ++ u ++ [41, 63, 43])
  /-- `\x{...}` or `\u{...}` with a number that has more than 32 bits -/
  | hex (m : Nat) (ds : List Nat) : m = 120 ∨ m = 117 → (∀ d ∈ ds, isHex d) → 2 ^ 32 ≤ hexadecimal ds % 2 ^ 64 →
      Feature find ([92, m, 123] ++ ds ++ [125])
  /-- a named group whose content begins with a reference by name, as in `(?<n>\g{m})` -/
  | reference (n : List Nat) (k x : Nat) : (∀ v ∈ n, isNameChar v) → isNameStart x →
      Feature find ([40, 63, 60] ++ n ++ [62] ++ opens k ++ [92, 103, 123, x])
  /-- a named class as the beginning of a range, as in `[[:alpha:]-z]` -/
  | posix (neg : Bool) (n : Posix) : Feature find ([91, 58] ++ (if neg then [94] else []) ++ n.name ++ [58, 93, 45])
  /-- `\p{name=value}` or `\P{name=value}` with an unknown value -/
  | property (m : Nat) (name w : List Nat) : m = 112 ∨ m = 80 → isPropWord name → isPropWord w → find name (some w) = none →
      Feature find ([92, m, 123] ++ name ++ [61] ++ w ++ [125])
  /-- a lookbehind and after its beginning a mode, as in `(?<=(?i)a)` -/
  | behind (d : Nat) (u : List Nat) (x : Nat) : d = 61 ∨ d = 33 → x ∈ modeLetters →
      Feature find ([40, 63, 60, d] ++ u ++ [40, 63, x, 41])

/-- One of these stands somewhere in the text. -/
def Undecided (find : List Nat → Option (List Nat) → Option Nat) (t : List Nat) : Prop :=
  ∃ a u b, t = a ++ u ++ b ∧ Feature find u

/-- The beginnings of the features: `(?i`, `(?c`, `(?s`, `(?m`, `)?+`, `\x{`, `\u{`, `\g{`, `[:`, `\p{`, `\P{`, `(?<=`, `(?<!`. -/
def featureMarks : List (List Nat) := [[40, 63, 105], [40, 63, 99], [40, 63, 115], [40, 63, 109], [41, 63, 43], [92, 120, 123],
  [92, 117, 123], [92, 103, 123], [91, 58], [92, 112, 123], [92, 80, 123], [40, 63, 60, 61], [40, 63, 60, 33]]

end Ctre.Surface
