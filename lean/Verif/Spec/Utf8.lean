/-
UTF-8 and UTF-16 encoding forms (The Unicode Standard, 3.9).
-/
namespace Ctre

/-- Unicode scalar values. -/
def IsScalar (c : Nat) : Prop := c < 0xD800 ∨ (0xE000 ≤ c ∧ c < 0x110000)

instance (c : Nat) : Decidable (IsScalar c) := by unfold IsScalar; infer_instance

/-- Code units of a code point in UTF-8. -/
def utf8Of (c : Nat) : List Nat :=
  if c < 0x80 then [c]
  else if c < 0x800 then [0xC0 + c / 64, 0x80 + c % 64]
  else if c < 0x10000 then [0xE0 + c / 4096, 0x80 + c / 64 % 64, 0x80 + c % 64]
  else [0xF0 + c / 262144, 0x80 + c / 4096 % 64, 0x80 + c / 64 % 64, 0x80 + c % 64]

/-- UTF-8 encoding of a sequence of code points. -/
def utf8Encode (s : List Nat) : List Nat := s.flatMap utf8Of

/-- Code units of a code point in UTF-16. -/
def utf16Of (c : Nat) : List Nat :=
  if c < 0x10000 then [c] else [0xD800 + (c - 0x10000) / 1024, 0xDC00 + (c - 0x10000) % 1024]

/-- UTF-16 encoding of a sequence of code points. -/
def utf16Encode (s : List Nat) : List Nat := s.flatMap utf16Of

/-- Offset of the `i`-th code point of a UTF-8 text. -/
def utf8Offset (s : List Nat) (i : Nat) : Nat := (utf8Encode (s.take i)).length

/-- Number of code units in the sequence that a UTF-8 code unit begins, by the older definition with up to six code units
(RFC 2279); 0 for a continuation. -/
def utf8SeqLen (u : Nat) : Nat :=
  if u < 0x80 then 1 else if u < 0xC0 then 0 else if u < 0xE0 then 2 else if u < 0xF0 then 3
  else if u < 0xF8 then 4 else if u < 0xFC then 5 else 6

/-- Code units between 0x80 and 0xBF. -/
def IsContinuation (u : Nat) : Prop := 0x80 ≤ u ∧ u < 0xC0

instance (u : Nat) : Decidable (IsContinuation u) := by unfold IsContinuation; infer_instance

/-- The code units fall into sequences, each a leading code unit followed by the number of continuations it announces.
The last sequence may be cut off by the end. -/
inductive Sequences8 : List Nat → Prop
  | nil : Sequences8 []
  | seq {u : Nat} {t l : List Nat} : t.length + 1 = utf8SeqLen u → (∀ v ∈ t, IsContinuation v) → Sequences8 l →
      Sequences8 (u :: t ++ l)
  | cut {u : Nat} {t : List Nat} : t.length + 1 < utf8SeqLen u → (∀ v ∈ t, IsContinuation v) → Sequences8 (u :: t)

/-- The code units fall into single code units that are not high surrogates, and pairs of a high and a low surrogate.
A high surrogate may stand at the end. -/
inductive Sequences16 : List Nat → Prop
  | nil : Sequences16 []
  | one {u : Nat} {l : List Nat} : ¬ (0xD800 ≤ u ∧ u < 0xDC00) → Sequences16 l → Sequences16 (u :: l)
  | pair {u v : Nat} {l : List Nat} : 0xD800 ≤ u ∧ u < 0xDC00 → 0xDC00 ≤ v ∧ v < 0xE000 → Sequences16 l →
      Sequences16 (u :: v :: l)
  | cut {u : Nat} : 0xD800 ≤ u ∧ u < 0xDC00 → Sequences16 [u]

end Ctre
