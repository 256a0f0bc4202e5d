import Verif.Spec.Utf8

/-
Sequences of code units that have the form of UTF-8, well-formed or not.
-/
namespace Ctre

/-- The form with `k` code units of a value, whether it is the shortest or not. -/
def utf8Form (k c : Nat) : List Nat :=
  match k with
  | 1 => [c]
  | 2 => [0xC0 + c / 64, 0x80 + c % 64]
  | 3 => [0xE0 + c / 4096, 0x80 + c / 64 % 64, 0x80 + c % 64]
  | 4 => [0xF0 + c / 262144, 0x80 + c / 4096 % 64, 0x80 + c / 64 % 64, 0x80 + c % 64]
  | _ => []

/-- The values that have a form with `k` code units. -/
def hasForm (k c : Nat) : Prop :=
  match k with
  | 1 => c < 0x80
  | 2 => c < 0x800
  | 3 => c < 0x10000
  | 4 => c < 0x200000
  | _ => False

/-- The code units begin with a form of the value `c` with `k` code units. -/
def Begins (l : List Nat) (k c : Nat) : Prop := hasForm k c ∧ utf8Form k c <+: l

/-- The length that the first code unit announces; 1 for code units that begin nothing. -/
def announced (u : Nat) : Nat :=
  if u < 0xC0 then 1 else if u < 0xE0 then 2 else if u < 0xF0 then 3 else if u < 0xF8 then 4 else 1

/-- Reading arbitrary code units: a form stands for its value, and what is no form stands for U+FFFD and takes the
announced number of code units.  The pairs are the values and the numbers of code units. -/
inductive Decodes : List Nat → List (Nat × Nat) → Prop
  | nil : Decodes [] []
  | form {l : List Nat} {k c : Nat} {r : List (Nat × Nat)} : Begins l k c → Decodes (l.drop k) r → Decodes l ((c, k) :: r)
  | bad {u : Nat} {t : List Nat} {r : List (Nat × Nat)} : (∀ k c, ¬ Begins (u :: t) k c) →
      Decodes ((u :: t).drop (announced u)) r → Decodes (u :: t) ((0xFFFD, announced u) :: r)

/-- The values. -/
def values (r : List (Nat × Nat)) : List Nat := r.map Prod.fst

/-- The offset of the `i`-th value. -/
def startOf (r : List (Nat × Nat)) (i : Nat) : Nat := ((r.take i).map Prod.snd).sum

end Ctre
