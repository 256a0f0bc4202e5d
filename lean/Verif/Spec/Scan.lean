/-
Going through a subject from left to right.  `pick p` is the end of the match that is preferred at position `p`, if there is one.

This file does not mention the library.
-/
namespace Ctre

/-- `Scan pick len p l`: the matches at or after `p` are the spans `l`.  Each begins at the first position at or after the end of the
previous one where there is a match, and after the last one there is none. -/
inductive Scan (pick : Nat → Option Nat) (len : Nat) : Nat → List (Nat × Nat) → Prop
  | stop (p : Nat) : (∀ i, p ≤ i → i ≤ len → pick i = none) → Scan pick len p []
  | found (p b e : Nat) (l : List (Nat × Nat)) : p ≤ b → (∀ i, p ≤ i → i < b → pick i = none) → pick b = some e → b < e → e ≤ len →
      Scan pick len e l → Scan pick len p ((b, e) :: l)

/-- `Tokens pick len p l`: the matches from `p` on that follow each other without a gap are the spans `l`. -/
inductive Tokens (pick : Nat → Option Nat) (len : Nat) : Nat → List (Nat × Nat) → Prop
  | stop (p : Nat) : pick p = none → Tokens pick len p []
  | token (p e : Nat) (l : List (Nat × Nat)) : pick p = some e → p < e → e ≤ len → Tokens pick len e l →
      Tokens pick len p ((p, e) :: l)

/-- The spans between the given ones. -/
def gaps (len : Nat) : Nat → List (Nat × Nat) → List (Nat × Nat)
  | p, [] => [(p, len)]
  | p, (b, e) :: l => (p, b) :: gaps len e l

end Ctre
