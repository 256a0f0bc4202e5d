/-
Loops over the matches in a subject, if matches may be empty.  `pick p` is the end of the match that is preferred at position `p`, if there
is one.  A loop that continues at the end of each match gives a list of spans; after it the loop ends (`none`), or it comes back to an empty
span at some position `q` for ever (`some q`).

This file does not mention the library.
-/
namespace Ctre

/-- From `p` on the first match is the one from `b` to `e`. -/
def NextMatch (pick : Nat → Option Nat) (p b e : Nat) : Prop := p ≤ b ∧ (∀ i, p ≤ i → i < b → pick i = none) ∧ pick b = some e

/-- A loop over all matches.  It ends when there is no further match or when a match has reached the end of the subject. -/
inductive AllLoop (pick : Nat → Option Nat) (len : Nat) : Nat → List (Nat × Nat) → Option Nat → Prop
  | stop (p : Nat) : (∀ i, p ≤ i → i ≤ len → pick i = none) → AllLoop pick len p [] none
  | last (p b : Nat) : NextMatch pick p b len → b ≤ len → AllLoop pick len p [(b, len)] none
  | step (p b e : Nat) (l : List (Nat × Nat)) (o : Option Nat) : NextMatch pick p b e → b < e → e < len → AllLoop pick len e l o →
      AllLoop pick len p ((b, e) :: l) o
  | stuck (p b : Nat) : NextMatch pick p b b → b < len → AllLoop pick len p [] (some b)

/-- A loop over the matches that follow each other without a gap. -/
inductive TokenLoop (pick : Nat → Option Nat) (len : Nat) : Nat → List (Nat × Nat) → Option Nat → Prop
  | stop (p : Nat) : pick p = none → TokenLoop pick len p [] none
  | last (p : Nat) : pick p = some len → p ≤ len → TokenLoop pick len p [(p, len)] none
  | step (p e : Nat) (l : List (Nat × Nat)) (o : Option Nat) : pick p = some e → p < e → e < len → TokenLoop pick len e l o →
      TokenLoop pick len p ((p, e) :: l) o
  | stuck (p : Nat) : pick p = some p → p < len → TokenLoop pick len p [] (some p)

/-- A loop over the stretches between the matches.  It ends only when there is no further match. -/
inductive PieceLoop (pick : Nat → Option Nat) (len : Nat) : Nat → List (Nat × Nat) → Option Nat → Prop
  | last (p : Nat) : (∀ i, p ≤ i → i ≤ len → pick i = none) → PieceLoop pick len p [(p, len)] none
  | step (p b e : Nat) (l : List (Nat × Nat)) (o : Option Nat) : NextMatch pick p b e → b < e → e ≤ len → PieceLoop pick len e l o →
      PieceLoop pick len p ((p, b) :: l) o
  | stuck (p b : Nat) : NextMatch pick p b b → b ≤ len → PieceLoop pick len p [(p, b)] (some b)

end Ctre
