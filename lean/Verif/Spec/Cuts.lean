import Verif.Model.Chars

/-
Cutting a subject at separators.
-/
namespace Ctre

/-- The text between two positions. -/
def slice (s : List Ch) (p : Nat × Nat) : List Ch := (s.drop p.1).take (p.2 - p.1)

/-- `Cuts find len p pieces`: looking for separators from position `p` on, the rest of the subject falls into
the given pieces.  `find p` is the first separator at or after `p`. -/
inductive Cuts (find : Nat → Option (Nat × Nat)) (len : Nat) : Nat → List (Nat × Nat) → Prop
  | last (p : Nat) : find p = none → Cuts find len p [(p, len)]
  | sep (p b e : Nat) (l : List (Nat × Nat)) : find p = some (b, e) → Cuts find len e l →
      Cuts find len p ((p, b) :: l)

/-- The pieces joined again: between two pieces stands the text from the end of the first to the begin of
the second. -/
def joined (s : List Ch) : List (Nat × Nat) → List Ch
  | [] => []
  | [p] => slice s p
  | p :: q :: l => slice s p ++ slice s (p.2, q.1) ++ joined s (q :: l)

end Ctre
