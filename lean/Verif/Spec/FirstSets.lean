import Verif.Model.First

/-
What the lists of the first-character analysis stand for.
-/
namespace Ctre

/-- The character belongs to an entry of a first list, matching case-sensitively. -/
def FC.Has (U : Uni) (v : Ch) : FC → Prop
  | .anything => True
  | .cc c => c.matchChar U false v = true

/-- The character belongs to some entry of the list. -/
def Has (U : Uni) (v : Ch) (l : List FC) : Prop := ∃ x ∈ l, x.Has U v

mutual
/-- Constants of the pattern fit into 31 bits and ranges are written with the smaller end first. -/
def CC.sane : CC → Bool
  | .chr c => decide (c < 2147483648)
  | .range a b => decide (a ≤ b) && decide (b < 2147483648)
  | .enum cs => cs.all fun c => decide (c < 2147483648)
  | .set l | .negSet l | .negate l => saneCCs l
  | .prop _ => true

def saneCCs : List CC → Bool
  | [] => true
  | c :: l => c.sane && saneCCs l
end

/-- Entries of a first list with sane constants. -/
def FC.sane : FC → Bool
  | .anything => true
  | .cc c => c.sane

end Ctre
