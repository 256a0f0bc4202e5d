import Verif.Spec.FirstSets

/-
Classes written as characters and ranges.
-/
namespace Ctre

mutual
/-- The ranges a class lists, in the order of the pattern; `none` if it has negated parts or properties. -/
def CC.ranges : CC → Option (List (Nat × Nat))
  | .chr c => some [(c, c)]
  | .range a b => some [(a, b)]
  | .enum cs => some (cs.map fun c => (c, c))
  | .set l => rangesAll l
  | .negSet _ | .negate _ | .prop _ => none

def rangesAll : List CC → Option (List (Nat × Nat))
  | [] => some []
  | c :: l =>
    match c.ranges, rangesAll l with
    | some x, some y => some (x ++ y)
    | _, _ => none
end

/-- A class that lists characters and ranges, or the complement of one whose members are listed in ascending order and
do not overlap. -/
def Listed (x : FC) : Prop :=
  match x with
  | .anything => False
  | .cc (.negSet l) => ∃ R, rangesAll l = some R ∧ R.Pairwise fun a b => a.2 < b.1
  | .cc c => ∃ R, c.ranges = some R

end Ctre
