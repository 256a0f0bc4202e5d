import Verif.Spec.Caseless

/-
Literal text, and where it occurs.
-/
namespace Ctre

/-- The text `t` is the literal `p`, up to ASCII case when `ci` is set. -/
def IsText (ci : Bool) (p : List Nat) (t : List Ch) : Prop :=
  if ci then SameLetters t (p.map (fun (c : Nat) => (c : Int))) else t = p.map (fun (c : Nat) => (c : Int))

/-- The literal `p` occurs in `s` at position `i`. -/
def OccursAt (ci : Bool) (p : List Nat) (s : List Ch) (i : Nat) : Prop := IsText ci p ((s.drop i).take p.length)

end Ctre
