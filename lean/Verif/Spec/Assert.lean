import Verif.Spec.Runs

/-
Zero-width assertions.
-/
namespace Ctre

/-- The pattern element `r` is a zero-width assertion with the given condition. -/
def Asserts (r : Re) (cond : Cfg → List Ch → Nat → Flags → Prop) : Prop :=
  ∀ C s lb cur f c t o, cur ≤ s.length →
    (Runs C s lb cur f c (.re r :: t) o ↔
      (cond C s cur f ∧ Runs C s lb cur f c t o) ∨ (¬ cond C s cur f ∧ o = .fail))

/-- The character at position `i` is a word character: letter, digit or underscore. -/
def wordAt (s : List Ch) (i : Nat) : Prop :=
  ∃ v : Int, s[i]? = some v ∧ ((97 ≤ v ∧ v ≤ 122) ∨ (65 ≤ v ∧ v ≤ 90) ∨ (48 ≤ v ∧ v ≤ 57) ∨ v = 95)

end Ctre
