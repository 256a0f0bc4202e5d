import Verif.Model.UniText
/-
The Unicode Character Database: sets of code points given by ranges, and names of properties.
-/
namespace Ctre.Unicode14

/-- `c` is in one of the ranges. -/
def inRanges (l : List (Nat × Nat)) (c : Nat) : Prop := ∃ r ∈ l, r.1 ≤ c ∧ c ≤ r.2

/-- A property, or a value of a property: its names and the code points that have it. -/
structure Row where
  names : List (List Nat)
  ranges : List (Nat × Nat)

/-- An ASCII letter as a small letter. -/
def small (v : Nat) : Nat := if 65 ≤ v ∧ v ≤ 90 then v + 32 else v

/-- Two names that differ in the case of ASCII letters only. -/
def sameName (a b : List Nat) : Prop := a.map small = b.map small

instance (a b : List Nat) : Decidable (sameName a b) := inferInstanceAs (Decidable (_ = _))

example : sameName n!"uppercase_letter" n!"Uppercase_Letter" := by decide
example : ¬ sameName n!"uppercaseletter" n!"Uppercase_Letter" := by decide
example : inRanges [(0x41, 0x5A), (0xC0, 0xD6)] 0xC9 := ⟨(0xC0, 0xD6), by decide, by decide⟩

end Ctre.Unicode14
