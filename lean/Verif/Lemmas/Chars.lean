import Verif.Model.Chars

/-
Comparison of characters with pattern constants, as comparison of numbers.
-/
namespace Ctre

/-- The values a subject character can have: those of the integer types of at most 32 bits. -/
def IsCh (v : Ch) : Prop := (-2147483648 : Int) ≤ v ∧ v < (4294967296 : Int)

theorem eqConst_small {v : Int} {c : Nat} (hc : c ≤ 127) : eqConst v c = true ↔ v = (c : Int) := by
  simp [eqConst, hc]

theorem geConst_small {v : Int} {c : Nat} (hc : c ≤ 127) : geConst v c = true ↔ (c : Int) ≤ v := by
  simp [geConst, hc]

theorem leConst_small {v : Int} {c : Nat} (hc : c ≤ 127) : leConst v c = true ↔ v ≤ (c : Int) := by
  simp [leConst, hc]

theorem eqConst_iff {v : Int} {c : Nat} (hv : IsCh v) (hc : c < 2147483648) :
    eqConst v c = true ↔ v = (c : Int) := by
  obtain ⟨h1, h2⟩ := hv
  have h1 : (-2147483648 : Int) ≤ v := h1
  have h2 : v < (4294967296 : Int) := h2
  by_cases h : c ≤ 127
  · exact eqConst_small h
  · simp only [eqConst, h, if_false, toU32, beq_iff_eq]
    omega

theorem geConst_nonneg {v : Int} {c : Nat} (h0 : 0 ≤ v) (h : v < 4294967296) :
    geConst v c = true ↔ (c : Int) ≤ v := by
  have hu : toU32 v = v.toNat := by simp only [toU32]; omega
  by_cases hc : c ≤ 127
  · exact geConst_small hc
  · simp only [geConst, hc, if_false, hu, decide_eq_true_eq]; omega

theorem leConst_nonneg {v : Int} {c : Nat} (h0 : 0 ≤ v) (h : v < 4294967296) :
    leConst v c = true ↔ v ≤ (c : Int) := by
  have hu : toU32 v = v.toNat := by simp only [toU32]; omega
  by_cases hc : c ≤ 127
  · exact leConst_small hc
  · simp only [leConst, hc, if_false, hu, decide_eq_true_eq]; omega

theorem wordChars_iff {U : Uni} {ci : Bool} {v : Int} : CC.matchChar U ci v wordChars = true ↔
    ((97 ≤ v ∧ v ≤ 122) ∨ (65 ≤ v ∧ v ≤ 90) ∨ (48 ≤ v ∧ v ≤ 57) ∨ v = 95) := by
  simp only [wordChars, CC.matchChar, CC.matchAny, matchRange, matchCharacter, isLower, isUpper, isAlpha,
    show Nat.xor 65 0x20 = 97 from rfl, show Nat.xor 90 0x20 = 122 from rfl,
    show Nat.xor 97 0x20 = 65 from rfl, show Nat.xor 122 0x20 = 90 from rfl, Bool.or_eq_true, Bool.and_eq_true]
  cases ci <;> simp (decide := true) [geConst_small, leConst_small, eqConst_small] <;> omega

end Ctre
