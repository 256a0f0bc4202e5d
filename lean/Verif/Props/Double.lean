import Verif.Lemmas.UniDouble
import Verif.Props.Numeric
/-
C66: `value()`.
-/
set_option maxRecDepth 100000
namespace Ctre
open Unicode14 Ucd

theorem fractions_small : (fractions.all fun e => decide (-2 ^ 53 < e.2.1) && decide (e.2.1 < 2 ^ 53) && decide (e.2.2 < 2 ^ 15)) = true := by
  decide +kernel

theorem value_of {n d : Int} (h1 : -2 ^ 53 < n) (h2 : n < 2 ^ 53) (h3 : 0 < d) (h4 : d < 2 ^ 15) :
    ∃ x, NumericValue.value ⟨n, d⟩ = .num x ∧ NearestDouble ((n : ℚ) / d) x := by
  have hn : |n| < 2 ^ 53 := abs_lt.2 ⟨h1, h2⟩
  have hd : |d| < 2 ^ 53 := abs_lt.2 ⟨by omega, by omega⟩
  have hd0 : (d : ℚ) ≠ 0 := by exact_mod_cast (by omega : d ≠ 0)
  refine ⟨roundDouble ((n : ℚ) / d), ?_, ?_⟩
  · simp only [NumericValue.value, Double.ofInt, Double.div, roundDouble_int hn, roundDouble_int hd, if_neg hd0]
  · by_cases hn0 : n = 0
    · subst hn0
      simp only [Int.cast_zero, zero_div]
      exact roundDouble_nearest (by simp) (by simp)
    · have hq : (n : ℚ) / d ≠ 0 := div_ne_zero (by exact_mod_cast hn0) hd0
      have hpos : (0 : ℚ) < |(n : ℚ) / d| := abs_pos.2 hq
      have hdq : (1 : ℚ) ≤ d := by exact_mod_cast (by omega : 1 ≤ d)
      have hdq2 : (d : ℚ) < 2 ^ 15 := by exact_mod_cast h4
      have hnq : (1 : ℚ) ≤ |(n : ℚ)| := by exact_mod_cast Int.one_le_abs hn0
      have hnq2 : |(n : ℚ)| < 2 ^ 53 := by exact_mod_cast hn
      have e : |(n : ℚ) / d| = |(n : ℚ)| / d := by rw [abs_div, abs_of_pos (by linarith : (0 : ℚ) < d)]
      apply roundDouble_nearest
      · refine le_trans (by norm_num : (-1000 : ℤ) ≤ -15) ((Int.zpow_le_iff_le_log (by norm_num) hpos).1 ?_)
        rw [e, le_div_iff₀ (by linarith)]
        have : ((2 : ℕ) : ℚ) ^ (-15 : ℤ) * d ≤ 1 := by norm_num; linarith
        linarith
      · have : Int.log 2 |(n : ℚ) / d| < 53 := by
          refine (Int.lt_zpow_iff_log_lt (by norm_num) hpos).1 ?_
          rw [e, div_lt_iff₀ (by linarith)]
          norm_num
          nlinarith
        omega

/-- C66: `value()` is the `double` nearest to the numeric value of the code point in Unicode 14.0, and NaN if it has none. -/
theorem C66_double (c : Nat) : ∃ v, cpNumericValue c = some v ∧
    (∀ n d, HasValue c n d → ∃ x, v.value = .num x ∧ NearestDouble ((n : ℚ) / d) x) ∧ ((∀ n d, ¬ HasValue c n d) → v.value = .nan) := by
  rcases cpNumericValue_eq c with ⟨n, d, h1, h2⟩ | ⟨h1, h2⟩
  · obtain ⟨v, hv, h3, h4⟩ := C66_value c
    rw [h2] at hv
    cases hv
    refine ⟨_, h2, fun n' d' h => ?_, fun h => ?_⟩
    · obtain ⟨h5, h6, h7⟩ := h4 n' d' h
      have hs := List.all_eq_true.1 fractions_small _ h1
      simp only [Bool.and_eq_true, decide_eq_true_eq] at hs
      obtain ⟨x, k1, k2⟩ := value_of hs.1.1 hs.1.2 h6 hs.2
      refine ⟨x, k1, ?_⟩
      have h8 : (n' : ℚ) / (d' : ℕ) = (n : ℚ) / d := by
        rw [div_eq_div_iff (by exact_mod_cast (by omega : d' ≠ 0)) (by exact_mod_cast (by simp only at h6; omega : d ≠ 0))]
        exact_mod_cast h7.symm
      rw [h8]
      exact k2
    · have h0 : 0 < d := by simpa using List.all_eq_true.1 nonzero _ h1
      obtain ⟨n', d', hh⟩ := h3.1 (by simp only [NumericValue.isValid, bne_iff_ne, ne_eq]; omega)
      exact absurd hh (h n' d')
  · obtain ⟨v, hv, h3, h4⟩ := C66_value c
    rw [h2] at hv
    cases hv
    refine ⟨_, h2, fun n d h => ?_, fun _ => ?_⟩
    · have := h3.2 ⟨n, d, h⟩
      simp [NumericValue.isValid] at this
    · simp [NumericValue.value, Double.ofInt, Double.div, roundDouble]

/-! ### Cases -/

-- one third is not a `double`
example : NearestDouble (1 / 3) (6004799503160661 / 2 ^ 54) ∧ ∃ v, cpNumericValue 0x2153 = some v ∧ v.value = .num (6004799503160661 / 2 ^ 54) := by
  have e : (roundDouble (1 / 3) : ℚ) = 6004799503160661 / 2 ^ 54 := by
    have hl : Int.log 2 |(1 / 3 : ℚ)| = -2 := by
      have h1 : Int.log 2 |(1 / 3 : ℚ)| < -1 := (Int.lt_zpow_iff_log_lt (by norm_num) (by norm_num)).1 (by rw [abs_of_pos (by norm_num)]; norm_num)
      have h2 : -2 ≤ Int.log 2 |(1 / 3 : ℚ)| := (Int.zpow_le_iff_le_log (by norm_num) (by norm_num)).1 (by rw [abs_of_pos (by norm_num)]; norm_num)
      omega
    unfold roundDouble
    rw [if_neg (by norm_num), hl]
    have hf : ⌊(1 / 3 / 2 ^ (-2 - 52 : ℤ) : ℚ)⌋ = 6004799503160661 := by rw [Int.floor_eq_iff]; norm_num
    rw [roundEven, hf]
    norm_num
  have h1 : roundDouble (1 : ℤ) = 1 := by have := roundDouble_int (n := 1) (by norm_num); exact_mod_cast this
  have h3 : roundDouble (3 : ℤ) = 3 := by have := roundDouble_int (n := 3) (by norm_num); exact_mod_cast this
  refine ⟨?_, ⟨1, 3⟩, by decide +kernel, ?_⟩
  · obtain ⟨x, k1, k2⟩ := value_of (n := 1) (d := 3) (by norm_num) (by norm_num) (by norm_num) (by norm_num)
    simp only [NumericValue.value, Double.ofInt, Double.div, h1, h3] at k1
    rw [if_neg (by norm_num), e] at k1
    cases k1
    simpa using k2
  · simp only [NumericValue.value, Double.ofInt, Double.div, h1, h3]
    rw [if_neg (by norm_num), e]

end Ctre
