import Verif.Model.UniDouble
import Verif.Spec.Double
import Mathlib.Tactic.Linarith
import Mathlib.Tactic.Ring
import Mathlib.Tactic.FieldSimp
import Mathlib.Tactic.NormNum
/-
Rounding gives the nearest `double`.
-/
namespace Ctre.Ucd

theorem roundEven_nearest (x : ℚ) (z : ℤ) : |x - roundEven x| ≤ |x - z| := by
  have h1 := Int.floor_le x
  have h2 := Int.lt_floor_add_one x
  have key : ∀ w : ℤ, (w = ⌊x⌋ ∧ x - ⌊x⌋ ≤ 1 / 2) ∨ (w = ⌊x⌋ + 1 ∧ 1 / 2 ≤ x - ⌊x⌋) → |x - w| ≤ |x - z| := by
    rintro w (⟨rfl, h⟩ | ⟨rfl, h⟩)
    · rw [abs_of_nonneg (by linarith)]
      by_cases hz : z ≤ ⌊x⌋
      · have : (z : ℚ) ≤ ⌊x⌋ := by exact_mod_cast hz
        rw [abs_of_nonneg (by linarith)]; linarith
      · have : (⌊x⌋ : ℚ) + 1 ≤ z := by exact_mod_cast (by omega : ⌊x⌋ + 1 ≤ z)
        rw [abs_of_nonpos (by linarith)]; linarith
    · push_cast
      rw [abs_of_nonpos (by linarith)]
      by_cases hz : z ≤ ⌊x⌋
      · have : (z : ℚ) ≤ ⌊x⌋ := by exact_mod_cast hz
        rw [abs_of_nonneg (by linarith)]; linarith
      · have : (⌊x⌋ : ℚ) + 1 ≤ z := by exact_mod_cast (by omega : ⌊x⌋ + 1 ≤ z)
        rw [abs_of_nonpos (by linarith)]; linarith
  apply key
  unfold roundEven
  split
  · exact .inl ⟨rfl, by linarith⟩
  · split
    · exact .inr ⟨rfl, by linarith⟩
    · split
      · exact .inl ⟨rfl, by linarith⟩
      · exact .inr ⟨rfl, by linarith⟩

theorem roundEven_int (z : ℤ) : roundEven (z : ℚ) = z := by
  simp [roundEven]

theorem two_zpow_pos (k : ℤ) : (0 : ℚ) < 2 ^ k := zpow_pos (by norm_num) k

theorem roundDouble_int {n : ℤ} (h : |n| < 2 ^ 53) : roundDouble n = n := by
  unfold roundDouble
  split
  · simp_all
  · rename_i h0
    have hpos : (0 : ℚ) < |(n : ℚ)| := abs_pos.2 h0
    have hlog : Int.log 2 |(n : ℚ)| ≤ 52 := by
      have : Int.log 2 |(n : ℚ)| < 53 := (Int.lt_zpow_iff_log_lt (by norm_num) hpos).1 (by exact_mod_cast h)
      omega
    obtain ⟨k, hk⟩ := Int.eq_ofNat_of_zero_le (show 0 ≤ 52 - Int.log 2 |(n : ℚ)| by omega)
    have e : Int.log 2 |(n : ℚ)| - 52 = -(k : ℤ) := by omega
    rw [e]
    have hu := two_zpow_pos (-(k : ℤ))
    have e2 : (n : ℚ) / 2 ^ (-(k : ℤ)) = ((n * 2 ^ k : ℤ) : ℚ) := by
      rw [zpow_neg, div_inv_eq_mul]; push_cast; rw [zpow_natCast]
    rw [e2, roundEven_int, ← e2]
    field_simp

theorem roundDouble_nearest {q : ℚ} (h1 : -1000 ≤ Int.log 2 |q|) (h2 : Int.log 2 |q| ≤ 1000) : NearestDouble q (roundDouble q) := by
  by_cases h0 : q = 0
  · subst h0
    refine ⟨⟨0, 0, by norm_num, by norm_num, by norm_num, by simp [roundDouble]⟩, fun y _ => ?_⟩
    simp [roundDouble]
  have hpos : (0 : ℚ) < |q| := abs_pos.2 h0
  have hlo := Int.zpow_log_le_self (b := 2) (by norm_num) hpos
  have hhi := Int.lt_zpow_succ_log_self (b := 2) (by norm_num) |q|
  simp only [Nat.cast_ofNat] at hlo hhi
  unfold roundDouble
  rw [if_neg h0]
  generalize Int.log 2 |q| = e at *
  have hu := two_zpow_pos (e - 52)
  have e52 : (2 : ℚ) ^ e = 2 ^ 52 * 2 ^ (e - 52) := by
    rw [show e = 52 + (e - 52) by omega, zpow_add₀ (by norm_num)]; norm_num
  have e52' : (2 : ℚ) ^ e = 4503599627370496 * 2 ^ (e - 52) := by rw [e52]; norm_num
  have e53 : (2 : ℚ) ^ (e + 1) = 2 ^ 53 * 2 ^ (e - 52) := by
    rw [show e + 1 = 53 + (e - 52) by omega, zpow_add₀ (by norm_num)]; norm_num
  generalize hx : q / 2 ^ (e - 52) = x
  have hq : q = x * 2 ^ (e - 52) := by rw [← hx]; field_simp
  have habs : |q| = |x| * 2 ^ (e - 52) := by rw [hq, abs_mul, abs_of_pos hu]
  have hx1 : (2 : ℚ) ^ 52 ≤ |x| := by
    rw [habs, e52] at hlo
    exact le_of_mul_le_mul_right hlo hu
  have hx2 : |x| < 2 ^ 53 := by
    rw [habs, e53] at hhi
    exact lt_of_mul_lt_mul_right hhi hu.le
  -- nothing on the grid is nearer
  have grid : ∀ z : ℤ, |q - roundEven x * 2 ^ (e - 52)| ≤ |q - z * 2 ^ (e - 52)| := by
    intro z
    have := roundEven_nearest x z
    rw [hq, ← sub_mul, ← sub_mul, abs_mul, abs_mul, abs_of_pos hu]
    exact mul_le_mul_of_nonneg_right this hu.le
  constructor
  · have hb : |roundEven x| ≤ 2 ^ 53 := by
      have h3 : ∀ z : ℤ, (z = ⌊x⌋ ∨ z = ⌊x⌋ + 1) → |z| ≤ 2 ^ 53 := by
        rw [abs_lt] at hx2
        have hf1 : ⌊x⌋ < 2 ^ 53 := Int.floor_lt.2 (by exact_mod_cast hx2.2)
        have hf2 : -2 ^ 53 ≤ ⌊x⌋ := Int.le_floor.2 (by have := hx2.1; push_cast; linarith)
        rintro z (rfl | rfl) <;> rw [abs_le] <;> constructor <;> omega
      apply h3
      unfold roundEven
      split
      · exact .inl rfl
      · split
        · exact .inr rfl
        · split
          · exact .inl rfl
          · exact .inr rfl
    rcases lt_or_eq_of_le hb with hb | hb
    · exact ⟨roundEven x, e - 52, hb, by omega, by omega, rfl⟩
    · have h3 : (roundEven x = 2 * (roundEven x / 2)) := by
        rcases abs_eq (by norm_num : (0 : ℤ) ≤ 2 ^ 53) |>.1 hb with h | h <;> rw [h] <;> norm_num
      refine ⟨roundEven x / 2, e - 51, ?_, by omega, by omega, ?_⟩
      · rcases abs_eq (by norm_num : (0 : ℤ) ≤ 2 ^ 53) |>.1 hb with h | h <;> rw [h] <;> norm_num
      · rw [show e - 51 = 1 + (e - 52) by omega, zpow_add₀ (by norm_num)]
        conv_lhs => rw [h3]
        push_cast
        ring
  · rintro y ⟨m, k, hm, -, -, rfl⟩
    by_cases hy : (2 : ℚ) ^ e ≤ |(m : ℚ) * 2 ^ k|
    · -- on the grid
      have hk : e - 52 ≤ k := by
        by_contra hlt
        have h3 : |(m : ℚ) * 2 ^ k| < 2 ^ 53 * 2 ^ k := by
          rw [abs_mul, abs_of_pos (two_zpow_pos k)]
          exact mul_lt_mul_of_pos_right (by exact_mod_cast hm) (two_zpow_pos k)
        have h4 : (2 : ℚ) ^ 53 * 2 ^ k ≤ 2 ^ e := by
          rw [show (2 : ℚ) ^ 53 * 2 ^ k = 2 ^ (53 + k) by rw [zpow_add₀ (by norm_num)]; norm_num]
          exact zpow_le_zpow_right₀ (by norm_num) (by omega)
        linarith
      obtain ⟨j, hj⟩ := Int.eq_ofNat_of_zero_le (show 0 ≤ k - (e - 52) by omega)
      have : (m : ℚ) * 2 ^ k = ((m * 2 ^ j : ℤ) : ℚ) * 2 ^ (e - 52) := by
        rw [show k = (j : ℤ) + (e - 52) by omega, zpow_add₀ (by norm_num), zpow_natCast]
        push_cast
        ring
      rw [this]
      exact grid _
    · rw [not_le] at hy
      rcases le_or_gt 0 q with hs | hs
      · have h3 := grid (2 ^ 52)
        push_cast at h3
        rw [← e52'] at h3
        rw [abs_of_nonneg hs] at hlo
        have h4 := (abs_lt.1 hy).2
        refine h3.trans ?_
        rw [abs_of_nonneg (by linarith), abs_of_nonneg (by linarith)]
        linarith
      · have h3 := grid (-2 ^ 52)
        push_cast at h3
        rw [neg_mul, ← e52'] at h3
        rw [abs_of_neg hs] at hlo
        have h4 := (abs_lt.1 hy).1
        refine h3.trans ?_
        rw [abs_of_nonpos (by linarith), abs_of_nonpos (by linarith)]
        linarith

end Ctre.Ucd
