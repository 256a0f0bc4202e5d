import Verif.Lemmas.UniNumeric
/-
C66: the numeric values of code points.
-/
set_option maxRecDepth 100000
namespace Ctre
open Unicode14 Ucd

/-- C66: `uni::cp_numeric_value` never reads outside of its tables, whatever the value of its argument; its result is valid exactly
for the code points that have a numeric value in Unicode 14.0, and is this value. -/
theorem C66_value (c : Nat) : ∃ v, cpNumericValue c = some v ∧ (v.isValid = true ↔ ∃ n d, HasValue c n d) ∧
    ∀ n d, HasValue c n d → 0 < d ∧ 0 < v.denominator ∧ v.numerator * (d : Int) = n * v.denominator := by
  rcases cpNumericValue_eq c with ⟨n, d, h1, h2⟩ | ⟨h1, h2⟩
  · have h0 : 0 < d := by simpa using List.all_eq_true.1 nonzero _ h1
    obtain ⟨n', d', h3, _⟩ := sameFractions_left same h1
    refine ⟨_, h2, ⟨fun _ => ⟨n', d', mem_specFractions.1 h3⟩, fun _ => ?_⟩, fun n'' d'' h => ?_⟩
    · simp only [NumericValue.isValid, bne_iff_ne, ne_eq]; omega
    · obtain ⟨n1, d1, h4, h5, h6⟩ := sameFractions_right same (mem_specFractions.2 h)
      rw [cpNumericValue_mem h4] at h2
      simp only [Option.some.injEq, NumericValue.mk.injEq] at h2
      rw [h2.1, h2.2] at h6
      exact ⟨h5, h0, h6⟩
  · have hno : ∀ n d, ¬ HasValue c n d := fun n d h => by
      obtain ⟨n1, d1, h4, _⟩ := sameFractions_right same (mem_specFractions.2 h)
      exact h1 _ _ h4
    refine ⟨_, h2, ⟨fun h => by simp [NumericValue.isValid] at h, ?_⟩, fun n d h => absurd h (hno n d)⟩
    rintro ⟨n, d, h⟩
    exact absurd h (hno n d)

/-- C66: a code point has one numeric value only, so the result is determined. -/
theorem C66_value_unique {c : Nat} {n n' : Int} {d d' : Nat} (h : HasValue c n d) (h' : HasValue c n' d') :
    n * (d' : Int) = n' * (d : Int) := by
  obtain ⟨v, _, _, hv⟩ := C66_value c
  obtain ⟨h1, h2, h3⟩ := hv n d h
  obtain ⟨h4, _, h5⟩ := hv n' d' h'
  have h6 : v.denominator * (n * (d' : Int)) = v.denominator * (n' * (d : Int)) := by
    calc v.denominator * (n * (d' : Int)) = (n * v.denominator) * (d' : Int) := by rw [← Int.mul_assoc, Int.mul_comm v.denominator n]
      _ = (v.numerator * (d : Int)) * (d' : Int) := by rw [h3]
      _ = (v.numerator * (d' : Int)) * (d : Int) := by rw [Int.mul_assoc, Int.mul_comm (d : Int), ← Int.mul_assoc]
      _ = (n' * v.denominator) * (d : Int) := by rw [h5]
      _ = v.denominator * (n' * (d : Int)) := by rw [← Int.mul_assoc, Int.mul_comm v.denominator n']
  exact Int.eq_of_mul_eq_mul_left (by omega) h6

/-- C66: the decimal digits (the code points matched by `\p{Nd}`) come in tens: the value of each is an integer `k` from 0 to 9, and it
is number `k` of ten consecutive decimal digits with the values 0 to 9. -/
theorem C66_digits {c : Nat} (h : inRanges gcNd c) : ∃ k, k ≤ 9 ∧ k ≤ c ∧ cpNumericValue c = some ⟨(k : Int), 1⟩ ∧
    ∀ j, j ≤ 9 → inRanges gcNd (c - k + j) ∧ cpNumericValue (c - k + j) = some ⟨(j : Int), 1⟩ := by
  obtain ⟨r, hr, h1, h2⟩ := h
  have ht : (r.2 + 1 - r.1) % 10 = 0 := by simpa using List.all_eq_true.1 digits_tens _ hr
  have key : ∀ i, i < r.2 + 1 - r.1 → cpNumericValue (r.1 + i) = some ⟨((i % 10 : Nat) : Int), 1⟩ := by
    intro i hi
    apply cpNumericValue_mem
    apply isSub_mem digits_sub
    simp only [digitFractions, List.mem_flatMap, List.mem_map, List.mem_range]
    exact ⟨r, hr, i, hi, rfl⟩
  refine ⟨(c - r.1) % 10, by omega, by omega, ?_, fun j hj => ⟨⟨r, hr, by omega, by omega⟩, ?_⟩⟩
  · have := key (c - r.1) (by omega)
    rw [show r.1 + (c - r.1) = c by omega] at this
    exact this
  · have := key (c - (c - r.1) % 10 + j - r.1) (by omega)
    rw [show r.1 + (c - (c - r.1) % 10 + j - r.1) = c - (c - r.1) % 10 + j by omega,
      show (c - (c - r.1) % 10 + j - r.1) % 10 = j by omega] at this
    exact this

/-- C66: every code point matched by `\p{N}` has a numeric value. -/
theorem C66_numbers {c : Nat} (h : inRanges (gcNd ++ gcNl ++ gcNo) c) : ∃ v, cpNumericValue c = some v ∧ v.isValid = true := by
  have hm : c ∈ fractions.map (·.1) := by
    obtain ⟨r, hr, h1⟩ := h
    rcases List.mem_append.1 hr with hr | hr
    · rcases List.mem_append.1 hr with hr | hr
      · exact isSub_mem numbers_sub_nd _ (mem_points.2 ⟨r, hr, h1⟩)
      · exact isSub_mem numbers_sub_nl _ (mem_points.2 ⟨r, hr, h1⟩)
    · exact isSub_mem numbers_sub_no _ (mem_points.2 ⟨r, hr, h1⟩)
  obtain ⟨⟨c', n, d⟩, h1, rfl⟩ := List.mem_map.1 hm
  have h0 : 0 < d := by simpa using List.all_eq_true.1 nonzero _ h1
  exact ⟨_, cpNumericValue_mem h1, by simp only [NumericValue.isValid, bne_iff_ne, ne_eq]; omega⟩

/-! ### Cases -/

-- three quarters; two twelfths, which is one sixth; a million millions; none
example : [0xBE, 0x109F7, 0x5146, 0x41].map cpNumericValue =
    [some ⟨3, 4⟩, some ⟨2, 12⟩, some ⟨1000000000000, 1⟩, some {}] := by decide +kernel
example : HasValue 0x109F7 1 6 := ⟨⟨0x109F7, 1, 1, 0, 6⟩, by simp [numericRuns], by decide⟩
-- the Bengali digit four
example : inRanges gcNd 0x9EA ∧ cpNumericValue 0x9EA = some ⟨4, 1⟩ :=
  ⟨⟨(0x9E6, 0x9EF), by simp [gcNd], by decide⟩, by decide +kernel⟩

end Ctre
