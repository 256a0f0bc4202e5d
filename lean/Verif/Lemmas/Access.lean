import Verif.Model.Access
import Verif.Spec.Numeral
import Verif.Spec.Cuts
import Verif.Lemmas.Iterate
/-
Access to captures: sizes, copies, numbers.
-/
namespace Ctre

theorem distance_some {b e : Nat} (h : b ≤ e) (hl : e < 18446744073709551616) : distance (some b) (some e) = some (e - b) := by
  simp only [distance, Option.some.injEq]
  omega

theorem copyFrom_eq {s : List Ch} {e : Nat} (he : e ≤ s.length) : ∀ (n b : Nat), b ≤ e → e - b ≤ n →
    copyFrom s e n b = some (slice s (b, e)) := by
  intro n
  induction n with
  | zero =>
    intro b h1 h2
    have : b = e := by omega
    subst this
    unfold copyFrom
    simp [slice]
  | succ n ih =>
    intro b h1 h2
    unfold copyFrom
    by_cases hb : b = e
    · subst hb; simp [slice]
    · rw [if_neg hb]
      have hlt : b < s.length := by omega
      rw [List.getElem?_eq_getElem hlt]
      simp only
      rw [ih (b + 1) (by omega) (by omega)]
      simp only [Option.map_some, slice, Option.some.injEq]
      rw [List.drop_eq_getElem_cons hlt, show e - b = (e - (b + 1)) + 1 by omega, List.take_succ_cons]

/-! ### Numbers -/

theorem digitOf_iff {base : Nat} {v : Ch} {d : Nat} (hb : base ≤ 36) : digitOf base v = some d ↔ d < base ∧ DigitChar d v := by
  have key : ∀ v : Int, digitOf base v = some d ↔ d < base ∧ DigitChar d v := by
    intro v
    unfold digitOf DigitChar
    dsimp only
    by_cases h1 : 48 ≤ v ∧ v ≤ 57
    · rw [if_pos h1]
      obtain ⟨k, rfl⟩ : ∃ k : Nat, v = 48 + k := ⟨(v - 48).toNat, by omega⟩
      have : (48 + (k : Int) - 48).toNat = k := by omega
      dsimp only
      rw [this]
      split <;> simp only [Option.some.injEq, reduceCtorEq, false_iff] <;> omega
    · rw [if_neg h1]
      by_cases h2 : 97 ≤ v ∧ v ≤ 122
      · rw [if_pos h2]
        obtain ⟨k, rfl⟩ : ∃ k : Nat, v = 87 + k := ⟨(v - 87).toNat, by omega⟩
        have : (87 + (k : Int) - 87).toNat = k := by omega
        dsimp only
        rw [this]
        split <;> simp only [Option.some.injEq, reduceCtorEq, false_iff] <;> omega
      · rw [if_neg h2]
        by_cases h3 : 65 ≤ v ∧ v ≤ 90
        · rw [if_pos h3]
          obtain ⟨k, rfl⟩ : ∃ k : Nat, v = 55 + k := ⟨(v - 55).toNat, by omega⟩
          have : (55 + (k : Int) - 55).toNat = k := by omega
          dsimp only
          rw [this]
          split <;> simp only [Option.some.injEq, reduceCtorEq, false_iff] <;> omega
        · rw [if_neg h3]
          dsimp only
          simp only [reduceCtorEq, false_iff]
          omega
  exact key v

/-- Digits in front of a text. -/
theorem digitsFrom_eq {base : Nat} (hb : base ≤ 36) {ds : List Nat} {dt rest : List Ch} (hs : ∀ d ∈ ds, d < base)
    (h : List.Forall₂ DigitChar ds dt) (hr : ∀ v l, rest = v :: l → ∀ d, d < base → ¬ DigitChar d v) :
    ∀ acc, digitsFrom base acc (dt ++ rest) = acc * base ^ ds.length + Nat.ofDigits base ds.reverse := by
  induction h with
  | nil =>
    intro acc
    cases rest with
    | nil => simp [digitsFrom]
    | cons v l =>
      have : digitOf base v = none := by
        cases hd : digitOf base v with
        | none => rfl
        | some d => rw [digitOf_iff hb] at hd; exact (hr v l rfl d hd.1 hd.2).elim
      simp [digitsFrom, this]
  | @cons d v ds dt h1 h2 ih =>
    intro acc
    have hd : digitOf base v = some d := (digitOf_iff hb).2 ⟨hs d (by simp), h1⟩
    simp only [List.cons_append, digitsFrom, hd]
    rw [ih (fun d hd => hs d (by simp [hd]))]
    simp only [List.length_cons, List.reverse_cons, Nat.ofDigits_append, List.length_reverse, Nat.ofDigits_singleton]
    ring

/-- Every text splits into its leading digits and the rest. -/
theorem leading_digits (base : Nat) : ∀ w : List Ch, ∃ ds dt rest, w = dt ++ rest ∧ (∀ d ∈ ds, d < base) ∧
    List.Forall₂ DigitChar ds dt ∧ ∀ v l, rest = v :: l → ∀ d, d < base → ¬ DigitChar d v := by
  intro w
  induction w with
  | nil => exact ⟨[], [], [], rfl, by simp, .nil, by simp⟩
  | cons v w ih =>
    by_cases h : ∃ d, d < base ∧ DigitChar d v
    · obtain ⟨d, hd, hv⟩ := h
      obtain ⟨ds, dt, rest, h1, h2, h3, h4⟩ := ih
      refine ⟨d :: ds, v :: dt, rest, by rw [h1]; rfl, ?_, .cons hv h3, h4⟩
      intro x hx
      rcases List.mem_cons.1 hx with rfl | hx
      · exact hd
      · exact h2 x hx
    · refine ⟨[], [], v :: w, rfl, by simp, .nil, ?_⟩
      intro v' l he d hd hv
      cases he
      exact h ⟨d, hd, hv⟩

theorem not_digit_minus (d : Nat) : ¬ DigitChar d 45 := by
  rintro (⟨h1, h2⟩ | ⟨h1, h2, h3 | h3⟩)
  · have : (45 : Int) = 48 + (d : Int) := h2
    omega
  · have : (45 : Int) = 87 + (d : Int) := h3
    omega
  · have : (45 : Int) = 55 + (d : Int) := h3
    omega

/-- A number in front of a text is stored if it is a value of the type. -/
theorem fromChars_numeral {lo hi : Int} {base : Nat} (hb : base ≤ 36) {w : List Ch} {neg : Bool} {ds : List Nat}
    (h : Numeral (decide (lo < 0)) base w neg ds) :
    fromChars lo hi base w = if lo ≤ numeralValue base neg ds ∧ numeralValue base neg ds ≤ hi then some (numeralValue base neg ds) else none := by
  obtain ⟨h1, h2, h3, dt, rest, h4, h5, h6⟩ := h
  have hv := digitsFrom_eq hb h3 h5 h6 0
  rw [Nat.zero_mul, Nat.zero_add] at hv
  obtain ⟨x, l, hx⟩ : ∃ x l, dt = x :: l := by
    cases h5 with
    | nil => exact (h2 rfl).elim
    | cons _ _ => exact ⟨_, _, rfl⟩
  obtain ⟨d, hd1, hd2⟩ : ∃ d, d < base ∧ DigitChar d x := by
    rw [hx] at h5
    cases h5 with
    | cons a b => exact ⟨_, h3 _ (by simp), a⟩
  have hdx : digitOf base x = some d := (digitOf_iff hb).2 ⟨hd1, hd2⟩
  cases neg with
  | true =>
    have hlo : lo < 0 := by simpa using h1 rfl
    simp only [if_true, List.cons_append, List.nil_append] at h4
    subst h4
    simp only [fromChars, hlo, decide_true, List.head?_cons, Bool.and_self, if_true, List.tail_cons]
    rw [hx, List.cons_append] at hv ⊢
    simp only [hdx, Option.isSome_some, if_true, hv, numeralValue]
  | false =>
    simp only [Bool.false_eq_true, if_false, List.nil_append] at h4
    subst h4
    have hx45 : x ≠ 45 := by rintro rfl; exact not_digit_minus d hd2
    rw [hx, List.cons_append] at hv ⊢
    have hn : (decide (lo < 0) && decide ((x :: (l ++ rest)).head? = some 45)) = false := by simp [hx45]
    simp only [fromChars, hn, Bool.false_eq_true, if_false, hdx, Option.isSome_some, if_true, hv, numeralValue]

/-- Without a number nothing is stored. -/
theorem fromChars_none {lo hi : Int} {base : Nat} (hb : base ≤ 36) {w : List Ch}
    (h : ∀ neg ds, ¬ Numeral (decide (lo < 0)) base w neg ds) : fromChars lo hi base w = none := by
  unfold fromChars
  generalize hn : (decide (lo < 0) && decide (w.head? = some 45)) = neg
  dsimp only
  split
  · rfl
  · rename_i x l hx
    have hd : (digitOf base x).isSome = false := by
      cases hd : digitOf base x with
      | none => rfl
      | some d =>
        exfalso
        rw [digitOf_iff hb] at hd
        obtain ⟨ds, dt, rest, h1, h2, h3, h4⟩ := leading_digits base (x :: l)
        have hne : ds ≠ [] := by
          rintro rfl
          cases h3
          exact h4 x l h1.symm d hd.1 hd.2
        refine h neg ds ⟨?_, hne, h2, dt, rest, ?_, h3, h4⟩
        · rintro rfl
          rw [Bool.and_eq_true] at hn
          exact hn.1
        · rw [List.append_assoc, ← h1, ← hx]
          cases neg with
          | false => simp
          | true =>
            rw [Bool.and_eq_true, decide_eq_true_eq, decide_eq_true_eq] at hn
            cases w with
            | nil => simp at hn
            | cons y w => simp at hn; simp [hn.2]
    simp [hd]

end Ctre
