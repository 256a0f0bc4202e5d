import Verif.Spec.Classes
import Verif.Lemmas.Classes

/-
C20: the character classes denote the documented sets.
-/
set_option linter.unusedVariables false
set_option linter.unusedSimpArgs false

namespace Ctre
open Parse

/-- C20: `\d`. -/
theorem C20_digit : Accepts "\\d" anyFlags isDigit :=
  accepts_set _ (fun _ => rfl) fun _ _ _ hv _ => digitChars_iff

/-- C20: `\D` is the complement of `\d`. -/
theorem C20_non_digit : Accepts "\\D" anyFlags (fun v => ¬ isDigit v) :=
  accepts_neg _ (fun _ => rfl) fun _ _ _ hv _ => digitChars_iff

/-- C20: `\w`. -/
theorem C20_word : Accepts "\\w" anyFlags isWord :=
  accepts_set _ (fun _ => rfl) fun _ _ _ hv _ => wordChars_iff'

/-- C20: `\W` is the complement of `\w`. -/
theorem C20_non_word : Accepts "\\W" anyFlags (fun v => ¬ isWord v) :=
  accepts_neg _ (fun _ => rfl) fun _ _ _ hv _ => wordChars_iff'

/-- C20: `\s`. -/
theorem C20_space : Accepts "\\s" anyFlags isSpace :=
  accepts_set _ (fun _ => rfl) fun _ _ _ hv _ => spaceChars_iff hv

/-- C20: `\S` is the complement of `\s`. -/
theorem C20_non_space : Accepts "\\S" anyFlags (fun v => ¬ isSpace v) :=
  accepts_neg _ (fun _ => rfl) fun _ _ _ hv _ => spaceChars_iff hv

/-- C20: `\h`. -/
theorem C20_horizontal_space : Accepts "\\h" anyFlags isHorizontalSpace :=
  accepts_set _ (fun _ => rfl) fun _ _ _ hv _ => horizontalSpaceChars_iff hv

/-- C20: `\H` is the complement of `\h`. -/
theorem C20_non_horizontal_space : Accepts "\\H" anyFlags (fun v => ¬ isHorizontalSpace v) :=
  accepts_neg _ (fun _ => rfl) fun _ _ _ hv _ => horizontalSpaceChars_iff hv

/-- C20: `\v`. -/
theorem C20_vertical_space : Accepts "\\v" anyFlags isVerticalSpace :=
  accepts_set _ (fun _ => rfl) fun _ _ _ hv _ => verticalSpaceChars_iff hv

/-- C20: `\V` is the complement of `\v`. -/
theorem C20_non_vertical_space : Accepts "\\V" anyFlags (fun v => ¬ isVerticalSpace v) :=
  accepts_neg _ (fun _ => rfl) fun _ _ _ hv _ => verticalSpaceChars_iff hv

/-- C20: `[[:alnum:]]`. -/
theorem C20_posix_alnum : Accepts "[[:alnum:]]" anyFlags (fun v => isLetter v ∨ isDigit v) :=
  accepts_set _ (fun _ => rfl) fun _ _ _ hv _ => alphanumChars_iff

/-- C20: `[[:^alnum:]]` is the complement of `[[:alnum:]]`. -/
theorem C20_posix_not_alnum : Accepts "[[:^alnum:]]" anyFlags (fun v => ¬ (fun v => isLetter v ∨ isDigit v) v) :=
  accepts_negate _ (fun _ => rfl) fun _ _ _ hv _ => alphanumChars_iff

/-- C20: `[^[:alnum:]]` is the complement of `[[:alnum:]]`. -/
theorem C20_not_posix_alnum : Accepts "[^[:alnum:]]" anyFlags (fun v => ¬ (fun v => isLetter v ∨ isDigit v) v) :=
  accepts_neg _ (fun _ => rfl) fun _ _ _ hv _ => alphanumChars_iff

/-- C20: `[[:alpha:]]`. -/
theorem C20_posix_alpha : Accepts "[[:alpha:]]" anyFlags isLetter :=
  accepts_set _ (fun _ => rfl) fun _ _ _ hv _ => alphaChars_iff

/-- C20: `[[:^alpha:]]` is the complement of `[[:alpha:]]`. -/
theorem C20_posix_not_alpha : Accepts "[[:^alpha:]]" anyFlags (fun v => ¬ isLetter v) :=
  accepts_negate _ (fun _ => rfl) fun _ _ _ hv _ => alphaChars_iff

/-- C20: `[^[:alpha:]]` is the complement of `[[:alpha:]]`. -/
theorem C20_not_posix_alpha : Accepts "[^[:alpha:]]" anyFlags (fun v => ¬ isLetter v) :=
  accepts_neg _ (fun _ => rfl) fun _ _ _ hv _ => alphaChars_iff

/-- C20: `[[:digit:]]`. -/
theorem C20_posix_digit : Accepts "[[:digit:]]" anyFlags isDigit :=
  accepts_set _ (fun _ => rfl) fun _ _ _ hv _ => digitChars_iff

/-- C20: `[[:^digit:]]` is the complement of `[[:digit:]]`. -/
theorem C20_posix_not_digit : Accepts "[[:^digit:]]" anyFlags (fun v => ¬ isDigit v) :=
  accepts_negate _ (fun _ => rfl) fun _ _ _ hv _ => digitChars_iff

/-- C20: `[^[:digit:]]` is the complement of `[[:digit:]]`. -/
theorem C20_not_posix_digit : Accepts "[^[:digit:]]" anyFlags (fun v => ¬ isDigit v) :=
  accepts_neg _ (fun _ => rfl) fun _ _ _ hv _ => digitChars_iff

/-- C20: `[[:punct:]]`. -/
theorem C20_posix_punct : Accepts "[[:punct:]]" anyFlags isPunct :=
  accepts_set _ (fun _ => rfl) fun _ _ _ hv _ => punctChars_iff hv

/-- C20: `[[:^punct:]]` is the complement of `[[:punct:]]`. -/
theorem C20_posix_not_punct : Accepts "[[:^punct:]]" anyFlags (fun v => ¬ isPunct v) :=
  accepts_negate _ (fun _ => rfl) fun _ _ _ hv _ => punctChars_iff hv

/-- C20: `[^[:punct:]]` is the complement of `[[:punct:]]`. -/
theorem C20_not_posix_punct : Accepts "[^[:punct:]]" anyFlags (fun v => ¬ isPunct v) :=
  accepts_neg _ (fun _ => rfl) fun _ _ _ hv _ => punctChars_iff hv

/-- C20: `[[:space:]]`. -/
theorem C20_posix_space : Accepts "[[:space:]]" anyFlags isSpace :=
  accepts_set _ (fun _ => rfl) fun _ _ _ hv _ => spaceChars_iff hv

/-- C20: `[[:^space:]]` is the complement of `[[:space:]]`. -/
theorem C20_posix_not_space : Accepts "[[:^space:]]" anyFlags (fun v => ¬ isSpace v) :=
  accepts_negate _ (fun _ => rfl) fun _ _ _ hv _ => spaceChars_iff hv

/-- C20: `[^[:space:]]` is the complement of `[[:space:]]`. -/
theorem C20_not_posix_space : Accepts "[^[:space:]]" anyFlags (fun v => ¬ isSpace v) :=
  accepts_neg _ (fun _ => rfl) fun _ _ _ hv _ => spaceChars_iff hv

/-- C20: `[[:word:]]`. -/
theorem C20_posix_word : Accepts "[[:word:]]" anyFlags isWord :=
  accepts_set _ (fun _ => rfl) fun _ _ _ hv _ => wordChars_iff'

/-- C20: `[[:^word:]]` is the complement of `[[:word:]]`. -/
theorem C20_posix_not_word : Accepts "[[:^word:]]" anyFlags (fun v => ¬ isWord v) :=
  accepts_negate _ (fun _ => rfl) fun _ _ _ hv _ => wordChars_iff'

/-- C20: `[^[:word:]]` is the complement of `[[:word:]]`. -/
theorem C20_not_posix_word : Accepts "[^[:word:]]" anyFlags (fun v => ¬ isWord v) :=
  accepts_neg _ (fun _ => rfl) fun _ _ _ hv _ => wordChars_iff'

/-- C20: `[[:xdigit:]]`. -/
theorem C20_posix_xdigit : Accepts "[[:xdigit:]]" anyFlags isHexDigit :=
  accepts_set _ (fun _ => rfl) fun _ _ _ hv _ => xdigitChars_iff

/-- C20: `[[:^xdigit:]]` is the complement of `[[:xdigit:]]`. -/
theorem C20_posix_not_xdigit : Accepts "[[:^xdigit:]]" anyFlags (fun v => ¬ isHexDigit v) :=
  accepts_negate _ (fun _ => rfl) fun _ _ _ hv _ => xdigitChars_iff

/-- C20: `[^[:xdigit:]]` is the complement of `[[:xdigit:]]`. -/
theorem C20_not_posix_xdigit : Accepts "[^[:xdigit:]]" anyFlags (fun v => ¬ isHexDigit v) :=
  accepts_neg _ (fun _ => rfl) fun _ _ _ hv _ => xdigitChars_iff

/-- C20: `[[:ascii:]]`. -/
theorem C20_posix_ascii : Accepts "[[:ascii:]]" anyFlags (fun v => 0 ≤ v ∧ v ≤ 127) :=
  accepts_set _ (fun _ => rfl) fun _ _ _ hv _ => matchRange_plain (by decide) (by decide) (by decide)

/-- C20: `[[:^ascii:]]` is the complement of `[[:ascii:]]`. -/
theorem C20_posix_not_ascii : Accepts "[[:^ascii:]]" anyFlags (fun v => ¬ (fun v => 0 ≤ v ∧ v ≤ 127) v) :=
  accepts_negate _ (fun _ => rfl) fun _ _ _ hv _ => matchRange_plain (by decide) (by decide) (by decide)

/-- C20: `[^[:ascii:]]` is the complement of `[[:ascii:]]`. -/
theorem C20_not_posix_ascii : Accepts "[^[:ascii:]]" anyFlags (fun v => ¬ (fun v => 0 ≤ v ∧ v ≤ 127) v) :=
  accepts_neg _ (fun _ => rfl) fun _ _ _ hv _ => matchRange_plain (by decide) (by decide) (by decide)

/-- C20: `[[:graph:]]`. -/
theorem C20_posix_graph : Accepts "[[:graph:]]" anyFlags isGraph :=
  accepts_set _ (fun _ => rfl) fun _ _ _ hv _ => matchRange_plain (by decide) (by decide) (by decide)

/-- C20: `[[:^graph:]]` is the complement of `[[:graph:]]`. -/
theorem C20_posix_not_graph : Accepts "[[:^graph:]]" anyFlags (fun v => ¬ isGraph v) :=
  accepts_negate _ (fun _ => rfl) fun _ _ _ hv _ => matchRange_plain (by decide) (by decide) (by decide)

/-- C20: `[^[:graph:]]` is the complement of `[[:graph:]]`. -/
theorem C20_not_posix_graph : Accepts "[^[:graph:]]" anyFlags (fun v => ¬ isGraph v) :=
  accepts_neg _ (fun _ => rfl) fun _ _ _ hv _ => matchRange_plain (by decide) (by decide) (by decide)

/-- C20: `[[:print:]]`. -/
theorem C20_posix_print : Accepts "[[:print:]]" anyFlags (fun v => 32 ≤ v ∧ v ≤ 126) :=
  accepts_set _ (fun _ => rfl) fun _ _ _ hv _ => matchRange_plain (by decide) (by decide) (by decide)

/-- C20: `[[:^print:]]` is the complement of `[[:print:]]`. -/
theorem C20_posix_not_print : Accepts "[[:^print:]]" anyFlags (fun v => ¬ (fun v => 32 ≤ v ∧ v ≤ 126) v) :=
  accepts_negate _ (fun _ => rfl) fun _ _ _ hv _ => matchRange_plain (by decide) (by decide) (by decide)

/-- C20: `[^[:print:]]` is the complement of `[[:print:]]`. -/
theorem C20_not_posix_print : Accepts "[^[:print:]]" anyFlags (fun v => ¬ (fun v => 32 ≤ v ∧ v ≤ 126) v) :=
  accepts_neg _ (fun _ => rfl) fun _ _ _ hv _ => matchRange_plain (by decide) (by decide) (by decide)

/-- C20: `[[:blank:]]`. -/
theorem C20_posix_blank : Accepts "[[:blank:]]" anyFlags (fun v => v = 32 ∨ v = 9) :=
  accepts_set _ (fun _ => rfl) fun _ _ _ hv _ => by rw [enum_iff hv (by decide)]; simp

/-- C20: `[[:^blank:]]` is the complement of `[[:blank:]]`. -/
theorem C20_posix_not_blank : Accepts "[[:^blank:]]" anyFlags (fun v => ¬ (fun v => v = 32 ∨ v = 9) v) :=
  accepts_negate _ (fun _ => rfl) fun _ _ _ hv _ => by rw [enum_iff hv (by decide)]; simp

/-- C20: `[^[:blank:]]` is the complement of `[[:blank:]]`. -/
theorem C20_not_posix_blank : Accepts "[^[:blank:]]" anyFlags (fun v => ¬ (fun v => v = 32 ∨ v = 9) v) :=
  accepts_neg _ (fun _ => rfl) fun _ _ _ hv _ => by rw [enum_iff hv (by decide)]; simp

/-- C20: `[[:cntrl:]]`. -/
theorem C20_posix_cntrl : Accepts "[[:cntrl:]]" anyFlags (fun v => (0 ≤ v ∧ v ≤ 31) ∨ v = 127) :=
  accepts_set _ (fun _ => rfl) fun _ _ _ hv _ => by
    simp only [CC.matchChar, CC.matchAny, Bool.or_false, Bool.or_eq_true]
    rw [matchRange_plain (by decide) (by decide) (by decide), matchCharacter_plain hv (by decide) (by decide)]; rfl

/-- C20: `[[:^cntrl:]]` is the complement of `[[:cntrl:]]`. -/
theorem C20_posix_not_cntrl : Accepts "[[:^cntrl:]]" anyFlags (fun v => ¬ (fun v => (0 ≤ v ∧ v ≤ 31) ∨ v = 127) v) :=
  accepts_negate _ (fun _ => rfl) fun _ _ _ hv _ => by
    simp only [CC.matchChar, CC.matchAny, Bool.or_false, Bool.or_eq_true]
    rw [matchRange_plain (by decide) (by decide) (by decide), matchCharacter_plain hv (by decide) (by decide)]; rfl

/-- C20: `[^[:cntrl:]]` is the complement of `[[:cntrl:]]`. -/
theorem C20_not_posix_cntrl : Accepts "[^[:cntrl:]]" anyFlags (fun v => ¬ (fun v => (0 ≤ v ∧ v ≤ 31) ∨ v = 127) v) :=
  accepts_neg _ (fun _ => rfl) fun _ _ _ hv _ => by
    simp only [CC.matchChar, CC.matchAny, Bool.or_false, Bool.or_eq_true]
    rw [matchRange_plain (by decide) (by decide) (by decide), matchCharacter_plain hv (by decide) (by decide)]; rfl

/-- C20: `[[:lower:]]`, case-sensitive. -/
theorem C20_posix_lower : Accepts "[[:lower:]]" caseSensitive isLowerLetter :=
  accepts_set _ (fun _ => rfl) fun U f v hv hf => by
    rw [show f.ci = false from hf]; exact matchRange_false (by decide) (by decide)

/-- C20: `[[:lower:]]`, case-insensitive: any letter. -/
theorem C20_posix_lower_caseless : Accepts "[[:lower:]]" caseInsensitive isLetter :=
  accepts_set _ (fun _ => rfl) fun U f v hv hf => by
    rw [show f.ci = true from hf]
    simp only [CC.matchChar, matchRange, isLower, isUpper, isLetter, isLowerLetter, isUpperLetter,
      show Nat.xor 65 0x20 = 97 from rfl, show Nat.xor 90 0x20 = 122 from rfl,
      show Nat.xor 97 0x20 = 65 from rfl, show Nat.xor 122 0x20 = 90 from rfl, Bool.or_eq_true, Bool.and_eq_true]
    simp (decide := true) [geConst_small, leConst_small] <;> omega

/-- C20: `[[:upper:]]`, case-sensitive. -/
theorem C20_posix_upper : Accepts "[[:upper:]]" caseSensitive isUpperLetter :=
  accepts_set _ (fun _ => rfl) fun U f v hv hf => by
    rw [show f.ci = false from hf]; exact matchRange_false (by decide) (by decide)

/-- C20: `[[:upper:]]`, case-insensitive: any letter. -/
theorem C20_posix_upper_caseless : Accepts "[[:upper:]]" caseInsensitive isLetter :=
  accepts_set _ (fun _ => rfl) fun U f v hv hf => by
    rw [show f.ci = true from hf]
    simp only [CC.matchChar, matchRange, isLower, isUpper, isLetter, isLowerLetter, isUpperLetter,
      show Nat.xor 65 0x20 = 97 from rfl, show Nat.xor 90 0x20 = 122 from rfl,
      show Nat.xor 97 0x20 = 65 from rfl, show Nat.xor 122 0x20 = 90 from rfl, Bool.or_eq_true, Bool.and_eq_true]
    simp (decide := true) [geConst_small, leConst_small] <;> omega

/-- C20: `\N`, any character but a newline. -/
theorem C20_not_newline : Accepts "\\N" anyFlags (fun v => v ≠ 10) :=
  accepts_neg _ (fun _ => rfl) fun _ _ _ hv _ => matchCharacter_plain hv (by decide) (by decide)

/-! ### Bracket expressions -/

/-- C20: a set matches exactly what one of its members matches. -/
theorem C20_set_union {U : Uni} {ci : Bool} {v : Ch} {l : List CC} :
    (CC.set l).matchChar U ci v = true ↔ ∃ x ∈ l, x.matchChar U ci v = true := by
  simp only [CC.matchChar]
  induction l with
  | nil => simp [CC.matchAny]
  | cons x l ih => simp [CC.matchAny, ih]

/-- C20: a negated set matches exactly what none of its members matches. -/
theorem C20_negated_set {U : Uni} {ci : Bool} {v : Ch} {l : List CC} :
    (CC.negSet l).matchChar U ci v = true ↔ ∀ x ∈ l, ¬ x.matchChar U ci v = true := by
  have h := C20_set_union (U := U) (ci := ci) (v := v) (l := l)
  simp only [CC.matchChar, Bool.not_eq_true'] at h ⊢
  rw [← Bool.not_eq_true, h]
  simp

/-- C20: a range `a-b` of ASCII characters matches exactly the characters from `a` to `b`. -/
theorem C20_range_ascii {U : Uni} {v : Int} {a b : Nat} (ha : a ≤ 127) (hb : b ≤ 127) :
    (CC.range a b).matchChar U false v = true ↔ (a : Int) ≤ v ∧ v ≤ (b : Int) :=
  matchRange_false ha hb

/-- C20: a range `a-b` matches exactly the code points from `a` to `b`, for non-negative characters. -/
theorem C20_range {U : Uni} {v : Int} {a b : Nat} (hv : IsCh v) (h0 : 0 ≤ v) (ha : a < 2147483648)
    (hb : b < 2147483648) : (CC.range a b).matchChar U false v = true ↔ (a : Int) ≤ v ∧ v ≤ (b : Int) := by
  obtain ⟨_, h2⟩ := hv
  have h2 : v < (4294967296 : Int) := h2
  simp only [CC.matchChar, matchRange, Bool.and_false, Bool.false_and, Bool.false_or, Bool.and_eq_true,
    geConst_nonneg h0 h2, leConst_nonneg h0 h2]

/-- C20: a single character matches exactly itself in case-sensitive mode. -/
theorem C20_character {U : Uni} {v : Int} {c : Nat} (hv : IsCh v) (hc : c < 2147483648) :
    (CC.chr c).matchChar U false v = true ↔ v = (c : Int) := by
  simp [CC.matchChar, matchCharacter, eqConst_iff hv hc]

/-- C20: with case_insensitive a letter matches itself and its counterpart of the other case. -/
theorem C20_letter_caseless {U : Uni} {v : Int} {c : Nat} (hc : isAlpha c = true) :
    (CC.chr c).matchChar U true v = true ↔ v = (c : Int) ∨ v = (Nat.xor c 32 : Nat) := by
  have h : c ≤ 127 ∧ Nat.xor c 32 ≤ 127 := by
    simp only [isAlpha, isLower, isUpper, Bool.or_eq_true, Bool.and_eq_true, decide_eq_true_eq] at hc
    have : c < 123 := by omega
    have key : ∀ c, c < 123 → c ≤ 127 ∧ Nat.xor c 32 ≤ 127 := by decide
    exact key c this
  simp only [CC.matchChar, matchCharacter, hc, Bool.true_and, Bool.or_eq_true, eqConst_small h.1, eqConst_small h.2]
  omega

/-! ### Cases -/

-- `[a-z\d_]` on "7"
example : cMatch {} 9 [55] {} (.cc (.set [.range 97 122, .set [digitChars], .chr 95])) =
    .done { whole := ⟨some 0, some 1, true⟩ } := by decide +kernel
-- a signed `char` 0xA0 does not match `\h`, the code point does
example : cMatch {} 9 [-96] {} (.cc (.set [horizontalSpaceChars])) = .done {} := by decide +kernel
example : cMatch {} 9 [160] {} (.cc (.set [horizontalSpaceChars])) =
    .done { whole := ⟨some 0, some 1, true⟩ } := by decide +kernel

end Ctre
