import Verif.Spec.Classes
import Verif.Lemmas.EvalEqs

/-
Character class constants as sets of numbers.
-/
set_option linter.unusedVariables false
set_option linter.unusedSimpArgs false

namespace Ctre
open Parse

theorem match_one {C : Cfg} {f : Flags} {cl : CC} {v : Ch} :
    ∃ x, Returns (fun n => cMatch C n [v] f (.cc cl)) (.done x) ∧
      (x.whole.matched = true ↔ cl.matchChar C.uni f.ci v = true) := by
  by_cases h : cl.matchChar C.uni f.ci v = true
  · refine ⟨{ whole := ⟨some 0, some 1, true⟩ }, ⟨by simp, 6, ?_⟩, by simp [h]⟩
    simp only [cMatch, matchAt, attemptFull]
    rw [eval_startMark, eval_cc]
    simp only [List.length_singleton, Nat.zero_ne_one, if_false, List.getElem?_cons_zero, h, if_true]
    rw [eval_test (h := rfl)]
    simp only [testAt, List.length_singleton, Nat.zero_add, if_true]
    rw [eval_endMark, eval_accept]
    simp [Out.toExec, initCaps, Re.captures, Caps.setMatched, Caps.setStart, Caps.setEnd]
  · refine ⟨{}, ⟨by simp, 6, ?_⟩, by simp [h]⟩
    simp only [cMatch, matchAt, attemptFull]
    rw [eval_startMark, eval_cc]
    simp [h, Out.toExec, initCaps, Re.captures]

theorem accepts_of {p : String} {F : Flags → Prop} {D : Int → Prop} (cl : CC)
    (hp : ∀ P, build P (codes p) = .pattern (.cc cl))
    (h : ∀ (U : Uni) (f : Flags) (v : Int), IsCh v → F f → (cl.matchChar U f.ci v = true ↔ D v)) :
    Accepts p F D := by
  intro P
  refine ⟨.cc cl, hp P, fun C f v hv hf => ?_⟩
  obtain ⟨x, h1, h2⟩ := match_one (C := C) (f := f) (cl := cl) (v := v)
  exact ⟨x, h1, h2.trans (h C.uni f v hv hf)⟩

theorem accepts_set {p : String} {F : Flags → Prop} {D : Int → Prop} (cl : CC)
    (hp : ∀ P, build P (codes p) = .pattern (.cc (.set [cl])))
    (h : ∀ (U : Uni) (f : Flags) (v : Int), IsCh v → F f → (cl.matchChar U f.ci v = true ↔ D v)) :
    Accepts p F D := by
  refine accepts_of _ hp fun U f v hv hf => ?_
  rw [← h U f v hv hf]
  simp [CC.matchChar, CC.matchAny]

theorem accepts_negate {p : String} {F : Flags → Prop} {D : Int → Prop} (cl : CC)
    (hp : ∀ P, build P (codes p) = .pattern (.cc (.set [.negate [cl]])))
    (h : ∀ (U : Uni) (f : Flags) (v : Int), IsCh v → F f → (cl.matchChar U f.ci v = true ↔ D v)) :
    Accepts p F (fun v => ¬ D v) := by
  refine accepts_of _ hp fun U f v hv hf => ?_
  rw [← h U f v hv hf]
  simp [CC.matchChar, CC.matchAny]

theorem accepts_neg {p : String} {F : Flags → Prop} {D : Int → Prop} (cl : CC)
    (hp : ∀ P, build P (codes p) = .pattern (.cc (.negSet [cl])))
    (h : ∀ (U : Uni) (f : Flags) (v : Int), IsCh v → F f → (cl.matchChar U f.ci v = true ↔ D v)) :
    Accepts p F (fun v => ¬ D v) := by
  refine accepts_of _ hp fun U f v hv hf => ?_
  rw [← h U f v hv hf]
  simp [CC.matchChar, CC.matchAny]

theorem matchRange_false {v : Int} {a b : Nat} (ha : a ≤ 127) (hb : b ≤ 127) :
    matchRange false v a b = true ↔ (a : Int) ≤ v ∧ v ≤ (b : Int) := by
  simp [matchRange, geConst_small ha, leConst_small hb]

theorem matchRange_plain {ci : Bool} {v : Int} {a b : Nat} (ha : a ≤ 127) (hb : b ≤ 127)
    (h : ((isLower a && isLower b) || (isUpper a && isUpper b)) = false) :
    matchRange ci v a b = true ↔ (a : Int) ≤ v ∧ v ≤ (b : Int) := by
  simp [matchRange, h, geConst_small ha, leConst_small hb]

theorem matchCharacter_plain {ci : Bool} {v : Int} {c : Nat} (hv : IsCh v) (hc : c < 2147483648)
    (h : isAlpha c = false) : matchCharacter ci v c = true ↔ v = (c : Int) := by
  simp [matchCharacter, h, eqConst_iff hv hc]

theorem digitChars_iff {U : Uni} {ci : Bool} {v : Int} :
    digitChars.matchChar U ci v = true ↔ isDigit v :=
  matchRange_plain (by decide) (by decide) (by decide)

theorem wordChars_iff' {U : Uni} {ci : Bool} {v : Int} : wordChars.matchChar U ci v = true ↔ isWord v := by
  rw [wordChars_iff]
  simp only [isWord, isLetter, isLowerLetter, isUpperLetter, isDigit]
  omega

theorem enum_iff {U : Uni} {ci : Bool} {v : Int} (hv : IsCh v) {cs : List Nat}
    (h : cs.all (fun c => !isAlpha c && decide (c < 2147483648)) = true) :
    (CC.enum cs).matchChar U ci v = true ↔ ∃ c ∈ cs, v = (c : Int) := by
  simp only [CC.matchChar, List.any_eq_true]
  rw [List.all_eq_true] at h
  constructor
  · rintro ⟨c, hc, h1⟩
    have := h c hc
    simp only [Bool.and_eq_true, Bool.not_eq_true', decide_eq_true_eq] at this
    exact ⟨c, hc, (matchCharacter_plain hv this.2 this.1).1 h1⟩
  · rintro ⟨c, hc, h1⟩
    have := h c hc
    simp only [Bool.and_eq_true, Bool.not_eq_true', decide_eq_true_eq] at this
    exact ⟨c, hc, (matchCharacter_plain hv this.2 this.1).2 h1⟩

theorem spaceChars_iff {U : Uni} {ci : Bool} {v : Int} (hv : IsCh v) :
    spaceChars.matchChar U ci v = true ↔ isSpace v := by
  rw [spaceChars, enum_iff hv (by decide)]
  simp only [List.mem_cons, List.not_mem_nil, or_false, exists_eq_or_imp, exists_eq_left, isSpace]
  omega

theorem verticalSpaceChars_iff {U : Uni} {ci : Bool} {v : Int} (hv : IsCh v) :
    verticalSpaceChars.matchChar U ci v = true ↔ isVerticalSpace v := by
  rw [verticalSpaceChars, enum_iff hv (by decide)]
  simp only [List.mem_cons, List.not_mem_nil, or_false, exists_eq_or_imp, exists_eq_left, isVerticalSpace]
  omega

theorem horizontalSpaceChars_iff {U : Uni} {ci : Bool} {v : Int} (hv : IsCh v) :
    horizontalSpaceChars.matchChar U ci v = true ↔ isHorizontalSpace v := by
  rw [horizontalSpaceChars, enum_iff hv (by decide)]
  simp only [List.mem_cons, List.not_mem_nil, or_false, exists_eq_or_imp, exists_eq_left, isHorizontalSpace]
  omega

theorem punctChars_iff {U : Uni} {ci : Bool} {v : Int} (hv : IsCh v) :
    punctChars.matchChar U ci v = true ↔ isPunct v := by
  rw [punctChars, enum_iff hv (by decide)]
  simp only [List.mem_cons, List.not_mem_nil, or_false, exists_eq_or_imp, exists_eq_left, isPunct, isGraph,
    isLetter, isDigit, isLowerLetter, isUpperLetter]
  omega

theorem alphaChars_iff {U : Uni} {ci : Bool} {v : Int} : alphaChars.matchChar U ci v = true ↔ isLetter v := by
  simp only [alphaChars, CC.matchChar, CC.matchAny, matchRange, isLower, isUpper, isLetter, isLowerLetter,
    isUpperLetter,
    show Nat.xor 65 0x20 = 97 from rfl, show Nat.xor 90 0x20 = 122 from rfl,
    show Nat.xor 97 0x20 = 65 from rfl, show Nat.xor 122 0x20 = 90 from rfl, Bool.or_eq_true, Bool.and_eq_true]
  cases ci <;> simp (decide := true) [geConst_small, leConst_small, eqConst_small] <;> omega

theorem alphanumChars_iff {U : Uni} {ci : Bool} {v : Int} :
    alphanumChars.matchChar U ci v = true ↔ (isLetter v ∨ isDigit v) := by
  simp only [alphanumChars, CC.matchChar, CC.matchAny, matchRange, isLower, isUpper, isLetter, isLowerLetter,
    isUpperLetter, isDigit,
    show Nat.xor 65 0x20 = 97 from rfl, show Nat.xor 90 0x20 = 122 from rfl,
    show Nat.xor 97 0x20 = 65 from rfl, show Nat.xor 122 0x20 = 90 from rfl, Bool.or_eq_true, Bool.and_eq_true]
  cases ci <;> simp (decide := true) [geConst_small, leConst_small, eqConst_small] <;> omega

theorem xdigitChars_iff {U : Uni} {ci : Bool} {v : Int} :
    xdigitChars.matchChar U ci v = true ↔ isHexDigit v := by
  simp only [xdigitChars, CC.matchChar, CC.matchAny, matchRange, isLower, isUpper, isHexDigit, isDigit,
    show Nat.xor 65 0x20 = 97 from rfl, show Nat.xor 70 0x20 = 102 from rfl,
    show Nat.xor 97 0x20 = 65 from rfl, show Nat.xor 102 0x20 = 70 from rfl, Bool.or_eq_true, Bool.and_eq_true]
  cases ci <;> simp (decide := true) [geConst_small, leConst_small, eqConst_small] <;> omega

end Ctre
