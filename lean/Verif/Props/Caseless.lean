import Verif.Lemmas.Caseless
import Verif.Model.Wrapper

/-
C19: case-insensitive matching ignores the case of ASCII letters of the subject.
The fold `lowerCase`, the relation `SameLetters` on subjects and the syntactic condition `Re.caseless` are in
Spec/Caseless.lean; they do not use the matching functions of the model.
-/
namespace Ctre

/-- C19: with `case_insensitive` all entry points return the same result, captures included, on subjects that differ
only in the case of ASCII letters. -/
theorem C19_case_insensitive_results (C : Cfg) (n : Nat) {s s' : List Ch} (h : SameLetters s s') {f : Flags}
    (hf : f.ci = true) {r : Re} (hr : r.caseless = true) (p : Nat) :
    matchAt C n s f r p = matchAt C n s' f r p ∧ startsWithAt C n s f r p = startsWithAt C n s' f r p ∧
    searchAt C n s f r p = searchAt C n s' f r p := by
  have hst : ∀ t : Stack, StkCaseless t → StkCaseless (.startMark :: .re r :: t) := fun t ht =>
    stkCaseless_mark (by simp) (stkCaseless_re.2 ⟨hr, ht⟩)
  have he : StkCaseless [.endMark, .accept] := by simp [StkCaseless]
  have hatt : ∀ it, attempt C n s f r it = attempt C n s' f r it := fun it =>
    eval_caseless C n s s' false it f _ _ h hf (hst _ he)
  refine ⟨?_, ?_, ?_⟩
  · unfold matchAt attemptFull
    rw [eval_caseless C n s s' false p f _ _ h hf (hst _ (stkCaseless_re.2 ⟨rfl, he⟩))]
  · unfold startsWithAt; rw [hatt]
  · unfold searchAt
    rw [h.length]
    generalize (if startsWithAnchor f r = true then 0 else s'.length - p) = k
    induction k generalizing p with
    | zero => simp only [searchLoop, hatt]
    | succ k ih => simp only [searchLoop, hatt, ih]

/-- C19: a single character of the pattern matches exactly the code points with the same lower case. -/
theorem C19_character (U : Uni) (v : Int) (c : Nat) (h0 : 0 ≤ v) (h1 : v < 4294967296) :
    (CC.chr c).matchChar U true v = true ↔ lowerCase v = lowerCase c := by
  simp only [CC.matchChar, matchCharacter, Bool.or_eq_true, Bool.and_eq_true, and_true, eqConst_ascii h0 h1]
  cases hl : isLower c with
  | true =>
    have : isAlpha c = true := by simp [isAlpha, hl]
    simp only [this, xor_lower hl, true_and]
    simp only [isLower, Bool.and_eq_true, decide_eq_true_eq] at hl
    unfold lowerCase
    split <;> split <;> omega
  | false =>
    cases hu : isUpper c with
    | true =>
      have : isAlpha c = true := by simp [isAlpha, hu]
      simp only [this, xor_upper hu, true_and]
      simp only [isUpper, Bool.and_eq_true, decide_eq_true_eq] at hu
      unfold lowerCase
      split <;> split <;> omega
    | false =>
      have : isAlpha c = false := by simp [isAlpha, hu, hl]
      simp only [this, Bool.false_eq_true, false_and, false_or]
      simp only [isUpper, isLower, Bool.and_eq_false_iff, decide_eq_false_iff_not] at hu hl
      unfold lowerCase
      split <;> split <;> omega

/-- C19: the condition on ranges is needed. With `case_insensitive` the pattern `[Y-b]` matches "b" but not "B". -/
theorem C19_fails_for_mixed_range : ∃ s s' : List Ch, SameLetters s s' ∧
    (cMatch {} 10 s { ci := true } (.cc (.set [.range 89 98]))).success = true ∧
    (cMatch {} 10 s' { ci := true } (.cc (.set [.range 89 98]))).success = false :=
  ⟨[98], [66], by simp [SameLetters, lowerCase], by decide +kernel, by decide +kernel⟩

/-- C19: so is the condition on back references. With `case_insensitive` the pattern `(a)\1` matches "aa" but not
"aA". -/
theorem C19_fails_for_back_reference : ∃ s s' : List Ch, SameLetters s s' ∧
    (cMatch {} 20 s { ci := true } (.seq [.cap 1 none [.cc (.chr 97)], .bref 1])).success = true ∧
    (cMatch {} 20 s' { ci := true } (.seq [.cap 1 none [.cc (.chr 97)], .bref 1])).success = false :=
  ⟨[97, 97], [97, 65], by simp [SameLetters, lowerCase], by decide +kernel, by decide +kernel⟩

-- `([a-f0-9]+)x[^Q]\b` on "BeX1" and "bEx1"
example : (Re.seq [.cap 1 none [.rep .greedy 1 0 [.cc (.set [.range 97 102, .range 48 57])]], .cc (.chr 120),
    .cc (.negSet [.chr 81]), .boundary wordChars]).caseless = true := by decide +kernel

example : SameLetters [66, 101, 88, 49] [98, 69, 120, 49] := by simp [SameLetters, lowerCase]

example : (cMatch {} 60 [66, 101, 88, 49] { ci := true } (.seq [.cap 1 none [.rep .greedy 1 0
    [.cc (.set [.range 97 102, .range 48 57])]], .cc (.chr 120), .cc (.negSet [.chr 81])])).success = true := by
  decide +kernel

-- in case-sensitive mode the results differ
example : (cMatch {} 60 [66] {} (.cc (.chr 98))).success = false ∧ (cMatch {} 60 [98] {} (.cc (.chr 98))).success = true := by
  decide +kernel

end Ctre
