import Verif.Lemmas.Literal
import Verif.Spec.Runs

/-
C29: a literal pattern matches exactly itself.
-/
namespace Ctre
open Parse

/-- C29 for `match`: a pattern string without the special characters `\ [ ( ) ^ $ . | * + ? { }` is accepted, and the
subject matches exactly when it is this text (up to ASCII case under the case-insensitive flag). -/
theorem C29_match (P : PropTable) {p : List Nat} (hp : ∀ v ∈ p, v ∉ Surface.special) (hp' : ∀ v ∈ p, v < 2147483648) :
    ∃ r, build P p = .pattern r ∧ ∀ (C : Cfg) (s : List Ch) (f : Flags), (∀ v ∈ s, IsCh v) →
      ∃ x, Returns (fun n => cMatch C n s f r) (.done x) ∧ (x.whole.matched = true ↔ IsText f.ci p s) := by
  refine ⟨_, build_lit P hp, fun C s f hs => ?_⟩
  rcases attemptFull_lit C (n := 0) hs hp' f with ⟨h1, h2⟩ | ⟨h1, h2⟩
  · exact ⟨{ whole := ⟨some 0, some s.length, true⟩ }, ⟨by simp, 5, by simp only [cMatch, matchAt, h2, Out.toExec]⟩, by simp [h1]⟩
  · refine ⟨initCaps (litTree p), ⟨by simp, 5, by simp only [cMatch, matchAt, h2, Out.toExec]⟩, ?_⟩
    simp [h1, litTree_captures]

theorem searchLoop_lit (C : Cfg) {s : List Ch} (hs : ∀ v ∈ s, IsCh v) {p : List Nat} (hp : ∀ c ∈ p, c < 2147483648) (f : Flags) :
    ∀ k i, i + k = s.length → (∃ x, searchLoop C 4 s f (litTree p) k i = .done x ∧
      ((∃ j, i ≤ j ∧ j ≤ s.length ∧ OccursAt f.ci p s j ∧ (∀ j', i ≤ j' → j' < j → ¬ OccursAt f.ci p s j') ∧
          x.whole = ⟨some j, some (j + p.length), true⟩) ∨
        ((∀ j, i ≤ j → j ≤ s.length → ¬ OccursAt f.ci p s j) ∧ x.whole.matched = false)))
  | 0, i, h => by
    unfold searchLoop
    rcases attempt_lit C (n := 0) hs hp (cur := i) (by omega) f with ⟨h1, h2⟩ | ⟨h1, h2⟩
    · rw [h2]
      exact ⟨_, rfl, .inl ⟨i, by omega, by omega, h1, fun j' _ _ => by omega, rfl⟩⟩
    · rw [h2]
      refine ⟨_, rfl, .inr ⟨fun j hj hj' => ?_, ?_⟩⟩
      · rw [show j = i by omega]; exact h1
      · simp [litTree_captures, Caps.setEnd]
  | k + 1, i, h => by
    unfold searchLoop
    rcases attempt_lit C (n := 0) hs hp (cur := i) (by omega) f with ⟨h1, h2⟩ | ⟨h1, h2⟩
    · rw [h2]
      exact ⟨_, rfl, .inl ⟨i, by omega, by omega, h1, fun j' _ _ => by omega, rfl⟩⟩
    · rw [h2]
      obtain ⟨x, h3, h4⟩ := searchLoop_lit C hs hp f k (i + 1) (by omega)
      refine ⟨x, h3, ?_⟩
      rcases h4 with ⟨j, h5, h6, h7, h8, h9⟩ | ⟨h5, h6⟩
      · refine .inl ⟨j, by omega, h6, h7, fun j' hj hj' => ?_, h9⟩
        by_cases e : j' = i
        · rw [e]; exact h1
        · exact h8 j' (by omega) hj'
      · refine .inr ⟨fun j hj hj' => ?_, h6⟩
        by_cases e : j = i
        · rw [e]; exact h1
        · exact h5 j (by omega) hj'

/-- C29 for `search`: it succeeds exactly when the text occurs in the subject, and reports the first occurrence. -/
theorem C29_search (P : PropTable) {p : List Nat} (hp : ∀ v ∈ p, v ∉ Surface.special) (hp' : ∀ v ∈ p, v < 2147483648) :
    ∃ r, build P p = .pattern r ∧ ∀ (C : Cfg) (s : List Ch) (f : Flags), (∀ v ∈ s, IsCh v) →
      ∃ x, Returns (fun n => cSearch C n s f r) (.done x) ∧
        (x.whole.matched = true ↔ ∃ i, i ≤ s.length ∧ OccursAt f.ci p s i) ∧
        (∀ i, i ≤ s.length → OccursAt f.ci p s i → (∀ j, j < i → ¬ OccursAt f.ci p s j) →
          x.whole = ⟨some i, some (i + p.length), true⟩) := by
  refine ⟨_, build_lit P hp, fun C s f hs => ?_⟩
  have ha : startsWithAnchor f (litTree p) = false := by
    unfold litTree startsWithAnchor; split <;> simp [anchorRe]
  obtain ⟨x, h1, h2⟩ := searchLoop_lit C hs hp' f s.length 0 (by omega)
  refine ⟨x, ⟨by simp, 4, by simp only [cSearch, searchAt, ha, Bool.false_eq_true, if_false, Nat.sub_zero, h1]⟩, ?_⟩
  rcases h2 with ⟨j, _, h3, h4, h5, h6⟩ | ⟨h3, h4⟩
  · refine ⟨by simp only [h6, true_iff]; exact ⟨j, h3, h4⟩, fun i hi h7 h8 => ?_⟩
    have : i = j := by
      rcases Nat.lt_trichotomy i j with h | h | h
      · exact absurd h7 (h5 i (Nat.zero_le _) h)
      · exact h
      · exact absurd h4 (h8 j h)
    rw [this]; exact h6
  · refine ⟨?_, fun i hi h7 _ => absurd h7 (h3 i (Nat.zero_le _) hi)⟩
    rw [h4]
    simp only [Bool.false_eq_true, false_iff, not_exists, not_and]
    exact fun i hi => h3 i (Nat.zero_le _) hi

/-- C29 for `starts_with`. -/
theorem C29_starts_with (P : PropTable) {p : List Nat} (hp : ∀ v ∈ p, v ∉ Surface.special) (hp' : ∀ v ∈ p, v < 2147483648) :
    ∃ r, build P p = .pattern r ∧ ∀ (C : Cfg) (s : List Ch) (f : Flags), (∀ v ∈ s, IsCh v) →
      ∃ x, Returns (fun n => cStartsWith C n s f r) (.done x) ∧ (x.whole.matched = true ↔ OccursAt f.ci p s 0) := by
  refine ⟨_, build_lit P hp, fun C s f hs => ?_⟩
  rcases attempt_lit C (n := 0) hs hp' (cur := 0) (Nat.zero_le _) f with ⟨h1, h2⟩ | ⟨h1, h2⟩
  · exact ⟨{ whole := ⟨some 0, some (0 + p.length), true⟩ }, ⟨by simp, 4, by simp only [cStartsWith, startsWithAt, h2, Out.toExec]⟩, by simp [h1]⟩
  · refine ⟨initCaps (litTree p), ⟨by simp, 4, by simp only [cStartsWith, startsWithAt, h2, Out.toExec]⟩, ?_⟩
    simp [h1, litTree_captures]

/-! ### Cases -/

-- "foo,bar" has no special character, "a.b" has one
example : ∀ v ∈ [102, 111, 111, 44, 98, 97, 114], v ∉ Surface.special := by decide
example : ¬ ∀ v ∈ [97, 46, 98], v ∉ Surface.special := by decide
-- "lo" occurs in "hello" first at 3; "LO" as well under the case-insensitive flag
example : OccursAt false [108, 111] [104, 101, 108, 108, 111] 3 := by simp [OccursAt, IsText]
example : ¬ OccursAt false [108, 111] [104, 101, 108, 108, 111] 2 := by simp [OccursAt, IsText]
example : OccursAt true [76, 79] [104, 101, 108, 108, 111] 3 := by simp [OccursAt, IsText, SameLetters, lowerCase]
example : cSearch {} 4 [104, 101, 108, 108, 111] {} (.str [108, 111]) = .done { whole := ⟨some 3, some 5, true⟩ } := by
  decide +kernel

end Ctre
