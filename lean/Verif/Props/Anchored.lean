import Verif.Lemmas.Anchored
import Verif.Props.Search

/-
C06: the anchored-pattern shortcut of `search`.
-/
namespace Ctre

/-- A pattern that meets `\A` or `^` (not multiline) on every way before it consumes anything cannot match after the
beginning of the subject. -/
theorem C06_anchored_matches_only_at_begin {C : Cfg} {n : Nat} {s : List Ch} {f : Flags} {r : Re} {p : Nat}
    (ha : r.anchored f.ml false = true) (h0 : 0 < p) (hp : p ≤ s.length) :
    (startsWithAt C n s f r p).success = false := by
  have h := anchored_notLater r false ha [.endMark, .accept] (by simp)
  have h2 : OkP (fun _ => False) (attempt C n s f r p) := by
    unfold attempt
    cases n with
    | zero => exact .timeout
    | succ n =>
      rw [eval_startMark]
      simp only [Bool.false_eq_true, if_false]
      exact h C n s p f _ h0 hp rfl
  unfold startsWithAt
  cases ho : attempt C n s f r p with
  | ok c => exact (h2 c ho).elim
  | _ => rfl

/-- C06, for patterns where no repetition that may be skipped (other than `?` and `??`) comes before the
anchor: when `search` decides from the
pattern alone to try only the position where it starts, no later position could have matched.
Missing: patterns such as `(?:^a)*b`, for which the claim is false, see `C06_fails_for_skipped_anchor`. -/
theorem C06_shortcut_partial {C : Cfg} {n : Nat} {s : List Ch} {f : Flags} {r : Re} {p : Nat}
    (hs : r.noStarsBefore f.ml = true) (ha : startsWithAnchor f r = true) (h0 : 0 < p) (hp : p ≤ s.length) :
    (startsWithAt C n s f r p).success = false :=
  C06_anchored_matches_only_at_begin (anchored_of_anchorRe f r false false id hs ha) h0 hp

/-- C06 for the result of `search`: a failed search of a pattern that takes the shortcut (without skippable
repetitions before the anchor) means that no position of the subject matches. -/
theorem C06_search_failure_partial {C : Cfg} {n : Nat} {s : List Ch} {f : Flags} {r : Re} {c : Caps}
    (hs : r.noStarsBefore f.ml = true) (ha : startsWithAnchor f r = true) (hr : r.Numbered)
    (h : cSearch C n s f r = .done c) (hm : c.whole.matched = false) :
    ∀ i, i ≤ s.length → (startsWithAt C n s f r i).success = false := by
  intro i hi
  by_cases h0 : i = 0
  · subst h0
    unfold cSearch searchAt at h
    rw [if_pos ha] at h
    have h1 := (searchLoop_fail' hr (by omega) h hm).2 0 (Nat.le_refl _)
    unfold startsWithAt
    rw [show (0:Nat) + 0 = 0 from rfl] at h1
    rw [h1]; rfl
  · exact C06_shortcut_partial hs ha (by omega) hi

/-- `(?:^a)*b` -/
def skippedAnchor : Re := .seq [.rep .greedy 0 0 [.lBegin, .cc (.chr 97)], .cc (.chr 98)]

/-- C06 is false for an anchor inside a repetition that may be skipped: `search` for `(?:^a)*b` in "xb" reports failure
although the pattern matches at position 1. -/
theorem C06_fails_for_skipped_anchor :
    startsWithAnchor {} skippedAnchor = true ∧ cSearch {} 40 [120, 98] {} skippedAnchor = .done { whole := ⟨none, some 0, false⟩ } ∧
    startsWithAt {} 40 [120, 98] {} skippedAnchor 1 = .done { whole := ⟨some 1, some 2, true⟩ } := by
  decide +kernel

/-! ### Cases -/

/-- `(?:\b(^x)|\Ay)+` -/
def sampleAnchored : Re :=
  .rep .greedy 1 0 [.sel [.seq [.boundary wordChars, .cap 1 none [.lBegin, .cc (.chr 120)]], .seq [.sBegin, .cc (.chr 121)]]]

example : sampleAnchored.noStarsBefore false = true ∧ startsWithAnchor {} sampleAnchored = true := by decide
example : sampleAnchored.Numbered := ⟨by decide, by decide⟩
example : (cSearch {} 60 [120, 121] {} sampleAnchored).success = true := by decide +kernel
example : (cSearch {} 60 [97, 120] {} sampleAnchored).success = false := by decide +kernel
-- repetitions after the anchor are allowed: `^a*b`
example : (Re.seq [.lBegin, .rep .greedy 0 0 [.cc (.chr 97)], .cc (.chr 98)]).noStarsBefore false = true := by decide
-- in multiline mode `^` is no anchor
example : startsWithAnchor { ml := true } sampleAnchored = false := by decide

end Ctre
