import Verif.Spec.Semantics
import Verif.Spec.Assert
import Verif.Lemmas.Runs
import Verif.Lemmas.Refine
import Verif.Lemmas.Safe
import Verif.Lemmas.Chars

/-
Steps for assertions and backreferences.
-/
namespace Ctre

variable {C : Cfg} {s : List Ch} {lb : Bool} {cur : Nat} {f : Flags} {c : Caps} {t : Stack} {o : Out}

theorem asserts_of {r : Re} (hr : r.isTest = true) :
    Asserts r fun C s cur f => Holds C.uni s (MState.start cur f) r := by
  intro C s lb cur f c t o hp
  have hub : testAt C.uni s cur f r ≠ .ub := testAt_safe hp
  have hiff := testAt_iff (U := C.uni) (s := s) (σ := MState.start cur f) (f := f) (r := r) hp rfl rfl
  simp only [show (MState.start cur f).pos = cur from rfl] at hiff
  by_cases h : Holds C.uni s (MState.start cur f) r
  · have hy := hiff.2 h
    simp only [h, true_and, not_true, false_and, or_false]
    exact runs_of_step fun n => by rw [eval_test (h := hr), hy]
  · simp only [h, false_and, not_false_eq_true, true_and, false_or]
    have hy : testAt C.uni s cur f r = .no := by
      cases ht : testAt C.uni s cur f r with
      | ub => exact absurd ht hub
      | no => rfl
      | yes => exact absurd (hiff.1 ht) h
    exact runs_of_end (by simp) fun n => by rw [eval_test (h := hr), hy]

theorem inClass_wordChars {U : Uni} {ci : Bool} {i : Nat} :
    inClass U ci s i wordChars ↔ wordAt s i := by
  simp only [inClass, wordAt]
  constructor
  · rintro ⟨v, h1, h2⟩; exact ⟨v, h1, wordChars_iff.1 h2⟩
  · rintro ⟨v, h1, h2⟩; exact ⟨v, h1, wordChars_iff.2 h2⟩

theorem runs_bref_text {r : Re} {b e : Nat} (hp : cur ≤ s.length) (hbe : b ≤ e) (he : e ≤ s.length)
    (h : ∀ n, eval C (n+1) s false cur f c (.re r :: t) =
      match brefCmp s cur (some ⟨some b, some e, true⟩) with
      | none => .ill
      | some (.ub, _) => .ub
      | some (.no, _) => .fail
      | some (.yes p, nonempty) => eval C n s false p (f.consumed nonempty) c t) :
    Runs C s false cur f c (.re r :: t) o ↔
      (text s cur (cur + (e - b)) = text s b e ∧
        Runs C s false (cur + (e - b)) (f.consumed (decide (b ≠ e))) c t o) ∨
      (text s cur (cur + (e - b)) ≠ text s b e ∧ o = .fail) := by
  have hub : matchRangeBack s (s.length - cur) cur b e ≠ .ub :=
    matchRangeBack_safe _ (by omega) he (.inl hbe)
  have hiff : ∀ p, matchRangeBack s (s.length - cur) cur b e = .yes p ↔
      text s b e = text s cur (cur + (e - b)) ∧ p = cur + (e - b) := by
    intro p
    have := brefCmp_iff (s := s) (cur := cur) (p := p) (sl := some ⟨some b, some e, true⟩) (v := some (b, e))
      (.inl ⟨rfl, b, e, rfl, rfl, rfl⟩) hp
    simp only [brefCmp, if_true, Option.some.injEq, Prod.mk.injEq, exists_and_left, exists_eq', and_true] at this
    rw [this]
    constructor
    · rintro ⟨b', e', ⟨rfl, rfl⟩, _, _, h1, h2⟩; exact ⟨h1, h2⟩
    · rintro ⟨h1, h2⟩
      refine ⟨b, e, ⟨rfl, rfl⟩, hbe, ?_, h1, h2⟩
      have hl := congrArg List.length h1
      rw [text_length he] at hl
      simp only [text, List.length_take, List.length_drop] at hl
      omega
  simp only [brefCmp, if_true] at h
  by_cases ht : text s cur (cur + (e - b)) = text s b e
  · have hy := (hiff _).2 ⟨ht.symm, rfl⟩
    simp only [ht, true_and, ne_eq, not_true, false_and, or_false]
    exact runs_of_step fun n => by rw [h, hy]
  · have hn : matchRangeBack s (s.length - cur) cur b e = .no := by
      cases hm : matchRangeBack s (s.length - cur) cur b e with
      | ub => exact absurd hm hub
      | no => rfl
      | yes p => exact absurd ((hiff p).1 hm).1.symm ht
    simp only [ht, false_and, ne_eq, not_false_eq_true, true_and, false_or]
    exact runs_of_end (by simp) fun n => by rw [h, hn]

end Ctre
