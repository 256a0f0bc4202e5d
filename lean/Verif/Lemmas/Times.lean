import Verif.Lemmas.Single
import Verif.Spec.Times

/-
Iteration counts in terms of the specification.
-/
namespace Ctre

open Classical in
/-- `takes` as a function. -/
noncomputable def takesB (U : Uni) (s : List Ch) (f : Flags) (x : Re) (p : Nat) : Bool := decide (takes U s f p x)

theorem takesB_iff {U : Uni} {s : List Ch} {f : Flags} {x : Re} {p : Nat} : takesB U s f x p = true ↔ takes U s f p x := by
  simp [takesB]

theorem takesB_false {U : Uni} {s : List Ch} {f : Flags} {x : Re} {p : Nat} (h : ¬ takes U s f p x) :
    takesB U s f x p = false := by
  simp [takesB, h]

theorem singleAt {C : Cfg} {s : List Ch} {f : Flags} {x : Re} (hx : x.isSingle = true) :
    SingleAt C s f x (takesB C.uni s f x) := by
  constructor
  · intro p hp
    rw [takesB_iff] at hp
    cases x <;> simp [Re.isSingle] at hx
    · simp only [takes, inClass] at hp
      obtain ⟨v, hv, _⟩ := hp
      exact (List.getElem?_eq_some_iff.1 hv).1
    · exact hp.1
  · intro n p c t hp
    cases x <;> simp [Re.isSingle] at hx
    · rename_i cl
      rw [eval_cc]
      split
      · subst_vars
        rw [takesB_false (by simp [takes, inClass])]; rfl
      · have hlt : p < s.length := by omega
        rw [List.getElem?_eq_getElem hlt]
        dsimp only
        split
        · rw [takesB_iff.2 (by simp only [takes, inClass]; exact ⟨_, List.getElem?_eq_getElem hlt, ‹_›⟩)]; rfl
        · rw [takesB_false]
          · rfl
          · simp only [takes, inClass]
            rintro ⟨v, hv, h⟩
            rw [List.getElem?_eq_getElem hlt] at hv
            simp_all
    · rw [eval_any]
      split
      · subst_vars
        rw [takesB_false (by simp [takes])]; rfl
      · have hlt : p < s.length := by omega
        rw [List.getElem?_eq_getElem hlt]
        dsimp only
        split
        · split
          · rw [takesB_false]
            · rfl
            · simp only [takes, newlineAt, List.getElem?_eq_getElem hlt]; simp_all
          · rw [takesB_iff.2]
            · rfl
            · simp only [takes, newlineAt, List.getElem?_eq_getElem hlt]; simp_all
        · rw [takesB_iff.2]
          · rfl
          · simp only [takes, newlineAt]; simp_all

theorem run_iff {U : Uni} {s : List Ch} {f : Flags} {x : Re} {p k : Nat} :
    Run (takesB U s f x) p k ↔ ∀ j, j < k → takes U s f (p + j) x := by
  simp only [Run, takesB_iff]

theorem takes_notEmpty {U : Uni} {s : List Ch} {f : Flags} {x : Re} : takesB U s f.notEmpty x = takesB U s f x := by
  funext p
  unfold takesB
  cases x <;> rfl

variable {C : Cfg} {s : List Ch} {f : Flags} {c : Caps} {x : Re} {a b cur : Nat} {t : Stack}

theorem canTake_add {k : Nat} : CanTake C.uni s f x a b cur (a + k) ↔
    Allowed b a k ∧ Run (takesB C.uni s f x) cur a ∧ Run (takesB C.uni s f x) (cur + a) k := by
  unfold CanTake
  rw [← run_iff, Run.add]
  unfold Allowed
  constructor
  · rintro ⟨_, h1, h2⟩; exact ⟨h1, h2⟩
  · rintro ⟨h1, h2⟩; exact ⟨by omega, h1, h2⟩

theorem bound (hx : x.isSingle = true) {p k : Nat} (h : Run (takesB C.uni s f x) p k) : k ≤ s.length :=
  (singleAt hx).bound h

/-- Fuel that is enough for all continuations. -/
theorem most_fuel {K : Nat → Nat → Out} (mono : ∀ k n m, n ≤ m → K k n ≠ .timeout → K k m = K k n) {adm : Nat → Prop}
    {L : Nat} (hL : ∀ k, adm k → k < L) {o : Out}
    (h : MostTimes adm (fun k o => o ≠ .timeout ∧ ∃ n, K k n = o) o) :
    ∃ N, ∀ n, N ≤ n → MostTimes adm (fun k o => K k n = o) o ∧ o ≠ .timeout := by
  rcases h with ⟨rfl, h⟩ | ⟨ho, k, h1, ⟨h2, n, h3⟩, h4⟩
  · obtain ⟨N, hN⟩ := common_fuel (P := adm) (Q := fun k n => K k n = .fail)
      (fun k n m hnm h => by rw [mono k n m hnm (by rw [h]; simp), h]) L
      (fun k _ hk => (h k hk).2)
    refine ⟨N, fun n hn => ⟨.inl ⟨rfl, fun k hk => ?_⟩, by simp⟩⟩
    have := hN k (hL k hk) hk
    show K k n = .fail
    rw [mono k N n hn (by rw [this]; simp), this]
  · obtain ⟨N, hN⟩ := common_fuel (P := fun k' => k < k' ∧ adm k') (Q := fun k n => K k n = .fail)
      (fun k n m hnm h => by rw [mono k n m hnm (by rw [h]; simp), h]) L
      (fun k _ hk => (h4 k hk.1 hk.2).2)
    refine ⟨max N n, fun m hm => ⟨.inr ⟨ho, k, h1, ?_, fun k' hk' hadm => ?_⟩, h2⟩⟩
    · show K k m = o
      rw [mono k n m (by omega) (by rw [h3]; exact h2), h3]
    · have := hN k' (hL k' hadm) ⟨hk', hadm⟩
      show K k' m = .fail
      rw [mono k' N m (by omega) (by rw [this]; simp), this]

theorem fewest_fuel {K : Nat → Nat → Out} (mono : ∀ k n m, n ≤ m → K k n ≠ .timeout → K k m = K k n) {adm : Nat → Prop}
    {L : Nat} (hL : ∀ k, adm k → k < L) {o : Out}
    (h : FewestTimes adm (fun k o => o ≠ .timeout ∧ ∃ n, K k n = o) o) :
    ∃ N, ∀ n, N ≤ n → FewestTimes adm (fun k o => K k n = o) o ∧ o ≠ .timeout := by
  rcases h with ⟨rfl, h⟩ | ⟨ho, k, h1, ⟨h2, n, h3⟩, h4⟩
  · obtain ⟨N, hN⟩ := common_fuel (P := adm) (Q := fun k n => K k n = .fail)
      (fun k n m hnm h => by rw [mono k n m hnm (by rw [h]; simp), h]) L
      (fun k _ hk => (h k hk).2)
    refine ⟨N, fun n hn => ⟨.inl ⟨rfl, fun k hk => ?_⟩, by simp⟩⟩
    have := hN k (hL k hk) hk
    show K k n = .fail
    rw [mono k N n hn (by rw [this]; simp), this]
  · obtain ⟨N, hN⟩ := common_fuel (P := fun k' => k' < k ∧ adm k') (Q := fun k n => K k n = .fail)
      (fun k n m hnm h => by rw [mono k n m hnm (by rw [h]; simp), h]) L
      (fun k _ hk => (h4 k hk.1 hk.2).2)
    refine ⟨max N n, fun m hm => ⟨.inr ⟨ho, k, h1, ?_, fun k' hk' hadm => ?_⟩, h2⟩⟩
    · show K k m = o
      rw [mono k n m (by omega) (by rw [h3]; exact h2), h3]
    · have := hN k' (hL k' hadm) ⟨hk', hadm⟩
      show K k' m = .fail
      rw [mono k' N m (by omega) (by rw [this]; simp), this]

theorem canTake_lt (hx : x.isSingle = true) {k : Nat} (h : CanTake C.uni s f x a b cur k) : k < s.length + 1 := by
  have := bound hx (run_iff.2 h.2.2)
  omega

theorem canTake_split {k : Nat} (h : CanTake C.uni s f x a b cur k) : ∃ j, k = a + j := ⟨k - a, by have := h.1; omega⟩

/-- From counts after the mandatory iterations to total counts. -/
theorem most_iff {tail : Nat → Caps → Out} (hra : Run (takesB C.uni s f x) cur a) {o : Out} :
    Most (takesB C.uni s f x) tail b a (cur + a) (c.afterChars cur a) o ↔
    MostTimes (CanTake C.uni s f x a b cur) (fun k o => tail (cur + k) (c.afterChars cur k) = o) o := by
  have e : ∀ k, tail (cur + a + k) ((c.afterChars cur a).afterChars (cur + a) k) =
      tail (cur + (a + k)) (c.afterChars cur (a + k)) := by
    intro k; rw [Caps.afterChars_add]; congr 1; omega
  unfold Most MostTimes
  simp only [e]
  constructor
  · rintro (⟨h1, h2⟩ | ⟨h1, k, h2, h3, h4, h5⟩)
    · refine .inl ⟨h1, fun k hk => ?_⟩
      obtain ⟨j, rfl⟩ := canTake_split hk
      obtain ⟨h6, _, h7⟩ := canTake_add.1 hk
      exact h2 j h6 h7
    · refine .inr ⟨h1, a + k, canTake_add.2 ⟨h2, hra, h3⟩, h4, fun k' hk' hc => ?_⟩
      obtain ⟨j, rfl⟩ := canTake_split hc
      obtain ⟨h6, _, h7⟩ := canTake_add.1 hc
      exact h5 j (by omega) h6 h7
  · rintro (⟨h1, h2⟩ | ⟨h1, k, h2, h3, h4⟩)
    · exact .inl ⟨h1, fun k h6 h7 => h2 _ (canTake_add.2 ⟨h6, hra, h7⟩)⟩
    · obtain ⟨j, rfl⟩ := canTake_split h2
      obtain ⟨h6, _, h7⟩ := canTake_add.1 h2
      exact .inr ⟨h1, j, h6, h7, h3, fun k' hk' h8 h9 => h4 _ (by omega) (canTake_add.2 ⟨h8, hra, h9⟩)⟩

theorem fewest_iff {tail : Nat → Caps → Out} (hra : Run (takesB C.uni s f x) cur a) {o : Out} :
    Fewest (takesB C.uni s f x) tail b a (cur + a) (c.afterChars cur a) o ↔
    FewestTimes (CanTake C.uni s f x a b cur) (fun k o => tail (cur + k) (c.afterChars cur k) = o) o := by
  have e : ∀ k, tail (cur + a + k) ((c.afterChars cur a).afterChars (cur + a) k) =
      tail (cur + (a + k)) (c.afterChars cur (a + k)) := by
    intro k; rw [Caps.afterChars_add]; congr 1; omega
  unfold Fewest FewestTimes
  simp only [e]
  constructor
  · rintro (⟨h1, h2⟩ | ⟨h1, k, h2, h3, h4, h5⟩)
    · refine .inl ⟨h1, fun k hk => ?_⟩
      obtain ⟨j, rfl⟩ := canTake_split hk
      obtain ⟨h6, _, h7⟩ := canTake_add.1 hk
      exact h2 j h6 h7
    · refine .inr ⟨h1, a + k, canTake_add.2 ⟨h2, hra, h3⟩, h4, fun k' hk' hc => ?_⟩
      obtain ⟨j, rfl⟩ := canTake_split hc
      exact h5 j (by omega)
  · rintro (⟨h1, h2⟩ | ⟨h1, k, h2, h3, h4⟩)
    · exact .inl ⟨h1, fun k h6 h7 => h2 _ (canTake_add.2 ⟨h6, hra, h7⟩)⟩
    · obtain ⟨j, rfl⟩ := canTake_split h2
      obtain ⟨h6, _, h7⟩ := canTake_add.1 h2
      refine .inr ⟨h1, j, h6, h7, h3, fun k' hk' => h4 _ (by omega) (canTake_add.2 ⟨?_, hra, ?_⟩)⟩
      · unfold Allowed at *; omega
      · exact fun i hi => h7 i (by omega)

theorem no_take_of (h : ¬ Run (takesB C.uni s f x) cur a) {k : Nat} (hk : CanTake C.uni s f x a b cur k) :
    False := by
  obtain ⟨j, rfl⟩ := canTake_split hk
  exact h (canTake_add.1 hk).2.1

end Ctre
