import Verif.Lemmas.Runs
import Verif.Lemmas.Swap
import Verif.Spec.Times

/-
Repetition of a single-character pattern.
-/
namespace Ctre

theorem Caps.afterChars_succ (c : Caps) (p k : Nat) : (c.endedAt (p+1)).afterChars (p+1) k = c.afterChars p (k+1) := by
  unfold Caps.afterChars
  cases k with
  | zero => rfl
  | succ k => simp only [Nat.add_eq_zero_iff, Nat.succ_ne_self, and_false, if_false, Caps.endedAt]; congr 3; omega

/-- A loop body that consumes the single character at `p` when `one p` holds; `L` is the last position. -/
def OneBody (L : Nat) (one : Nat → Bool) (body : Nat → Caps → Out) : Prop :=
  (∀ p, one p = true → p < L) ∧
  ∀ p c, p ≤ L → step body p c = if one p then .go (p+1) (c.endedAt (p+1)) else .stop .fail

/-- `one` holds on the `k` positions from `p`. -/
def Run (one : Nat → Bool) (p k : Nat) : Prop := ∀ j, j < k → one (p + j) = true

theorem Run.succ {one : Nat → Bool} {p k : Nat} : Run one p (k+1) ↔ one p = true ∧ Run one (p+1) k := by
  constructor
  · intro h
    refine ⟨h 0 (by omega), fun j hj => ?_⟩
    have := h (j+1) (by omega)
    rwa [show p + 1 + j = p + (j + 1) by omega]
  · rintro ⟨h1, h2⟩ j hj
    cases j with
    | zero => exact h1
    | succ j => have := h2 j (by omega); rwa [show p + (j + 1) = p + 1 + j by omega]

theorem Run.zero {one : Nat → Bool} {p : Nat} : Run one p 0 := fun _ h => by omega

theorem mandLoop_one {L : Nat} {one : Nat → Bool} {body : Nat → Caps → Out} (hb : OneBody L one body) : ∀ a p c, p ≤ L →
    (Run one p a ∧ mandLoop body a p c = .go (p + a) (c.afterChars p a)) ∨
    (¬ Run one p a ∧ mandLoop body a p c = .stop .fail) := by
  intro a
  induction a with
  | zero => intro p c _; exact .inl ⟨Run.zero, rfl⟩
  | succ a ih =>
    intro p c hp
    unfold mandLoop
    rw [hb.2 _ _ hp]
    cases ho : one p with
    | false => right; exact ⟨fun h => by have := (Run.succ.1 h).1; simp [ho] at this, rfl⟩
    | true =>
      simp only [if_true]
      rcases ih (p+1) (c.endedAt (p+1)) (hb.1 _ ho) with ⟨h1, h2⟩ | ⟨h1, h2⟩
      · left
        refine ⟨Run.succ.2 ⟨ho, h1⟩, ?_⟩
        rw [h2, Caps.afterChars_succ]
        congr 1; omega
      · right
        exact ⟨fun h => h1 (Run.succ.1 h).2, h2⟩

/-- `k` further iterations are allowed after `i`. -/
def Allowed (b i k : Nat) : Prop := b = 0 ∨ i + k ≤ b

theorem lessInf_allowed {b i : Nat} : lessInf b i = true ↔ Allowed b i 1 := by
  unfold lessInf Allowed
  split <;> simp_all
  omega

theorem lessThan_eq (a i : Nat) : lessThan a i = decide (i < a) := by
  unfold lessThan
  split
  · subst_vars; rfl
  · rfl

theorem Allowed.succ {b i k : Nat} (_ : Allowed b i 1) : Allowed b i (k+1) ↔ Allowed b (i+1) k := by
  unfold Allowed at *; omega

theorem Allowed.of_succ {b i k : Nat} (h : Allowed b i (k+1)) : Allowed b i 1 := by
  unfold Allowed at *; omega

/-- The largest admissible number of iterations after which the tail does not fail, with its outcome, or
failure after all of them. -/
def Most (one : Nat → Bool) (tail : Nat → Caps → Out) (b i p : Nat) (c : Caps) (r : Out) : Prop :=
  (r = .fail ∧ ∀ k, Allowed b i k → Run one p k → tail (p + k) (c.afterChars p k) = .fail) ∨
  (r ≠ .fail ∧ ∃ k, Allowed b i k ∧ Run one p k ∧ tail (p + k) (c.afterChars p k) = r ∧
    ∀ k', k < k' → Allowed b i k' → Run one p k' → tail (p + k') (c.afterChars p k') = .fail)

theorem tail_succ (tail : Nat → Caps → Out) (p k : Nat) (c : Caps) :
    tail (p + 1 + k) ((c.endedAt (p+1)).afterChars (p+1) k) = tail (p + (k+1)) (c.afterChars p (k+1)) := by
  rw [Caps.afterChars_succ]; congr 1; omega

theorem Most.stop {one : Nat → Bool} {tail : Nat → Caps → Out} {b i p : Nat} {c : Caps}
    (h : ∀ k, Allowed b i k → Run one p k → k = 0) (h0 : Allowed b i 0) {r : Out} :
    Most one tail b i p c r ↔ tail p c = r := by
  constructor
  · rintro (⟨rfl, h1⟩ | ⟨h1, k, h2, h3, h4, h5⟩)
    · exact h1 0 h0 Run.zero
    · have := h k h2 h3
      subst this; exact h4
  · intro hr
    by_cases hf : r = .fail
    · left
      refine ⟨hf, fun k h1 h2 => ?_⟩
      have := h k h1 h2
      subst this; rw [← hf]; exact hr
    · right
      refine ⟨hf, 0, h0, Run.zero, hr, fun k' hk' h1 h2 => ?_⟩
      have := h k' h1 h2
      omega

theorem Most.go {one : Nat → Bool} {tail : Nat → Caps → Out} {b i p : Nat} {c : Caps}
    (ha : Allowed b i 1) (ho : one p = true) {r : Out} :
    Most one tail b i p c r ↔ (Most one tail b (i+1) (p+1) (c.endedAt (p+1)) r ∧ r ≠ .fail) ∨
      (Most one tail b (i+1) (p+1) (c.endedAt (p+1)) .fail ∧ tail p c = r) := by
  constructor
  · rintro (⟨rfl, h1⟩ | ⟨h1, k, h2, h3, h4, h5⟩)
    · right
      refine ⟨.inl ⟨rfl, fun k h2 h3 => ?_⟩, h1 0 (by unfold Allowed at *; omega) Run.zero⟩
      rw [tail_succ tail]
      exact h1 (k+1) ((Allowed.succ ha).2 h2) (Run.succ.2 ⟨ho, h3⟩)
    · cases k with
      | zero =>
        right
        refine ⟨.inl ⟨rfl, fun k h2 h3 => ?_⟩, h4⟩
        rw [tail_succ tail]
        exact h5 (k+1) (by omega) ((Allowed.succ ha).2 h2) (Run.succ.2 ⟨ho, h3⟩)
      | succ k =>
        left
        refine ⟨.inr ⟨h1, k, (Allowed.succ ha).1 h2, (Run.succ.1 h3).2, ?_, fun k' hk' h6 h7 => ?_⟩, h1⟩
        · rw [tail_succ tail]; exact h4
        · rw [tail_succ tail]
          exact h5 (k'+1) (by omega) ((Allowed.succ ha).2 h6) (Run.succ.2 ⟨ho, h7⟩)
  · rintro (⟨h | ⟨h1, k, h2, h3, h4, h5⟩, h0⟩ | ⟨h, ht⟩)
    · exact absurd h.1 h0
    · right
      refine ⟨h0, k+1, (Allowed.succ ha).2 h2, Run.succ.2 ⟨ho, h3⟩, by rw [← tail_succ tail]; exact h4, ?_⟩
      intro k' hk' h6 h7
      obtain ⟨k', rfl⟩ : ∃ j, k' = j + 1 := ⟨k' - 1, by omega⟩
      rw [← tail_succ tail]
      exact h5 k' (by omega) ((Allowed.succ ha).1 h6) (Run.succ.1 h7).2
    · rcases h with ⟨_, h1⟩ | ⟨h1, _⟩
      · have hall : ∀ k', 0 < k' → Allowed b i k' → Run one p k' → tail (p + k') (c.afterChars p k') = .fail := by
          intro k' hk' h6 h7
          obtain ⟨k', rfl⟩ : ∃ j, k' = j + 1 := ⟨k' - 1, by omega⟩
          rw [← tail_succ tail]
          exact h1 k' ((Allowed.succ ha).1 h6) (Run.succ.1 h7).2
        by_cases hf : r = .fail
        · left
          refine ⟨hf, fun k h2 h3 => ?_⟩
          rcases Nat.eq_zero_or_pos k with h | h
          · subst h; exact ht.trans hf
          · exact hall k h h2 h3
        · right
          exact ⟨hf, 0, by unfold Allowed at *; omega, Run.zero, ht, hall⟩
      · exact absurd rfl h1

theorem allowed_zero_of {b i k : Nat} (h : ¬ Allowed b i 1) (hk : Allowed b i k) : k = 0 := by
  unfold Allowed at *; omega

theorem lessInf_false {b i : Nat} (h : ¬ Allowed b i 1) : lessInf b i = false := by
  cases h' : lessInf b i with
  | false => rfl
  | true => exact absurd (lessInf_allowed.1 h') h

theorem Run.pred {one : Nat → Bool} {p m : Nat} (ho : one p = true) (h : ∀ k, Run one p k → k < m + 1) :
    ∀ k, Run one (p+1) k → k < m := by
  intro k hk
  have := h (k+1) (Run.succ.2 ⟨ho, hk⟩)
  omega

/-- `evaluate_recursive` on a single-character body. -/
theorem greedyRec_one {L : Nat} {one : Nat → Bool} {body tail : Nat → Caps → Out} (hb : OneBody L one body) {b : Nat} :
    ∀ m i p c r, p ≤ L → r ≠ .timeout → (b = 0 ∨ i ≤ b) →
    (greedyRec body tail b m i p c = r → Most one tail b i p c r) ∧
    ((∀ k, Run one p k → k < m) → Most one tail b i p c r → greedyRec body tail b m i p c = r) := by
  intro m
  induction m with
  | zero =>
    intro i p c r hp hr hi
    refine ⟨fun h => absurd h.symm hr, fun h _ => ?_⟩
    have := h 0 Run.zero
    omega
  | succ m ih =>
    intro i p c r hp hr hi
    have h0 : Allowed b i 0 := hi
    rw [greedyRec_succ]
    by_cases ha : Allowed b i 1
    · rw [if_pos (lessInf_allowed.2 ha), hb.2 _ _ hp]
      cases ho : one p with
      | false =>
        simp only [Bool.false_eq_true, if_false]
        rw [Most.stop _ h0]
        · exact ⟨id, fun _ => id⟩
        · intro k _ hrun
          cases k with
          | zero => rfl
          | succ k => have := (Run.succ.1 hrun).1; simp [ho] at this
      | true =>
        simp only [if_true]
        rw [Most.go ha ho]
        have hi' : b = 0 ∨ i + 1 ≤ b := ha
        constructor
        · intro h
          cases hg : greedyRec body tail b m (i+1) (p+1) (c.endedAt (p+1)) with
          | fail =>
            rw [hg, Out.orElse_fail] at h
            right
            exact ⟨(ih _ _ _ _ (hb.1 _ ho) (by simp) hi').1 hg, h⟩
          | timeout => rw [hg] at h; exact absurd h.symm hr
          | _ =>
            rw [hg] at h
            left
            simp only [Out.orElse] at h
            subst h
            exact ⟨(ih _ _ _ _ (hb.1 _ ho) (by simp) hi').1 hg, by simp⟩
        · intro hm h
          rcases h with ⟨h1, h2⟩ | ⟨h1, h2⟩
          · rw [(ih _ _ _ _ (hb.1 _ ho) hr hi').2 (Run.pred ho hm) h1]
            cases r <;> simp_all [Out.orElse]
          · rw [(ih _ _ _ _ (hb.1 _ ho) (by simp) hi').2 (Run.pred ho hm) h1]
            exact h2
    · rw [if_neg (by simp [lessInf_false ha]), Most.stop (fun k hk _ => allowed_zero_of ha hk) h0]
      exact ⟨id, fun _ => id⟩

/-- The smallest admissible number of iterations after which the tail does not fail, with its outcome, or
failure after all of them. -/
def Fewest (one : Nat → Bool) (tail : Nat → Caps → Out) (b i p : Nat) (c : Caps) (r : Out) : Prop :=
  (r = .fail ∧ ∀ k, Allowed b i k → Run one p k → tail (p + k) (c.afterChars p k) = .fail) ∨
  (r ≠ .fail ∧ ∃ k, Allowed b i k ∧ Run one p k ∧ tail (p + k) (c.afterChars p k) = r ∧
    ∀ k', k' < k → tail (p + k') (c.afterChars p k') = .fail)

theorem Fewest.stop {one : Nat → Bool} {tail : Nat → Caps → Out} {b i p : Nat} {c : Caps}
    (h : ∀ k, Allowed b i k → Run one p k → k = 0) (ht : tail p c = .fail) {r : Out} :
    Fewest one tail b i p c r ↔ r = .fail := by
  constructor
  · rintro (⟨rfl, h1⟩ | ⟨h1, k, h2, h3, h4, h5⟩)
    · rfl
    · have := h k h2 h3
      subst this; exact h4.symm.trans ht
  · intro hr
    left
    refine ⟨hr, fun k h1 h2 => ?_⟩
    have := h k h1 h2
    subst this; exact ht

theorem Fewest.go {one : Nat → Bool} {tail : Nat → Caps → Out} {b i p : Nat} {c : Caps}
    (ha : Allowed b i 1) (ho : one p = true) (ht : tail p c = .fail) {r : Out} :
    Fewest one tail b i p c r ↔ Fewest one tail b (i+1) (p+1) (c.endedAt (p+1)) r := by
  constructor
  · rintro (⟨rfl, h1⟩ | ⟨h1, k, h2, h3, h4, h5⟩)
    · refine .inl ⟨rfl, fun k h2 h3 => ?_⟩
      rw [tail_succ tail]
      exact h1 (k+1) ((Allowed.succ ha).2 h2) (Run.succ.2 ⟨ho, h3⟩)
    · cases k with
      | zero => exact absurd (h4.symm.trans ht) h1
      | succ k =>
        refine .inr ⟨h1, k, (Allowed.succ ha).1 h2, (Run.succ.1 h3).2, ?_, fun k' hk' => ?_⟩
        · rw [tail_succ tail]; exact h4
        · rw [tail_succ tail]; exact h5 (k'+1) (by omega)
  · rintro (⟨rfl, h1⟩ | ⟨h1, k, h2, h3, h4, h5⟩)
    · refine .inl ⟨rfl, fun k h2 h3 => ?_⟩
      cases k with
      | zero => exact ht
      | succ k =>
        rw [← tail_succ tail]
        exact h1 k ((Allowed.succ ha).1 h2) (Run.succ.1 h3).2
    · refine .inr ⟨h1, k+1, (Allowed.succ ha).2 h2, Run.succ.2 ⟨ho, h3⟩, by rw [← tail_succ tail]; exact h4, ?_⟩
      intro k' hk'
      cases k' with
      | zero => exact ht
      | succ k' => rw [← tail_succ tail]; exact h5 k' (by omega)

theorem Fewest.now {one : Nat → Bool} {tail : Nat → Caps → Out} {b i p : Nat} {c : Caps} (h0 : Allowed b i 0)
    {r : Out} (ht : tail p c = r) (hr : r ≠ .fail) : Fewest one tail b i p c r :=
  .inr ⟨hr, 0, h0, Run.zero, ht, fun _ h => by omega⟩

theorem Fewest.eq_now {one : Nat → Bool} {tail : Nat → Caps → Out} {b i p : Nat} {c : Caps} (h0 : Allowed b i 0)
    {r : Out} (hr : Fewest one tail b i p c r) (ht : tail p c ≠ .fail) : tail p c = r := by
  rcases hr with ⟨_, h1⟩ | ⟨_, k, _, _, h4, h5⟩
  · exact absurd (h1 0 h0 Run.zero) ht
  · cases k with
    | zero => exact h4
    | succ k => exact absurd (h5 0 (by omega)) ht

/-- The loop of the lazy repetition on a single-character body, entered when the tail fails. -/
theorem lazyLoop_one {L : Nat} {one : Nat → Bool} {body tail : Nat → Caps → Out} (hb : OneBody L one body) {b : Nat} :
    ∀ m i p c r, p ≤ L → r ≠ .timeout → (b = 0 ∨ i ≤ b) → tail p c = .fail →
    (lazyLoop body tail b m i p c = r → Fewest one tail b i p c r) ∧
    ((∀ k, Run one p k → k < m) → Fewest one tail b i p c r → lazyLoop body tail b m i p c = r) := by
  intro m
  induction m with
  | zero =>
    intro i p c r hp hr hi ht
    refine ⟨fun h => absurd h.symm hr, fun h _ => ?_⟩
    have := h 0 Run.zero
    omega
  | succ m ih =>
    intro i p c r hp hr hi ht
    rw [lazyLoop_succ]
    by_cases ha : Allowed b i 1
    · rw [if_pos (lessInf_allowed.2 ha), hb.2 _ _ hp]
      cases ho : one p with
      | false =>
        simp only [Bool.false_eq_true, if_false]
        rw [Fewest.stop _ ht]
        · exact ⟨fun h => h.symm, fun _ h => h.symm⟩
        · intro k _ hrun
          cases k with
          | zero => rfl
          | succ k => have := (Run.succ.1 hrun).1; simp [ho] at this
      | true =>
        simp only [if_true]
        rw [Fewest.go ha ho ht]
        have hi' : b = 0 ∨ i + 1 ≤ b := ha
        cases hg : tail (p+1) (c.endedAt (p+1)) with
        | fail =>
          rw [Out.orElse_fail]
          obtain ⟨h1, h2⟩ := ih _ _ _ _ (hb.1 _ ho) hr hi' hg
          exact ⟨h1, fun hm h => h2 (Run.pred ho hm) h⟩
        | timeout =>
          refine ⟨fun h => absurd h.symm hr, fun _ h => ?_⟩
          exact absurd (hg.symm.trans (h.eq_now hi' (by simp [hg]))).symm hr
        | _ =>
          refine ⟨fun h => ?_, fun _ h => ?_⟩
          · simp only [Out.orElse] at h
            subst h
            exact Fewest.now hi' hg (by simp)
          · have := hg.symm.trans (h.eq_now hi' (by simp [hg]))
            rw [← this]; rfl
    · rw [if_neg (by simp [lessInf_false ha]), Fewest.stop (fun k hk _ => allowed_zero_of ha hk) ht, ht]
      exact ⟨fun h => h.symm, fun _ h => h.symm⟩

theorem lazyLoop_tail_congr {L : Nat} {one : Nat → Bool} {body tail tail' : Nat → Caps → Out} (hb : OneBody L one body)
    {b : Nat} : ∀ m i p c, p ≤ L → (∀ p' c', p < p' → tail p' c' = tail' p' c') →
    (Allowed b i 1 ∨ tail p c = tail' p c) → lazyLoop body tail b m i p c = lazyLoop body tail' b m i p c := by
  intro m
  induction m with
  | zero => intros; rfl
  | succ m ih =>
    intro i p c hp h1 h2
    rw [lazyLoop_succ, lazyLoop_succ, hb.2 _ _ hp]
    split
    · cases ho : one p with
      | false => rfl
      | true =>
        simp only [if_true]
        rw [h1 _ _ (by omega), ih _ _ _ (hb.1 _ ho) (fun p' c' h => h1 p' c' (by omega)) (.inr (h1 _ _ (by omega)))]
    · rename_i hl
      rcases h2 with h2 | h2
      · exact absurd (lessInf_allowed.2 h2) hl
      · exact h2

/-- `k` is the longest admissible run from `p`. -/
def Longest (one : Nat → Bool) (b i p k : Nat) : Prop :=
  Allowed b i k ∧ Run one p k ∧ ∀ k', Allowed b i k' → Run one p k' → k' ≤ k

/-- The loop of the possessive repetition on a single-character body. -/
theorem possLoop_one {L : Nat} {one : Nat → Bool} {body : Nat → Caps → Out} (hb : OneBody L one body) {a b : Nat} :
    ∀ m i p c, p ≤ L → (b = 0 ∨ i ≤ b) → (b = 0 ∨ a ≤ b) → possLoop body a b m i p c ≠ .stop .timeout →
    ∃ k, Longest one b i p k ∧
      possLoop body a b m i p c = if a ≤ i + k then .go (p + k) (c.afterChars p k) else .stop .fail := by
  intro m
  induction m with
  | zero => intro i p c _ _ _ h; exact absurd rfl h
  | succ m ih =>
    intro i p c hp hi hab hne
    unfold possLoop at hne ⊢
    have h0 : Allowed b i 0 := hi
    by_cases ha : Allowed b i 1
    · rw [if_pos (lessInf_allowed.2 ha), hb.2 _ _ hp] at hne ⊢
      cases ho : one p with
      | false =>
        simp only [Bool.false_eq_true, if_false]
        refine ⟨0, ⟨h0, Run.zero, fun k' _ hrun => ?_⟩, ?_⟩
        · cases k' with
          | zero => omega
          | succ k => have := (Run.succ.1 hrun).1; simp [ho] at this
        · rw [lessThan_eq]
          by_cases h1 : a ≤ i
          · rw [if_pos (show a ≤ i + 0 by omega), if_neg (by simp; omega)]
            rfl
          · rw [if_neg (show ¬ a ≤ i + 0 by omega), if_pos (by simp; omega)]
      | true =>
        simp only [ho, if_true] at hne ⊢
        obtain ⟨k, ⟨h1, h2, h3⟩, h4⟩ := ih (i+1) (p+1) _ (hb.1 _ ho) ha hab hne
        refine ⟨k+1, ⟨(Allowed.succ ha).2 h1, Run.succ.2 ⟨ho, h2⟩, fun k' hk' hrun => ?_⟩, ?_⟩
        · cases k' with
          | zero => omega
          | succ k' => have := h3 k' ((Allowed.succ ha).1 hk') (Run.succ.1 hrun).2; omega
        · rw [h4, Caps.afterChars_succ]
          rw [show i + 1 + k = i + (k + 1) by omega, show p + 1 + k = p + (k+1) by omega]
    · rw [if_neg (by simp [lessInf_false ha])]
      refine ⟨0, ⟨h0, Run.zero, fun k' hk' _ => by rw [allowed_zero_of ha hk']; omega⟩, ?_⟩
      rw [if_pos]
      · rfl
      · unfold Allowed at *; omega

theorem possLoop_one_fuel {L : Nat} {one : Nat → Bool} {body : Nat → Caps → Out} (hb : OneBody L one body) {a b : Nat} :
    ∀ m i p c, p ≤ L → (∀ k, Run one p k → k < m) → possLoop body a b m i p c ≠ .stop .timeout := by
  intro m
  induction m with
  | zero => intro i p c _ h; have := h 0 Run.zero; omega
  | succ m ih =>
    intro i p c hp h
    unfold possLoop
    split
    · rw [hb.2 _ _ hp]
      cases ho : one p with
      | false => simp only [Bool.false_eq_true, if_false]; split <;> simp
      | true =>
        simp only [if_true]
        exact ih _ _ _ (hb.1 _ ho) (Run.pred ho h)
    · simp

theorem Caps.afterChars_add (c : Caps) (p a k : Nat) :
    (c.afterChars p a).afterChars (p + a) k = c.afterChars p (a + k) := by
  unfold Caps.afterChars
  by_cases ha : a = 0
  · subst ha; simp
  · by_cases hk : k = 0
    · subst hk; simp [ha]
    · rw [if_neg ha, if_neg hk, if_neg (by omega)]
      simp only [Caps.endedAt]
      congr 3; omega

theorem Run.add {one : Nat → Bool} {p a k : Nat} : Run one p (a + k) ↔ Run one p a ∧ Run one (p + a) k := by
  induction a generalizing p with
  | zero => simp [Run.zero]
  | succ a ih =>
    rw [show a + 1 + k = (a + k) + 1 by omega, Run.succ, Run.succ, ih, and_assoc, show p + 1 + a = p + (a + 1) by omega]

theorem common_fuel {P : Nat → Prop} {Q : Nat → Nat → Prop} (mono : ∀ k n m, n ≤ m → Q k n → Q k m) :
    ∀ L, (∀ k, k < L → P k → ∃ n, Q k n) → ∃ N, ∀ k, k < L → P k → Q k N := by
  intro L
  induction L with
  | zero => intro _; exact ⟨0, fun k h => by omega⟩
  | succ L ih =>
    intro h
    obtain ⟨N, hN⟩ := ih fun k hk => h k (by omega)
    by_cases hP : P L
    · obtain ⟨n, hn⟩ := h L (by omega) hP
      refine ⟨max N n, fun k hk hp => ?_⟩
      by_cases hkL : k = L
      · subst hkL; exact mono _ _ _ (by omega) hn
      · exact mono _ _ _ (by omega) (hN k (by omega) hp)
    · refine ⟨N, fun k hk hp => ?_⟩
      by_cases hkL : k = L
      · subst hkL; exact absurd hp hP
      · exact hN k (by omega) hp

/-- `r` is a single-character pattern that takes the character at `p` when `one p` holds. -/
def SingleAt (C : Cfg) (s : List Ch) (f : Flags) (r : Re) (one : Nat → Bool) : Prop :=
  (∀ p, one p = true → p < s.length) ∧
  ∀ n p c t, p ≤ s.length → eval C (n+1) s false p f c (.re r :: t) =
    if one p then eval C n s false (p+1) (f.consumed true) c t else .fail

theorem notEmpty_consumed (f : Flags) : (f.notEmpty.consumed true).blk = false := rfl

theorem SingleAt.oneBody {C : Cfg} {s : List Ch} {f : Flags} {r : Re} {one : Nat → Bool}
    (h : SingleAt C s f.notEmpty r one) (n : Nat) :
    OneBody s.length one (fun p c' => eval C (n+2) s false p f.notEmpty c' (items [r] [.endCycle])) := by
  refine ⟨h.1, fun p c hp => ?_⟩
  unfold step
  simp only [items, List.map_cons, List.map_nil, List.cons_append, List.nil_append]
  rw [h.2 _ _ _ _ hp]
  cases ho : one p with
  | false => rfl
  | true =>
    simp only [if_true, eval_endCycle, Bool.false_eq_true, if_false, notEmpty_consumed]
    rfl

theorem SingleAt.bound {C : Cfg} {s : List Ch} {f : Flags} {r : Re} {one : Nat → Bool}
    (h : SingleAt C s f r one) {p k : Nat} (hr : Run one p k) : k ≤ s.length := by
  cases k with
  | zero => omega
  | succ k => have := h.1 _ (hr k (by omega)); omega

end Ctre
