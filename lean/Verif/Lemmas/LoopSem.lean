import Verif.Lemmas.Sem
import Verif.Lemmas.Mono

/-
What the loops compute, in terms of an iterated relation.
`φ p c` is the abstract state of position `p` and captures `c`, `I p c` an invariant.
-/
namespace Ctre

section
variable {α : Type} {R : α → α → Prop} {φ : Nat → Caps → α} {I : Nat → Caps → Prop}
  {body tail : Nat → Caps → Out}

/-- Successful steps are steps of `R`. -/
def StepSound (R : α → α → Prop) (φ : Nat → Caps → α) (I : Nat → Caps → Prop)
    (body : Nat → Caps → Out) : Prop :=
  ∀ p c p' c', I p c → step body p c = .go p' c' → R (φ p c) (φ p' c') ∧ I p' c'

/-- Every step of `R` is the step the machine takes. -/
def StepComplete (R : α → α → Prop) (φ : Nat → Caps → α) (I : Nat → Caps → Prop)
    (body : Nat → Caps → Out) : Prop :=
  ∀ p c, I p c → (step body p c = .stop .fail → ∀ y, ¬ R (φ p c) y) ∧
    ∀ p' c', step body p c = .go p' c' → ∀ y, R (φ p c) y → y = φ p' c'

theorem mandLoop_sound (hs : StepSound R φ I body) (a : Nat) :
    ∀ p c p' c', I p c → mandLoop body a p c = .go p' c' →
      Iterate R a (φ p c) (φ p' c') ∧ I p' c' := by
  induction a with
  | zero =>
    intro p c p' c' hi h
    simp only [mandLoop, Loop.go.injEq] at h
    obtain ⟨rfl, rfl⟩ := h
    exact ⟨.zero _, hi⟩
  | succ a ih =>
    intro p c p' c' hi h
    unfold mandLoop at h
    split at h
    · simp at h
    · rename_i q d hq
      obtain ⟨h1, h2⟩ := hs _ _ _ _ hi hq
      obtain ⟨h3, h4⟩ := ih _ _ _ _ h2 h
      exact ⟨.succ h1 h3, h4⟩

theorem mandLoop_complete (hs : StepSound R φ I body) (hc : StepComplete R φ I body) (a : Nat) :
    ∀ p c, I p c → (mandLoop body a p c = .stop .fail → ∀ y, ¬ Iterate R a (φ p c) y) ∧
      ∀ p' c', mandLoop body a p c = .go p' c' → ∀ y, Iterate R a (φ p c) y → y = φ p' c' := by
  induction a with
  | zero =>
    intro p c hi
    refine ⟨by simp [mandLoop], ?_⟩
    intro p' c' h y hy
    simp only [mandLoop, Loop.go.injEq] at h
    obtain ⟨rfl, rfl⟩ := h
    cases hy; rfl
  | succ a ih =>
    intro p c hi
    unfold mandLoop
    cases hq : step body p c with
    | stop o =>
      refine ⟨?_, by simp⟩
      intro h y hy
      simp only [Loop.stop.injEq] at h
      subst h
      cases hy with
      | succ h1 h2 => exact (hc p c hi).1 hq _ h1
    | go q d =>
      have hiq := (hs _ _ _ _ hi hq).2
      refine ⟨?_, ?_⟩
      · intro h y hy
        cases hy with
        | succ h1 h2 =>
          have := (hc p c hi).2 _ _ hq _ h1
          subst this
          exact (ih q d hiq).1 h _ h2
      · intro p' c' h y hy
        cases hy with
        | succ h1 h2 =>
          have := (hc p c hi).2 _ _ hq _ h1
          subst this
          exact (ih q d hiq).2 _ _ h _ h2

theorem lessInf_iff {b i : Nat} : lessInf b i = true ↔ b = 0 ∨ i < b := by
  unfold lessInf; split <;> simp_all

theorem lessThan_iff {a i : Nat} : lessThan a i = true ↔ i < a := by
  unfold lessThan; split <;> simp_all

theorem possLoop_sound (hs : StepSound R φ I body) {a b : Nat} (hab : b = 0 ∨ a ≤ b) (m : Nat) :
    ∀ i p c p' c', (b = 0 ∨ i ≤ b) → I p c → possLoop body a b m i p c = .go p' c' →
      ∃ k, a ≤ i + k ∧ (b = 0 ∨ i + k ≤ b) ∧ Iterate R k (φ p c) (φ p' c') ∧ I p' c' := by
  induction m with
  | zero => intro i p c p' c' _ _ h; simp [possLoop] at h
  | succ m ih =>
    intro i p c p' c' hib hi h
    unfold possLoop at h
    by_cases hl : lessInf b i = true
    · rw [if_pos hl] at h
      rw [lessInf_iff] at hl
      cases hq : step body p c with
      | stop o =>
        rw [hq] at h
        cases o with
        | fail =>
          simp only at h
          split at h
          · simp at h
          · rename_i hlt
            rw [lessThan_iff] at hlt
            simp only [Loop.go.injEq] at h
            obtain ⟨rfl, rfl⟩ := h
            exact ⟨0, by omega, by omega, .zero _, hi⟩
        | _ => simp at h
      | go q d =>
        rw [hq] at h
        obtain ⟨h1, h2⟩ := hs _ _ _ _ hi hq
        obtain ⟨k, h3, h4, h5, h6⟩ := ih (i+1) q d p' c' (by omega) h2 h
        exact ⟨k+1, by omega, by omega, .succ h1 h5, h6⟩
    · rw [if_neg hl] at h
      rw [lessInf_iff] at hl
      simp only [Loop.go.injEq] at h
      obtain ⟨rfl, rfl⟩ := h
      exact ⟨0, by omega, by omega, .zero _, hi⟩

/-- With equal bounds a possessive loop has no choice. -/
theorem possLoop_complete (hs : StepSound R φ I body) (hc : StepComplete R φ I body) {a : Nat}
    (ha : 0 < a) (m : Nat) : ∀ i p c, i ≤ a → I p c →
      (possLoop body a a m i p c = .stop .fail → ∀ y, ¬ Iterate R (a - i) (φ p c) y) ∧
      ∀ p' c', possLoop body a a m i p c = .go p' c' →
        ∀ y, Iterate R (a - i) (φ p c) y → y = φ p' c' := by
  induction m with
  | zero => intro i p c _ _; simp [possLoop]
  | succ m ih =>
    intro i p c hia hi
    unfold possLoop
    by_cases hl : lessInf a i = true
    · rw [if_pos hl]
      rw [lessInf_iff] at hl
      have hlt : i < a := by omega
      obtain ⟨j, hj⟩ : ∃ j, a - i = j + 1 := ⟨a - i - 1, by omega⟩
      have hj' : a - (i + 1) = j := by omega
      rw [hj]
      cases hq : step body p c with
      | stop o =>
        cases o with
        | fail =>
          have : lessThan a i = true := lessThan_iff.2 hlt
          simp only [this, if_true]
          refine ⟨?_, by simp⟩
          intro _ y hy
          cases hy with
          | succ h1 h2 => exact (hc p c hi).1 hq _ h1
        | _ => simp
      | go q d =>
        have hiq := (hs _ _ _ _ hi hq).2
        have ih' := ih (i+1) q d (by omega) hiq
        rw [hj'] at ih'
        refine ⟨?_, ?_⟩
        · intro h y hy
          cases hy with
          | succ h1 h2 =>
            have := (hc p c hi).2 _ _ hq _ h1
            subst this
            exact ih'.1 h _ h2
        · intro p' c' h y hy
          cases hy with
          | succ h1 h2 =>
            have := (hc p c hi).2 _ _ hq _ h1
            subst this
            exact ih'.2 _ _ h _ h2
    · rw [if_neg hl]
      rw [lessInf_iff] at hl
      have : a - i = 0 := by omega
      rw [this]
      refine ⟨by simp, ?_⟩
      intro p' c' h y hy
      simp only [Loop.go.injEq] at h
      obtain ⟨rfl, rfl⟩ := h
      cases hy; rfl

theorem lazyLoop_sound (hs : StepSound R φ I body) {a b : Nat} (m : Nat) :
    ∀ i p c r, a ≤ i → (b = 0 ∨ i ≤ b) → I p c → lazyLoop body tail b m i p c = .ok r →
      ∃ k p' c', a ≤ i + k ∧ (b = 0 ∨ i + k ≤ b) ∧ Iterate R k (φ p c) (φ p' c') ∧ I p' c' ∧
        tail p' c' = .ok r := by
  induction m with
  | zero => intro i p c r _ _ _ h; simp [lazyLoop] at h
  | succ m ih =>
    intro i p c r hai hib hi h
    unfold lazyLoop at h
    by_cases hl : lessInf b i = true
    · rw [if_pos hl] at h
      rw [lessInf_iff] at hl
      cases hq : step body p c with
      | stop o =>
        rw [hq] at h
        simp only at h
        subst h
        unfold step at hq
        split at hq
        · split at hq <;> simp at hq
        · rename_i hne
          simp only [Loop.stop.injEq] at hq
          exact absurd hq (hne r)
      | go q d =>
        rw [hq] at h
        obtain ⟨h1, h2⟩ := hs _ _ _ _ hi hq
        simp only at h
        split at h
        · obtain ⟨k, p', c', h3, h4, h5, h6, h7⟩ := ih (i+1) q d r (by omega) (by omega) h2 h
          exact ⟨k+1, p', c', by omega, by omega, .succ h1 h5, h6, h7⟩
        · exact ⟨1, q, d, by omega, by omega, .succ h1 (.zero _), h2, h⟩
    · rw [if_neg hl] at h
      exact ⟨0, p, c, by omega, by omega, .zero _, hi, h⟩

theorem lazyLoop_complete (hs : StepSound R φ I body) (hc : StepComplete R φ I body) {b : Nat}
    (m : Nat) {T : α → Prop} (ht : ∀ p c, I p c → tail p c = .fail → ¬ T (φ p c)) :
    ∀ i p c, I p c → lazyLoop body tail b m i p c = .fail →
      ∀ k y, (b = 0 ∨ i + k ≤ b) → Iterate R k (φ p c) y → T y → k = 0 := by
  induction m with
  | zero => intro i p c _ h; simp [lazyLoop] at h
  | succ m ih =>
    intro i p c hi h k y hk hy hT
    cases hy with
    | zero => rfl
    | succ h1 h2 =>
      exfalso
      rename_i k z
      unfold lazyLoop at h
      have hl : lessInf b i = true := lessInf_iff.2 (by omega)
      rw [if_pos hl] at h
      cases hq : step body p c with
      | stop o =>
        rw [hq] at h
        simp only at h
        subst h
        exact (hc p c hi).1 hq _ h1
      | go q d =>
        rw [hq] at h
        have hiq := (hs _ _ _ _ hi hq).2
        have := (hc p c hi).2 _ _ hq _ h1
        subst this
        simp only at h
        split at h
        · rename_i hf
          have := ih (i+1) q d hiq h k y (by omega) h2 hT
          subst this
          cases h2
          exact ht q d hiq hf hT
        · rename_i hne; exact hne h

theorem greedyRec_sound (hs : StepSound R φ I body) {a b : Nat} (m : Nat) :
    ∀ i p c r, a ≤ i → (b = 0 ∨ i ≤ b) → I p c → greedyRec body tail b m i p c = .ok r →
      ∃ k p' c', a ≤ i + k ∧ (b = 0 ∨ i + k ≤ b) ∧ Iterate R k (φ p c) (φ p' c') ∧ I p' c' ∧
        tail p' c' = .ok r := by
  induction m with
  | zero => intro i p c r _ _ _ h; simp [greedyRec] at h
  | succ m ih =>
    intro i p c r hai hib hi h
    unfold greedyRec at h
    by_cases hl : lessInf b i = true
    · rw [if_pos hl] at h
      rw [lessInf_iff] at hl
      cases hq : step body p c with
      | stop o =>
        rw [hq] at h
        cases o with
        | fail => exact ⟨0, p, c, by omega, by omega, .zero _, hi, h⟩
        | ok r' =>
          unfold step at hq
          split at hq
          · split at hq <;> simp at hq
          · rename_i hne
            simp only [Loop.stop.injEq] at hq
            exact absurd hq (hne r')
        | _ => simp at h
      | go q d =>
        rw [hq] at h
        obtain ⟨h1, h2⟩ := hs _ _ _ _ hi hq
        simp only at h
        split at h
        · exact ⟨0, p, c, by omega, by omega, .zero _, hi, h⟩
        · obtain ⟨k, p', c', h3, h4, h5, h6, h7⟩ := ih (i+1) q d r (by omega) (by omega) h2 h
          exact ⟨k+1, p', c', by omega, by omega, .succ h1 h5, h6, h7⟩
    · rw [if_neg hl] at h
      exact ⟨0, p, c, by omega, by omega, .zero _, hi, h⟩

theorem greedyRec_complete (hs : StepSound R φ I body) (hc : StepComplete R φ I body) {b : Nat}
    (m : Nat) {T : α → Prop} (ht : ∀ p c, I p c → tail p c = .fail → ¬ T (φ p c)) :
    ∀ i p c, I p c → greedyRec body tail b m i p c = .fail →
      ∀ k y, (b = 0 ∨ i + k ≤ b) → Iterate R k (φ p c) y → ¬ T y := by
  induction m with
  | zero => intro i p c _ h; simp [greedyRec] at h
  | succ m ih =>
    intro i p c hi h k y hk hy hT
    unfold greedyRec at h
    cases hy with
    | zero =>
      split at h
      · split at h
        · exact ht _ _ hi h hT
        · rename_i hne hq; exact hne h
        · split at h
          · exact ht _ _ hi h hT
          · rename_i hne; exact hne h
      · exact ht _ _ hi h hT
    | succ h1 h2 =>
      rename_i k z
      have hl : lessInf b i = true := lessInf_iff.2 (by omega)
      rw [if_pos hl] at h
      cases hq : step body p c with
      | stop o =>
        rw [hq] at h
        cases o with
        | fail => exact (hc p c hi).1 hq _ h1
        | _ => simp at h
      | go q d =>
        rw [hq] at h
        have hiq := (hs _ _ _ _ hi hq).2
        have := (hc p c hi).2 _ _ hq _ h1
        subst this
        simp only at h
        split at h
        · rename_i hf
          exact ih (i+1) q d hiq hf k y (by omega) h2 hT
        · rename_i hne; exact hne h

end

theorem step_ne_ok {body : Nat → Caps → Out} {p : Nat} {c r : Caps} : step body p c ≠ .stop (.ok r) := by
  unfold step
  split
  · split <;> simp
  · rename_i h; intro he; simp only [Loop.stop.injEq] at he; exact h r he

theorem mandLoop_ne_ok {body : Nat → Caps → Out} {r : Caps} (a : Nat) :
    ∀ p c, mandLoop body a p c ≠ .stop (.ok r) := by
  induction a with
  | zero => intro p c; simp [mandLoop]
  | succ a ih =>
    intro p c
    unfold mandLoop
    split
    · rename_i o h
      intro he
      simp only [Loop.stop.injEq] at he
      subst he
      exact step_ne_ok h
    · exact ih _ _

theorem possLoop_ne_ok {body : Nat → Caps → Out} {a b : Nat} {r : Caps} (m : Nat) :
    ∀ i p c, possLoop body a b m i p c ≠ .stop (.ok r) := by
  induction m with
  | zero => intro i p c; simp [possLoop]
  | succ m ih =>
    intro i p c
    unfold possLoop
    split
    · split
      · split <;> simp
      · rename_i o _ h
        intro he
        simp only [Loop.stop.injEq] at he
        subst he
        exact step_ne_ok h
      · exact ih _ _ _
    · simp

theorem matchString_yes {ci : Bool} {s : List Ch} {cs : List Nat} : ∀ {cur p : Nat},
    matchString ci s cs cur = .yes p → p = cur + cs.length ∧ (cur ≤ s.length → p ≤ s.length) := by
  induction cs with
  | nil => intro cur p h; simp only [matchString, Cmp.yes.injEq] at h; subst h; simp
  | cons c cs ih =>
    intro cur p h
    unfold matchString at h
    split at h
    · simp at h
    · split at h
      · simp at h
      · rename_i v hv
        split at h
        · obtain ⟨h1, h2⟩ := ih h
          have := (List.getElem?_eq_some_iff.1 hv).1
          refine ⟨by simp; omega, fun _ => h2 (by omega)⟩
        · simp at h

theorem matchRangeBack_yes {s : List Ch} (n : Nat) : ∀ {cur rc re p : Nat},
    matchRangeBack s n cur rc re = .yes p → cur ≤ s.length → cur ≤ p ∧ p ≤ s.length ∧ p - cur + rc = re := by
  induction n with
  | zero =>
    intro cur rc re p h hcur
    unfold matchRangeBack at h
    split at h
    · split at h
      · simp only [Cmp.yes.injEq] at h; omega
      · simp at h
    · split at h
      · split at h <;> simp at h
      · simp at h
  | succ n ih =>
    intro cur rc re p h hcur
    unfold matchRangeBack at h
    split at h
    · split at h
      · simp only [Cmp.yes.injEq] at h; omega
      · simp at h
    · split at h
      · rename_i v w hv hw
        split at h
        · have := (List.getElem?_eq_some_iff.1 hv).1
          have := ih h (by omega)
          omega
        · simp at h
      · simp at h

theorem brefCmp_yes {s : List Ch} {cur p : Nat} {q : Bool} {sl : Option Slot}
    (h : brefCmp s cur sl = some (.yes p, q)) (hcur : cur ≤ s.length) :
    cur ≤ p ∧ p ≤ s.length ∧ q = decide (cur ≠ p) := by
  unfold brefCmp at h
  split at h
  · simp at h
  · split at h
    · split at h
      · simp only [Option.some.injEq, Prod.mk.injEq] at h
        have := matchRangeBack_yes _ h.1 hcur
        refine ⟨this.1, this.2.1, ?_⟩
        rw [← h.2]
        simp; omega
      · simp at h
    · simp at h

end Ctre
