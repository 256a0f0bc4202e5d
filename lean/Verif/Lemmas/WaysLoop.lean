import Verif.Spec.Ways
import Verif.Lemmas.SoundComplete
import Verif.Lemmas.Terminates

/-
The loops of the machine follow the order of preference.
-/
namespace Ctre

/-- The outcome is the first member of the list. -/
def Yields {β : Type} (Q : Caps → β → Prop) (o : Out) (L : List β) : Prop :=
  (o = .fail → L = []) ∧ ∀ c, o = .ok c → ∃ y rest, L = y :: rest ∧ Q c y

theorem Yields.orElse {β : Type} {Q : Caps → β → Prop} {o o' : Out} {L L' : List β} (h : Yields Q o L) (h' : Yields Q o' L') :
    Yields Q (o.orElse o') (L ++ L') := by
  refine ⟨?_, ?_⟩
  · intro hf
    rw [Out.orElse_eq_fail] at hf
    rw [h.1 hf.1, h'.1 hf.2]; rfl
  · intro c hc
    rw [Out.orElse_eq_ok] at hc
    rcases hc with hc | ⟨hc, hc'⟩
    · obtain ⟨y, rest, h1, h2⟩ := h.2 c hc
      exact ⟨y, rest ++ L', by rw [h1]; rfl, h2⟩
    · obtain ⟨y, rest, h1, h2⟩ := h'.2 c hc'
      exact ⟨y, rest, by rw [h.1 hc, h1]; rfl, h2⟩

theorem Yields.nil {β : Type} {Q : Caps → β → Prop} : Yields Q .fail ([] : List β) := ⟨fun _ => rfl, by simp⟩

theorem Yields.other {β : Type} {Q : Caps → β → Prop} {o : Out} {L : List β} (h1 : o ≠ .fail) (h2 : ∀ c, o ≠ .ok c) :
    Yields Q o L := ⟨fun h => absurd h h1, fun c h => absurd h (h2 c)⟩

section
variable {α β : Type} {it : α → List α} {φ : Nat → Caps → α} {I : Nat → Caps → Prop} {len : Nat}
  {body tail : Nat → Caps → Out} {Q : Caps → β → Prop} {T : α → List β}

/-- The machine takes the only iteration there is, and moves. -/
def StepFirst (it : α → List α) (φ : Nat → Caps → α) (I : Nat → Caps → Prop) (len : Nat) (body : Nat → Caps → Out) : Prop :=
  ∀ p c, I p c → (step body p c = .stop .fail → it (φ p c) = []) ∧
    ∀ p' c', step body p c = .go p' c' → it (φ p c) = [φ p' c'] ∧ I p' c' ∧ p < p' ∧ p' ≤ len

theorem mandLoop_first (hs : StepFirst it φ I len body) (a : Nat) : ∀ p c, I p c →
    (mandLoop body a p c = .stop .fail → times it a (φ p c) = []) ∧
    ∀ p' c', mandLoop body a p c = .go p' c' → times it a (φ p c) = [φ p' c'] ∧ I p' c' ∧ p ≤ p' ∧ (1 ≤ a → p < p') := by
  induction a with
  | zero =>
    intro p c hi
    refine ⟨by simp [mandLoop], ?_⟩
    intro p' c' h
    simp only [mandLoop, Loop.go.injEq] at h
    obtain ⟨rfl, rfl⟩ := h
    exact ⟨rfl, hi, Nat.le_refl _, by omega⟩
  | succ a ih =>
    intro p c hi
    unfold mandLoop times
    cases hq : step body p c with
    | stop o =>
      refine ⟨?_, by simp⟩
      intro h
      simp only [Loop.stop.injEq] at h
      subst h
      rw [(hs p c hi).1 hq]; rfl
    | go q d =>
      obtain ⟨h1, h2, h3, _⟩ := (hs p c hi).2 q d hq
      obtain ⟨h4, h5⟩ := ih q d h2
      refine ⟨?_, ?_⟩
      · intro h; rw [h1]; simp [h4 h]
      · intro p' c' h
        obtain ⟨h6, h7, h8, _⟩ := h5 p' c' h
        rw [h1]
        exact ⟨by simp [h6], h7, by omega, fun _ => by omega⟩

/-- `k` further iterations are possible after `i`, at position `p`. -/
def Room (len b i p k : Nat) : Prop := if b = 0 then len - p ≤ k else k = b - i

theorem Room.next {b i p p' k : Nat} (h : Room len b i p (k + 1)) (hp : p < p') (hb : lessInf b i = true) :
    Room len b (i + 1) p' k := by
  unfold Room at *
  unfold lessInf at hb
  split
  · rename_i hb0; rw [if_pos hb0] at h; omega
  · rename_i hb0; rw [if_neg hb0] at h hb; simp at hb; omega

theorem Room.pos {b i p k : Nat} (h : Room len b i p k) (hp : p < len) (hb : lessInf b i = true) : ∃ k', k = k' + 1 := by
  unfold Room at h
  unfold lessInf at hb
  refine ⟨k - 1, ?_⟩
  split at h
  · omega
  · rename_i hb0; rw [if_neg hb0] at hb; simp at hb; omega

theorem Room.zero {b i p k : Nat} (h : Room len b i p k) (hb : lessInf b i = false) : k = 0 := by
  unfold Room at h
  unfold lessInf at hb
  split at h
  · rename_i hb0; simp [hb0] at hb
  · rename_i hb0; rw [if_neg hb0] at hb; simp at hb; omega

theorem most_nil {k : Nat} {x : α} (h : it x = []) : most it k x = [x] := by
  cases k <;> simp [most, h]

theorem fewest_nil {k : Nat} {x : α} (h : it x = []) : fewest it k x = [x] := by
  cases k <;> simp [fewest, h]

theorem fewest_cons {k : Nat} {x : α} : fewest it k x = x :: (fewest it k x).tail := by
  cases k <;> rfl

theorem greedyRec_first (hs : StepFirst it φ I len body) {b : Nat} (ht : ∀ p c, I p c → Yields Q (tail p c) (T (φ p c))) (m : Nat) :
    ∀ i p c k, I p c → Room len b i p k → Yields Q (greedyRec body tail b m i p c) ((most it k (φ p c)).flatMap T) := by
  induction m with
  | zero => intros; exact .other (by simp [greedyRec]) (by simp [greedyRec])
  | succ m ih =>
    intro i p c k hi hk
    unfold greedyRec
    by_cases hb : lessInf b i = true
    · rw [if_pos hb]
      cases hq : step body p c with
      | stop o =>
        cases o with
        | fail =>
          rw [most_nil ((hs p c hi).1 hq)]
          simpa using ht p c hi
        | ok c' => exact absurd hq step_ne_ok
        | _ => exact .other (by simp) (by simp)
      | go q d =>
        obtain ⟨h1, h2, h3, h4⟩ := (hs p c hi).2 q d hq
        obtain ⟨k, rfl⟩ := hk.pos (by omega) hb
        have := (ih (i + 1) q d k h2 (hk.next h3 hb)).orElse (ht p c hi)
        simp only [most, h1, List.flatMap_cons, List.flatMap_nil, List.append_nil, List.flatMap_append]
        exact this
    · rw [if_neg hb]
      have hb : lessInf b i = false := by simpa using hb
      have := hk.zero hb
      subst this
      simpa [most] using ht p c hi

theorem lazyLoop_first (hs : StepFirst it φ I len body) {b : Nat} (ht : ∀ p c, I p c → Yields Q (tail p c) (T (φ p c))) (m : Nat) :
    ∀ i p c k, I p c → Room len b i p k → (lessInf b i = false → T (φ p c) = []) →
      Yields Q (lazyLoop body tail b m i p c) ((fewest it k (φ p c)).tail.flatMap T) := by
  induction m with
  | zero => intros; exact .other (by simp [lazyLoop]) (by simp [lazyLoop])
  | succ m ih =>
    intro i p c k hi hk h0
    rw [lazyLoop_succ]
    by_cases hb : lessInf b i = true
    · rw [if_pos hb]
      cases hq : step body p c with
      | stop o =>
        cases o with
        | fail =>
          rw [fewest_nil ((hs p c hi).1 hq)]
          exact .nil
        | ok c' => exact absurd hq step_ne_ok
        | _ => exact .other (by simp) (by simp)
      | go q d =>
        obtain ⟨h1, h2, h3, h4⟩ := (hs p c hi).2 q d hq
        obtain ⟨k, rfl⟩ := hk.pos (by omega) hb
        simp only [fewest, h1, List.flatMap_cons, List.flatMap_nil, List.append_nil, List.tail_cons]
        rw [fewest_cons]
        simp only [List.flatMap_cons]
        have hy := ht q d h2
        by_cases hf : tail q d = .fail
        · exact hy.orElse (ih (i + 1) q d k h2 (hk.next h3 hb) (fun _ => hy.1 hf))
        · cases ho : tail q d with
          | fail => exact absurd ho hf
          | ok c' =>
            obtain ⟨y, rest, h5, h6⟩ := hy.2 c' ho
            refine ⟨by simp [Out.orElse], ?_⟩
            intro c'' hc
            simp only [Out.orElse, Out.ok.injEq] at hc
            subst hc
            exact ⟨y, _, by rw [h5]; rfl, h6⟩
          | _ => exact .other (by simp [Out.orElse]) (by simp [Out.orElse])
    · rw [if_neg hb]
      have hb : lessInf b i = false := by simpa using hb
      have := hk.zero hb
      subst this
      have := ht p c hi
      rw [h0 hb] at this
      simpa [fewest] using this

theorem most_ne_nil {k : Nat} {x : α} : most it k x ≠ [] := by
  cases k <;> simp [most]

theorem take_one_append {L L' : List α} (h : L ≠ []) : (L ++ L').take 1 = L.take 1 := by
  cases L with
  | nil => exact absurd rfl h
  | cons x L => simp

theorem possLoop_first (hs : StepFirst it φ I len body) {a b : Nat} (hab : b = 0 ∨ a ≤ b) (m : Nat) :
    ∀ i p c k, I p c → (if b = 0 then len - p ≤ k else k = b - max a i) →
      (possLoop body a b m i p c = .stop .fail → (times it (a - i) (φ p c)).flatMap (most it k) = []) ∧
      ∀ p' c', possLoop body a b m i p c = .go p' c' →
        ((times it (a - i) (φ p c)).flatMap (most it k)).take 1 = [φ p' c'] ∧ I p' c' ∧ p ≤ p' ∧ (i < a → p < p') := by
  induction m with
  | zero => intro i p c k hi hk; simp [possLoop]
  | succ m ih =>
    intro i p c k hi hk
    unfold possLoop
    by_cases hb : lessInf b i = true
    · rw [if_pos hb]
      have hbi : b = 0 ∨ i < b := by
        unfold lessInf at hb
        split at hb
        · exact .inl (by assumption)
        · exact .inr (by simpa using hb)
      cases hq : step body p c with
      | stop o =>
        cases o with
        | fail =>
          have h1 := (hs p c hi).1 hq
          by_cases hl : i < a
          · have : lessThan a i = true := by unfold lessThan; rw [if_neg (by omega)]; simpa using hl
            obtain ⟨j, hj⟩ : ∃ j, a - i = j + 1 := ⟨a - i - 1, by omega⟩
            simp [this, hj, times, h1]
          · have : lessThan a i = false := by unfold lessThan; split <;> simp; omega
            have h0 : a - i = 0 := by omega
            simp only [this, Bool.false_eq_true, if_false]
            refine ⟨by simp, ?_⟩
            intro p' c' h
            simp only [Loop.go.injEq] at h
            obtain ⟨rfl, rfl⟩ := h
            exact ⟨by simp [h0, times, most_nil h1], hi, Nat.le_refl _, by omega⟩
        | ok c' => exact absurd hq step_ne_ok
        | _ => simp
      | go q d =>
        obtain ⟨h1, h2, h3, h4⟩ := (hs p c hi).2 q d hq
        simp only
        by_cases hl : i < a
        · obtain ⟨j, hj⟩ : ∃ j, a - i = j + 1 := ⟨a - i - 1, by omega⟩
          have hj' : a - (i + 1) = j := by omega
          have := ih (i + 1) q d k h2 (by split <;> rename_i hb0 <;> simp only [hb0, if_true, if_false] at hk <;> omega)
          rw [hj'] at this
          rw [hj, times, h1]
          simp only [List.flatMap_cons, List.flatMap_nil, List.append_nil]
          refine ⟨this.1, ?_⟩
          intro p' c' h
          obtain ⟨h5, h6, h7, _⟩ := this.2 p' c' h
          exact ⟨h5, h6, by omega, fun _ => by omega⟩
        · have h0 : a - i = 0 := by omega
          have h0' : a - (i + 1) = 0 := by omega
          obtain ⟨k, rfl⟩ : ∃ k', k = k' + 1 := by
            refine ⟨k - 1, ?_⟩
            split at hk <;> omega
          have := ih (i + 1) q d k h2 (by split <;> rename_i hb0 <;> simp only [hb0, if_true, if_false] at hk <;> omega)
          rw [h0'] at this
          rw [h0]
          simp only [times, List.flatMap_cons, List.flatMap_nil, List.append_nil, most, h1] at this ⊢
          refine ⟨?_, ?_⟩
          · intro h; exact absurd (this.1 h) most_ne_nil
          · intro p' c' h
            obtain ⟨h5, h6, h7, _⟩ := this.2 p' c' h
            rw [take_one_append most_ne_nil]
            exact ⟨h5, h6, by omega, fun _ => by omega⟩
    · rw [if_neg hb]
      have hbi : b ≠ 0 ∧ b ≤ i := by
        unfold lessInf at hb
        split at hb
        · simp at hb
        · rename_i h; exact ⟨h, by simpa using hb⟩
      have h0 : a - i = 0 := by omega
      have hk0 : k = 0 := by rw [if_neg hbi.1] at hk; omega
      refine ⟨by simp, ?_⟩
      intro p' c' h
      simp only [Loop.go.injEq] at h
      obtain ⟨rfl, rfl⟩ := h
      exact ⟨by simp [h0, hk0, times, most], hi, Nat.le_refl _, by omega⟩
end

end Ctre
