import Verif.Lemmas.Pos
import Verif.Spec.Anchored
import Verif.Model.Wrapper

/-
Anchored patterns do not match after the beginning.
-/
namespace Ctre

/-- Runs of the stack never succeed at a position other than the beginning. -/
def NotLater (ml : Bool) (K : Stack) : Prop :=
  ∀ (C : Cfg) n s p f c, 0 < p → p ≤ s.length → f.ml = ml → OkP (fun _ => False) (eval C n s false p f c K)

theorem NotLater.seq_cons {ml : Bool} {r : Re} {m : List Re} {K : Stack}
    (h0 : m = [] → NotLater ml (.re r :: K)) (h : m ≠ [] → NotLater ml (.re r :: .re (.seq m) :: K)) :
    NotLater ml (.re (.seq (r :: m)) :: K) := by
  intro C n s p f c h1 h2 h3
  cases n with
  | zero => exact .timeout
  | succ n =>
    cases m with
    | nil => exact h0 rfl C n s p f c h1 h2 h3
    | cons r' m => exact h (by simp) C n s p f c h1 h2 h3

theorem NotLater.seq_nil {ml : Bool} {K : Stack} : NotLater ml (.re (.seq []) :: K) := by
  intro C n s p f c h1 h2 h3
  cases n with
  | zero => exact .timeout
  | succ n => exact .fail

theorem NotLater.test {ml : Bool} {K : Stack} {r : Re} (hr : r.isTest = true)
    (h : (∀ U s p f, 0 < p → f.ml = ml → testAt U s p f r ≠ .yes) ∨ NotLater ml K) : NotLater ml (.re r :: K) := by
  intro C n s p f c h1 h2 h3
  cases n with
  | zero => exact .timeout
  | succ n =>
    rw [eval_test (h := hr)]
    split
    · exact .ub
    · exact .fail
    · rename_i hy
      rcases h with h | h
      · exact absurd hy (h _ _ _ _ h1 h3)
      · exact h C n s p f c h1 h2 h3

theorem NotLater.rep {ml : Bool} {K : Stack} {kd : RepKind} {a b : Nat} {m : List Re}
    (h : (0 < a ∧ NotLater ml (items m [.endCycle])) ∨ NotLater ml K) : NotLater ml (.re (.rep kd a b m) :: K) := by
  have key : ∀ (C : Cfg) n s p f c kd, kd ≠ .greedy → 0 < p → p ≤ s.length → f.ml = ml →
      OkP (fun _ => False) (eval C n s false p f c (.re (.rep kd a b m) :: K)) := by
    intro C n s p f c kd hk h1 h2 h3
    cases n with
    | zero => exact .timeout
    | succ n =>
      rcases h with ⟨ha, h⟩ | h
      · have hs : ∀ p c, 0 < p → p ≤ s.length →
            ∃ o, step (fun p c' => eval C n s false p f.notEmpty c' (items m [.endCycle])) p c = .stop o ∧
              OkP (fun _ => False) o := by
          intro p c h1 h2
          unfold step
          cases ho : eval C n s false p f.notEmpty c (items m [.endCycle]) with
          | ok r => exact (h C n s p _ c h1 h2 (by simpa [Flags.notEmpty] using h3) r ho).elim
          | timeout => exact ⟨_, by simp only [ho], .timeout⟩
          | ub => exact ⟨_, by simp only [ho], .ub⟩
          | ill => exact ⟨_, by simp only [ho], .ill⟩
          | fail => exact ⟨_, by simp only [ho], .fail⟩
        obtain ⟨o, ho, hP⟩ := hs p c h1 h2
        cases kd with
        | greedy => exact absurd rfl hk
        | lazy =>
          simp only [eval_lazy]
          split
          · exact .fail
          · simp only [Bool.false_eq_true, if_false]
            obtain ⟨a, rfl⟩ : ∃ k, a = k + 1 := ⟨a - 1, by omega⟩
            simp only [mandLoop, ho]
            exact hP
        | poss =>
          simp only [eval_poss]
          split
          · exact .fail
          · simp only [Bool.false_eq_true, if_false]
            split
            · exact possLoop_stop_P (by assumption)
            · rename_i p' c' hl
              cases n with
              | zero => simp [possLoop] at hl
              | succ n =>
                unfold possLoop at hl
                rw [if_pos (by simp only [lessInf]; split <;> simp; omega)] at hl
                rw [ho] at hl
                cases o with
                | fail =>
                  simp only at hl
                  rw [if_pos (by simp [lessThan]; omega)] at hl
                  simp at hl
                | _ => simp at hl
      · have hloop : StepP (fun p _ => 0 < p ∧ p ≤ s.length)
            (fun p c' => eval C n s false p f.notEmpty c' (items m [.endCycle])) := by
          rintro p c p' c' ⟨h1, h2⟩ h
          unfold step at h
          split at h
          · rename_i r hr
            obtain ⟨e, he, h3, h4⟩ := eval_end C n s false p f.notEmpty c _ h2 (endsPos_items (by simp [endsPos])) r hr
            rw [he] at h
            simp only [Loop.go.injEq] at h
            omega
          · simp at h
        have ht : ∀ p c x, (0 < p ∧ p ≤ s.length) → OkP (fun _ => False) (eval C n s false p (f.consumed x) c K) := by
          intro p c x hp
          exact h C n s p _ c hp.1 hp.2 (by cases x <;> simpa [Flags.consumed] using h3)
        cases kd with
        | greedy => exact absurd rfl hk
        | lazy => exact lazy_P (I := fun p _ => 0 < p ∧ p ≤ s.length) ⟨h1, h2⟩ hloop ht
        | poss => exact poss_P (I := fun p _ => 0 < p ∧ p ≤ s.length) ⟨h1, h2⟩ hloop ht
  intro C n s p f c h1 h2 h3
  by_cases hk : kd = .greedy
  · subst hk
    cases n with
    | zero => exact .timeout
    | succ n =>
      have hp := key C n s p f c .poss (by simp) h1 h2 h3
      rcases h with ⟨ha, h⟩ | h
      · simp only [eval_greedy, greedyRecRef_eq, ite_self]
        split
        · exact .fail
        · simp only [Bool.false_eq_true, if_false]
          generalize (if C.greedyOpt = true then loopCollides m K else some true) = g
          rcases g with _ | _ | _
          · exact .ill
          · exact hp
          · dsimp only
            obtain ⟨a, rfl⟩ : ∃ k, a = k + 1 := ⟨a - 1, by omega⟩
            unfold mandLoop step
            cases ho : eval C n s false p f.notEmpty c (items m [.endCycle]) with
            | ok r => exact (h C n s p _ c h1 h2 (by simpa [Flags.notEmpty] using h3) r ho).elim
            | _ => intro r hr; simp [ho] at hr
      · refine greedy_P (I := fun p _ => 0 < p ∧ p ≤ s.length) ⟨h1, h2⟩ ?_ ?_ hp
        · rintro p c p' c' ⟨h1, h2⟩ h
          unfold step at h
          split at h
          · rename_i r hr
            obtain ⟨e, he, h3, h4⟩ := eval_end C n s false p f.notEmpty c _ h2 (endsPos_items (by simp [endsPos])) r hr
            rw [he] at h
            simp only [Loop.go.injEq] at h
            omega
          · simp at h
        · intro p c x hp
          exact h C n s p _ c hp.1 hp.2 (by cases x <;> simpa [Flags.consumed] using h3)
  · exact key C n s p f c kd hk h1 h2 h3

theorem anchored_notLater {ml : Bool} (r : Re) : ∀ k, r.anchored ml k = true → ∀ K, (k = true → NotLater ml K) →
    NotLater ml (.re r :: K) := by
  induction r using Re.rec (motive_2 := fun m =>
    (∀ k, anchoredSeq ml k m = true → ∀ K, (k = true → NotLater ml K) →
      NotLater ml (items m K) ∧ NotLater ml (.re (.seq m) :: K)) ∧
    (∀ k, anchoredAlts ml k m = true → ∀ K, (k = true → NotLater ml K) → NotLater ml (.re (.sel m) :: K))) with
  | nil =>
    refine ⟨fun k hk K hK => ⟨hK hk, NotLater.seq_nil⟩, fun k hk K hK => ?_⟩
    intro C n s p f c h1 h2 h3
    cases n with
    | zero => exact .timeout
    | succ n => exact .fail
  | cons r m ih1 ih2 =>
    refine ⟨fun k hk K hK => ⟨?_, ?_⟩, fun k hk K hK => ?_⟩
    · simp only [anchoredSeq] at hk
      exact ih1 _ hk _ (fun h => (ih2.1 k h K hK).1)
    · simp only [anchoredSeq] at hk
      refine NotLater.seq_cons ?_ ?_
      · rintro rfl
        simp only [anchoredSeq] at hk
        exact ih1 _ hk _ hK
      · intro _
        exact ih1 _ hk _ (fun h => (ih2.1 k h K hK).2)
    · simp only [anchoredAlts, Bool.and_eq_true] at hk
      intro C n s p f c h1 h2 h3
      cases n with
      | zero => exact .timeout
      | succ n =>
        rw [eval_sel_cons]
        exact (ih1 _ hk.1 K hK C n s p f c h1 h2 h3).orElse (ih2.2 k hk.2 K hK C n s p f c h1 h2 h3)
  | seq m ih => intro k hk K hK; simp only [Re.anchored] at hk; exact (ih.1 k hk K hK).2
  | sel m ih => intro k hk K hK; simp only [Re.anchored] at hk; exact ih.2 k hk K hK
  | cap id name m ih =>
    intro k hk K hK
    simp only [Re.anchored] at hk
    intro C n s p f c h1 h2 h3
    cases n with
    | zero => exact .timeout
    | succ n =>
      rw [eval_cap]
      simp only [Bool.false_eq_true, if_false]
      split
      · exact .ill
      · refine (ih.1 k hk (.numMark id :: K) ?_).2 C n s p f _ h1 h2 h3
        intro hk' C n s p f c h1 h2 h3
        cases n with
        | zero => exact .timeout
        | succ n =>
          rw [eval_numMark]
          simp only [Bool.false_eq_true, if_false]
          split
          · exact .ill
          · exact hK hk' C n s p f _ h1 h2 h3
  | rep kd a b m ih =>
    intro k hk K hK
    simp only [Re.anchored, Bool.and_eq_true, Bool.or_eq_true, decide_eq_true_eq] at hk
    refine NotLater.rep ?_
    cases k with
    | true => exact .inr (hK rfl)
    | false =>
      refine .inl ⟨by simpa using hk.2, (ih.1 false hk.1 [.endCycle] (by simp)).1⟩
  | sBegin =>
    intro k hk K hK
    exact NotLater.test rfl (.inl fun U s p f hp hf => by simp [testAt]; omega)
  | lBegin =>
    intro k hk K hK
    simp only [Re.anchored, Bool.or_eq_true, Bool.not_eq_true'] at hk
    rcases hk with hk | hk
    · subst hk
      refine NotLater.test rfl (.inl fun U s p f hp hf => ?_)
      simp only [testAt, hf, Bool.false_eq_true, if_false]
      rw [if_neg (by omega)]; simp
    · exact NotLater.test rfl (.inr (hK hk))
  | boundary _ | notBoundary _ | sEnd | sEndLine | lEnd =>
    intro k hk K hK
    exact NotLater.test rfl (.inr (hK hk))
  | _ => intros; simp_all [Re.anchored]

theorem anchored_mono {ml : Bool} (r : Re) : ∀ k k' : Bool, (k = true → k' = true) → r.anchored ml k = true →
    r.anchored ml k' = true := by
  induction r using Re.rec (motive_2 := fun m =>
    (∀ k k' : Bool, (k = true → k' = true) → anchoredSeq ml k m = true → anchoredSeq ml k' m = true) ∧
    (∀ k k' : Bool, (k = true → k' = true) → anchoredAlts ml k m = true → anchoredAlts ml k' m = true)) with
  | nil => exact ⟨fun k k' hk h => hk h, fun _ _ _ _ => rfl⟩
  | cons r m ih1 ih2 =>
    refine ⟨fun k k' hk h => ih1 _ _ (ih2.1 k k' hk) h, fun k k' hk h => ?_⟩
    simp only [anchoredAlts, Bool.and_eq_true] at h ⊢
    exact ⟨ih1 _ _ hk h.1, ih2.2 _ _ hk h.2⟩
  | seq m ih => intro k k' hk h; exact ih.1 k k' hk h
  | sel m ih => intro k k' hk h; exact ih.2 k k' hk h
  | cap id name m ih => intro k k' hk h; exact ih.1 k k' hk h
  | rep kd a b m ih =>
    intro k k' hk h
    simp only [Re.anchored, Bool.and_eq_true, Bool.or_eq_true] at h ⊢
    exact ⟨ih.1 k k' hk h.1, h.2.imp id hk⟩
  | sBegin => intros; rfl
  | lBegin =>
    intro k k' hk h
    simp only [Re.anchored, Bool.or_eq_true] at h ⊢
    exact h.imp id hk
  | boundary _ | notBoundary _ | sEnd | sEndLine | lEnd => intro k k' hk h; exact hk h
  | _ => intros; simp_all [Re.anchored]

theorem anchored_of_anchorRe (f : Flags) (r : Re) : ∀ k k' : Bool, (k = true → k' = true) →
    r.noStarsBefore f.ml = true → anchorRe f k r = true → r.anchored f.ml k' = true := by
  induction r using Re.rec (motive_2 := fun m =>
    (∀ k k' : Bool, (k = true → k' = true) → noStarsSeq f.ml m = true → anchorSeq f k m = true →
      anchoredSeq f.ml k' m = true) ∧
    (∀ k k' : Bool, (k = true → k' = true) → noStarsAlts f.ml m = true → anchorSel f k m = true →
      anchoredAlts f.ml k' m = true)) with
  | nil => exact ⟨fun k k' hk _ h => hk h, fun _ _ _ _ _ => rfl⟩
  | cons r m ih1 ih2 =>
    refine ⟨fun k k' hk hs h => ?_, fun k k' hk hs h => ?_⟩
    · simp only [noStarsSeq, Bool.and_eq_true, Bool.or_eq_true] at hs
      rcases hs.2 with h2 | h2
      · exact anchored_mono r false _ (by simp) h2
      · exact ih1 _ _ (ih2.1 k k' hk h2) hs.1 h
    · simp only [noStarsAlts, Bool.and_eq_true] at hs
      simp only [anchorSel, Bool.and_eq_true] at h
      simp only [anchoredAlts, Bool.and_eq_true]
      exact ⟨ih1 _ _ hk hs.1 h.1, ih2.2 _ _ hk hs.2 h.2⟩
  | seq m ih => intro k k' hk hs h; exact ih.1 k k' hk hs h
  | sel m ih => intro k k' hk hs h; exact ih.2 k k' hk hs h
  | cap id name m ih =>
    intro k k' hk hs h
    cases name with
    | none => exact ih.1 k k' hk hs h
    | some _ => simp [anchorRe] at h
  | rep kd a b m ih =>
    intro k k' hk hs h
    simp only [Re.noStarsBefore, Bool.and_eq_true, Bool.or_eq_true, decide_eq_true_eq] at hs
    simp only [Re.anchored, Bool.and_eq_true, Bool.or_eq_true, decide_eq_true_eq]
    simp only [anchorRe] at h
    split at h
    · simp only [Bool.and_eq_true] at h
      exact ⟨ih.1 k k' hk hs.2 h.1, .inr (hk h.2)⟩
    · refine ⟨ih.1 k k' hk hs.2 h, .inl ?_⟩
      rename_i hn
      rcases hs.1 with h1 | h1
      · exact h1
      · by_cases ha : a = 0
        · exact absurd ⟨ha, h1⟩ hn
        · omega
  | sBegin => intros; rfl
  | lBegin =>
    intro k k' hk hs h
    simp only [anchorRe, Bool.or_eq_true] at h
    simp only [Re.anchored, Bool.or_eq_true]
    exact h.imp id hk
  | boundary _ => intro k k' hk hs h; exact hk h
  | _ => intros; simp_all [anchorRe]

end Ctre
