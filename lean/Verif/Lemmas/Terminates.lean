import Verif.Spec.Terminates
import Verif.Lemmas.Pos

/-
Progress of loop iterations and termination.
-/
namespace Ctre

/-- Successful iterations of a list of parts consume something. -/
def progress (l : List Re) : Bool := movesAny l || honestAll l

/-- Every success of the stack consumes something. -/
def movesSt : Stack → Bool
  | [] => false
  | .re r :: t => r.moves || movesSt t
  | _ :: t => movesSt t

/-- The stack is the rest of a loop iteration and keeps the demand for consumption. -/
def honestSt : Stack → Bool
  | [] => false
  | [.endCycle] => true
  | .re r :: t => r.honest && honestSt t
  | .numMark _ :: t => honestSt t
  | _ => false

/-- A success of the stack with these flags consumes something. -/
def Moves (f : Flags) (st : Stack) : Prop := movesSt st = true ∨ (f.blk = true ∧ honestSt st = true)

theorem movesSt_items (l : List Re) (t : Stack) : movesSt (items l t) = (movesAny l || movesSt t) := by
  induction l with
  | nil => simp [items, movesAny]
  | cons r l ih => simp only [items, List.map_cons, List.cons_append, movesSt, movesAny] at *; rw [ih, Bool.or_assoc]

theorem honestSt_items (l : List Re) (t : Stack) : honestSt (items l t) = (honestAll l && honestSt t) := by
  induction l with
  | nil => simp [items, honestAll]
  | cons r l ih => simp only [items, List.map_cons, List.cons_append, honestSt, honestAll] at *; rw [ih, Bool.and_assoc]

theorem moves_items {l : List Re} {f : Flags} (h : progress l = true) : Moves f.notEmpty (items l [.endCycle]) := by
  unfold Moves
  rw [movesSt_items, honestSt_items]
  simp only [progress, Bool.or_eq_true] at h
  rcases h with h | h
  · exact .inl (by simp [h])
  · exact .inr ⟨rfl, by simp [h, honestSt]⟩

/-- Iterations move strictly. -/
def StepUp (s : List Ch) (body : Nat → Caps → Out) : Prop :=
  ∀ p c p' c', p ≤ s.length → step body p c = .go p' c' → p < p' ∧ p' ≤ s.length

/-- Iterations do not move back. -/
def StepOn (s : List Ch) (body : Nat → Caps → Out) : Prop :=
  ∀ p c p' c', p ≤ s.length → step body p c = .go p' c' → p ≤ p' ∧ p' ≤ s.length

theorem stepOn_eval (C : Cfg) (n : Nat) (s : List Ch) (lb : Bool) (f : Flags) (m : List Re) :
    StepOn s (fun p c' => eval C n s lb p f c' (items m [.endCycle])) := by
  intro p c p' c' h2 h
  unfold step at h
  split at h
  · rename_i r hr
    obtain ⟨e, he, h3, h4⟩ := eval_end C n s lb p f c _ h2 (endsPos_items (by simp [endsPos])) r hr
    rw [he] at h
    simp only [Loop.go.injEq] at h
    omega
  · simp at h

section loops
variable {s : List Ch} {body tail : Nat → Caps → Out} {Q : Caps → Prop}

theorem mandLoop_on (hs : StepOn s body) (a : Nat) : ∀ p c p' c', p ≤ s.length → mandLoop body a p c = .go p' c' →
    p ≤ p' ∧ p' ≤ s.length := by
  induction a with
  | zero => intro p c p' c' hp h; simp only [mandLoop, Loop.go.injEq] at h; omega
  | succ a ih =>
    intro p c p' c' hp h
    unfold mandLoop at h
    cases hq : step body p c with
    | stop o => simp [hq] at h
    | go q d =>
      rw [hq] at h
      have h1 := hs _ _ _ _ hp hq
      have h2 := ih q d p' c' h1.2 h
      omega

theorem mandLoop_up (hs : StepUp s body) {a : Nat} (ha : 1 ≤ a) {p : Nat} {c : Caps} {p' : Nat} {c' : Caps}
    (hp : p ≤ s.length) (h : mandLoop body a p c = .go p' c') : p < p' := by
  obtain ⟨a, rfl⟩ : ∃ m, a = m + 1 := ⟨a - 1, by omega⟩
  unfold mandLoop at h
  cases hq : step body p c with
  | stop o => simp [hq] at h
  | go q d =>
    rw [hq] at h
    have h1 := hs _ _ _ _ hp hq
    have h2 := mandLoop_on (fun p c p' c' hp h => ⟨Nat.le_of_lt (hs p c p' c' hp h).1, (hs p c p' c' hp h).2⟩) a _ _ _ _ h1.2 h
    omega

theorem possLoop_on (hs : StepOn s body) {a b : Nat} (m : Nat) : ∀ i p c p' c', p ≤ s.length →
    possLoop body a b m i p c = .go p' c' → p ≤ p' ∧ p' ≤ s.length := by
  induction m with
  | zero => intro i p c p' c' hi h; simp [possLoop] at h
  | succ m ih =>
    intro i p c p' c' hi h
    unfold possLoop at h
    split at h
    · cases hq : step body p c with
      | stop o =>
        rw [hq] at h
        cases o with
        | fail =>
          simp only at h
          split at h
          · simp at h
          · simp only [Loop.go.injEq] at h; omega
        | _ => simp at h
      | go q d =>
        rw [hq] at h
        have h1 := hs _ _ _ _ hi hq
        have h2 := ih _ _ _ _ _ h1.2 h
        omega
    · simp only [Loop.go.injEq] at h; omega

theorem possLoop_up (hs : StepUp s body) {a b : Nat} (ha : 1 ≤ a) {m p : Nat} {c : Caps} {p' : Nat} {c' : Caps}
    (hp : p ≤ s.length) (h : possLoop body a b m 0 p c = .go p' c') : p < p' := by
  cases m with
  | zero => simp [possLoop] at h
  | succ m =>
    unfold possLoop at h
    have hl : lessInf b 0 = true := by unfold lessInf; split <;> simp; omega
    rw [if_pos hl] at h
    cases hq : step body p c with
    | stop o =>
      rw [hq] at h
      cases o with
      | fail =>
        have : lessThan a 0 = true := by unfold lessThan; rw [if_neg (by omega)]; simp; omega
        simp [this] at h
      | _ => simp at h
    | go q d =>
      rw [hq] at h
      have h1 := hs _ _ _ _ hp hq
      have h2 := possLoop_on (fun p c p' c' hp h => ⟨Nat.le_of_lt (hs p c p' c' hp h).1, (hs p c p' c' hp h).2⟩) _ _ _ _ _ _ h1.2 h
      omega

/-- The lazy loop: the tail is tried only after an iteration, or with the upper bound reached. -/
theorem lazyLoop_I {I : Nat → Nat → Prop} (hs : ∀ i p c p' c', I i p → step body p c = .go p' c' → I (i + 1) p') {b : Nat}
    (ht : ∀ i p c, 1 ≤ i → I i p → OkP Q (tail p c)) (m : Nat) :
    ∀ i p c, I i p → OkP Q (lazyLoop body tail b m i p c) := by
  induction m with
  | zero => intro i p c hi; exact .timeout
  | succ m ih =>
    intro i p c hi
    rw [lazyLoop_succ]
    split
    · cases hq : step body p c with
      | stop o => exact step_stop_P hq
      | go q d =>
        have h1 := hs _ _ _ _ _ hi hq
        exact (ht _ _ _ (by omega) h1).orElse (ih _ _ _ h1)
    · rename_i h
      refine ht _ _ _ ?_ hi
      unfold lessInf at h
      split at h
      · simp at h
      · simp at h; omega

end loops

theorem matchRangeBack_move {s : List Ch} {cur rc re p : Nat} (n : Nat) (hne : rc ≠ re)
    (h : matchRangeBack s n cur rc re = .yes p) (hcur : cur ≤ s.length) : cur < p := by
  unfold matchRangeBack at h
  split at h
  · simp [hne] at h
  · rename_i hc
    split at h
    · split at h
      · split at h
        · cases h
        · have := matchRangeBack_yes _ h (by omega); omega
      · cases h
    · cases h

theorem brefCmp_move {s : List Ch} {cur p : Nat} {sl : Option Slot} (hcur : cur ≤ s.length)
    (h : brefCmp s cur sl = some (.yes p, true)) : cur < p := by
  unfold brefCmp at h
  split at h
  · simp at h
  · split at h
    · split at h
      · simp only [Option.some.injEq, Prod.mk.injEq, decide_eq_true_eq] at h
        exact matchRangeBack_move _ h.2 h.1 hcur
      · simp at h
    · simp at h

theorem honestSt_tail {r : Re} {t : Stack} (h : honestSt (.re r :: t) = true) : r.honest = true ∧ honestSt t = true := by
  simpa [honestSt] using h

/-- A success of a moving stack moves. -/
theorem eval_moves (C : Cfg) : ∀ n s lb cur f c st, cur ≤ s.length → endsPos st → Moves f st →
    OkP (EndAfter s (cur + 1)) (eval C n s lb cur f c st) := by
  intro n
  induction n with
  | zero => intros; exact .timeout
  | succ n ih =>
    intro s lb cur f c st hcur hst hm
    rcases st with _ | ⟨it, t⟩
    · exact hst.elim
    · cases it with
      | accept =>
        cases t with
        | nil => exact hst.elim
        | cons => exact .fail
      | endAhead =>
        cases t with
        | nil => exact hst.elim
        | cons => exact .fail
      | endBehind =>
        cases t with
        | nil => exact hst.elim
        | cons => exact .fail
      | endCycle =>
        cases t with
        | cons => exact .fail
        | nil =>
          rw [eval_endCycle]
          split
          · exact .ill
          · rcases hm with hm | hm
            · simp [movesSt] at hm
            · rw [if_pos hm.1]; exact .fail
      | startMark =>
        rw [eval_startMark]
        split
        · exact .ill
        · refine ih _ _ _ _ _ _ hcur (endsPos_of_cons_start hst) ?_
          rcases hm with hm | hm
          · exact .inl hm
          · simp [honestSt] at hm
      | numMark id =>
        rw [eval_numMark]
        split
        · exact .ill
        · split
          · exact .ill
          · exact ih _ _ _ _ _ _ hcur (endsPos_of_cons_num hst) hm
      | endMark =>
        rw [eval_endMark]
        split
        · exact .ill
        · have hct : movesSt t = true := by
            rcases hm with hm | hm
            · exact hm
            · simp [honestSt] at hm
          have : endsPos t := by
            unfold endsPos at hst
            split at hst <;> simp_all [movesSt]
          exact ih _ _ _ _ _ _ hcur this (.inl hct)
      | re r =>
        have hst' : endsPos t := endsPos_of_cons_re hst
        -- after moving
        have far : ∀ p f c, cur < p → p ≤ s.length → OkP (EndAfter s (cur + 1)) (eval C n s lb p f c t) := by
          intro p f c h1 h2 r hr
          exact (eval_end C n s lb p f c t h2 hst' r hr).mono h1
        -- without moving
        have near : r.moves = false → ∀ c, OkP (EndAfter s (cur + 1)) (eval C n s lb cur f c t) := by
          intro hr c
          refine ih _ _ _ _ _ _ hcur hst' ?_
          rcases hm with hm | hm
          · exact .inl (by simpa [movesSt, hr] using hm)
          · exact .inr ⟨hm.1, (honestSt_tail hm.2).2⟩
        have go : ∀ st', endsPos st' → (movesSt (.re r :: t) = true → movesSt st' = true) →
            (honestSt (.re r :: t) = true → movesSt st' = true ∨ honestSt st' = true) → ∀ c,
            OkP (EndAfter s (cur + 1)) (eval C n s lb cur f c st') := by
          intro st' h1 h2 h3 c
          refine ih _ _ _ _ _ _ hcur h1 ?_
          rcases hm with hm | hm
          · exact .inl (h2 hm)
          · rcases h3 hm.2 with h | h
            · exact .inl h
            · exact .inr ⟨hm.1, h⟩
        have hup : ∀ m, progress m = true →
            StepUp s (fun p c' => eval C n s lb p f.notEmpty c' (items m [.endCycle])) := by
          intro m hmm p c p' c' hp h
          unfold step at h
          split at h
          · rename_i r hr
            obtain ⟨e, he, h3, h4⟩ := ih s lb p f.notEmpty c _ hp (endsPos_items (by simp [endsPos])) (moves_items hmm) r hr
            rw [he] at h
            simp only [Loop.go.injEq] at h
            omega
          · simp at h
        have hon : ∀ m, StepOn s (fun p c' => eval C n s lb p f.notEmpty c' (items m [.endCycle])) :=
          fun m => stepOn_eval C n s lb f.notEmpty m
        have hrep : ∀ {k a b m}, r = .rep k a b m → r.moves = true → 1 ≤ a ∧ progress m = true := by
          rintro k a b m rfl h
          simpa [Re.moves, progress] using h
        -- the possessive loop
        have hposs : ∀ {k a b m}, r = .rep k a b m → ∀ {p' c'}, 
            possLoop (fun p c' => eval C n s lb p f.notEmpty c' (items m [.endCycle])) a b n 0 cur c = .go p' c' →
            OkP (EndAfter s (cur + 1)) (eval C n s lb p' (f.consumed (decide (cur ≠ p'))) c' t) := by
          intro k a b m hr p' c' hq
          have h1 := possLoop_on (hon m) _ _ _ _ _ _ hcur hq
          by_cases hp : cur < p'
          · exact far _ _ _ hp h1.2
          · have : p' = cur := by omega
            subst this
            simp only [ne_eq, not_true, decide_false, Flags.consumed, Bool.false_eq_true, if_false]
            apply near
            cases hc : r.moves with
            | false => rfl
            | true =>
              have h2 := hrep hr hc
              have := possLoop_up (hup m h2.2) h2.1 hcur hq
              omega
        cases r with
        | cc cl =>
          rw [eval_cc]
          split
          · exact .fail
          · split
            · exact .ub
            · split
              · exact far _ _ _ (by omega) (by omega)
              · exact .fail
        | any =>
          rw [eval_any]
          split
          · exact .fail
          · split
            · split
              · exact .ub
              · split
                · exact .fail
                · exact far _ _ _ (by omega) (by omega)
            · exact far _ _ _ (by omega) (by omega)
        | str cs =>
          rw [eval_str]
          split
          · exact .ub
          · exact .fail
          · rename_i p hp
            have := matchString_yes hp
            cases cs with
            | nil =>
              simp only [matchString, Cmp.yes.injEq] at hp
              subst hp
              simp only [List.length_nil, Nat.lt_irrefl, decide_false, Flags.consumed, Bool.false_eq_true, if_false]
              exact near rfl _
            | cons x cs => exact far _ _ _ (by simp at this; omega) (this.2 hcur)
        | sel l =>
          cases l with
          | nil => exact .fail
          | cons r opts =>
            rw [eval_sel_cons]
            refine .orElse (go _ (endsPos_cons hst') ?_ ?_ _) (go _ (endsPos_cons hst') ?_ ?_ _)
            all_goals simp only [movesSt, honestSt, Re.moves, Re.honest, movesAll, honestAll, Bool.or_eq_true, Bool.and_eq_true]
            · rintro (⟨h, _⟩ | h) <;> simp [h]
            · rintro ⟨⟨h, _⟩, h'⟩; simp [h, h']
            · rintro (⟨_, h⟩ | h) <;> simp [h]
            · rintro ⟨⟨_, h⟩, h'⟩; simp [h, h']
        | seq l =>
          rcases l with _ | ⟨r, _ | ⟨r', m⟩⟩
          · exact .fail
          · refine go _ (endsPos_cons hst') ?_ ?_ _
            all_goals simp only [movesSt, honestSt, Re.moves, Re.honest, movesAny, honestAll, Bool.or_eq_true, Bool.and_eq_true, Bool.or_false, Bool.and_true]
            · rintro (h | h) <;> simp [h]
            · rintro ⟨h | h, h'⟩ <;> simp [h, h']
          · refine go _ (endsPos_cons (endsPos_cons hst')) ?_ ?_ _
            all_goals simp only [movesSt, honestSt, Re.moves, Re.honest, movesAny, honestAll, Bool.or_eq_true, Bool.and_eq_true, Bool.or_false, Bool.and_true]
            · rintro ((h | h | h) | h) <;> simp [h]
            · rintro ⟨(h | h | h) | h, h'⟩ <;> simp [h, h']
        | empty => exact near rfl _
        | rep k a b m =>
          cases k with
          | lazy =>
            simp only [eval_lazy]
            split
            · exact .fail
            · split
              · exact .ill
              · split
                · exact mandLoop_stop_P _ (by assumption)
                · rename_i p' c' hq
                  have h1 := mandLoop_on (hon m) _ _ _ _ _ hcur hq
                  by_cases hp : cur < p'
                  · refine .orElse (far _ _ _ hp h1.2) ?_
                    refine lazyLoop_I (I := fun _ p => cur < p ∧ p ≤ s.length) ?_ ?_ _ _ _ _ ⟨hp, h1.2⟩
                    · intro i p c p' c' hI h
                      have := hon m _ _ _ _ hI.2 h
                      omega
                    · intro i p c _ hI; exact far _ _ _ hI.1 hI.2
                  · have : p' = cur := by omega
                    subst this
                    have hc : Re.moves (.rep .lazy a b m) = false := by
                      cases hc : Re.moves (.rep .lazy a b m) with
                      | false => rfl
                      | true =>
                        have h2 := hrep rfl hc
                        have := mandLoop_up (hup m h2.2) h2.1 hcur hq
                        omega
                    simp only [ne_eq, not_true, decide_false, Flags.consumed, Bool.false_eq_true, if_false]
                    refine .orElse (near hc _) ?_
                    cases hpr : progress m with
                    | true =>
                      have ha : a = 0 := by
                        by_cases ha : 1 ≤ a
                        · simp [Re.moves, progress] at hc hpr
                          have := hc ha
                          simp_all
                        · omega
                      subst ha
                      refine lazyLoop_I (I := fun i p => p' ≤ p ∧ p ≤ s.length ∧ (1 ≤ i → p' < p)) ?_ ?_ _ _ _ _
                        ⟨Nat.le_refl _, hcur, by omega⟩
                      · intro i p c p' c' hI h
                        have := hup m hpr _ _ _ _ hI.2.1 h
                        omega
                      · intro i p c h1 hI; exact far _ _ _ (hI.2.2 h1) hI.2.1
                    | false =>
                      have hct : movesSt t = true := by
                        rcases hm with hm | hm
                        · simpa [movesSt, hc] using hm
                        · have := (honestSt_tail hm.2).1
                          simp only [Re.honest] at this
                          simp [progress] at hpr
                          simp [hpr] at this
                      refine lazyLoop_I (I := fun i p => p' ≤ p ∧ p ≤ s.length) ?_ ?_ _ _ _ _ ⟨Nat.le_refl _, hcur⟩
                      · intro i p c p' c' hI h
                        have := hon m _ _ _ _ hI.2 h
                        omega
                      · intro i p c h1 hI r hr
                        exact (ih _ _ _ _ _ _ hI.2 hst' (.inl hct) r hr).mono (by omega)
          | poss =>
            simp only [eval_poss]
            split
            · exact .fail
            · split
              · exact .ill
              · split
                · exact possLoop_stop_P (by assumption)
                · rename_i hq; exact hposs rfl hq
          | greedy =>
            simp only [eval_greedy, greedyRecRef_eq, ite_self]
            split
            · exact .fail
            · split
              · exact .ill
              · generalize (if C.greedyOpt = true then loopCollides m t else some true) = g
                rcases g with _ | _ | _
                · exact .ill
                · refine go _ (endsPos_cons hst') ?_ ?_ _
                  · simp [movesSt, Re.moves]
                  · intro h; right; have := (honestSt_tail h).2; simp [honestSt, Re.honest, this]
                · dsimp only
                  split
                  · exact mandLoop_stop_P _ (by assumption)
                  · rename_i p' c' hq
                    have h1 := mandLoop_on (hon m) _ _ _ _ _ hcur hq
                    by_cases hp : cur < p'
                    · refine greedyRec_P (I := fun p _ => cur < p ∧ p ≤ s.length) ?_ ?_ _ _ _ _ ⟨hp, h1.2⟩
                      · rintro p c p' c' hI h
                        have := hon m _ _ _ _ hI.2 h
                        omega
                      · rintro p c hI; exact far _ _ _ hI.1 hI.2
                    · have hct : movesSt t = true := by
                        have hno : ¬ (1 ≤ a ∧ progress m = true) := by
                          rintro ⟨ha, hpr⟩
                          have := mandLoop_up (hup m hpr) ha hcur hq
                          omega
                        rcases hm with hm | hm
                        · simp only [movesSt, Bool.or_eq_true] at hm
                          rcases hm with hm | hm
                          · exact (hno (hrep rfl hm)).elim
                          · exact hm
                        · have := (honestSt_tail hm.2).1
                          simp only [Re.honest, Bool.and_eq_true, decide_eq_true_eq] at this
                          exact (hno this).elim
                      refine greedyRec_P (I := fun p _ => cur ≤ p ∧ p ≤ s.length) ?_ ?_ _ _ _ _ ⟨h1.1, h1.2⟩
                      · rintro p c p' c' hI h
                        have := hon m _ _ _ _ hI.2 h
                        omega
                      · intro p c hI r hr
                        exact (ih _ _ _ _ _ _ hI.2 hst' (.inl hct) r hr).mono (by omega)
        | cap id name m =>
          rw [eval_cap]
          split
          · exact .ill
          · split
            · exact .ill
            · refine go _ (endsPos_cons (endsPos_cons hst')) ?_ ?_ _
              · simp [movesSt, Re.moves]
              · simp only [movesSt, honestSt, Re.moves, Re.honest, Bool.or_eq_true, Bool.and_eq_true]
                rintro ⟨h | h, h'⟩ <;> simp [h, h']
        | bref id =>
          rw [eval_bref]
          split
          · exact .ill
          · split
            · exact .ill
            · exact .ub
            · exact .fail
            · rename_i p x hp
              have h1 := brefCmp_pos hcur hp
              cases x with
              | true => exact far _ _ _ (brefCmp_move hcur hp) h1.2
              | false =>
                by_cases hpc : cur < p
                · exact far _ _ _ hpc h1.2
                · have : p = cur := by omega
                  subst this
                  exact near rfl _
        | brefName id =>
          rw [eval_brefName]
          split
          · exact .ill
          · split
            · exact .ill
            · exact .ub
            · exact .fail
            · rename_i p x hp
              have h1 := brefCmp_pos hcur hp
              cases x with
              | true => exact far _ _ _ (brefCmp_move hcur hp) h1.2
              | false =>
                by_cases hpc : cur < p
                · exact far _ _ _ hpc h1.2
                · have : p = cur := by omega
                  subst this
                  exact near rfl _
        | ahead pos m =>
          rw [eval_ahead]
          split
          · split
            · exact near rfl _
            · exact .fail
          · split
            · exact .fail
            · exact near rfl _
          · rename_i h1 h2; intro r hr; exact absurd hr (h1 r)
        | behind pos m =>
          rw [eval_behind]
          split
          · split
            · exact near rfl _
            · exact .fail
          · split
            · exact .fail
            · exact near rfl _
          · rename_i h1 h2; intro r hr; exact absurd hr (h1 r)
        | atomic m =>
          rw [eval_atomic]
          refine go _ (endsPos_cons hst') ?_ ?_ _
          · simp [movesSt, Re.moves]
          · intro h; right; have := (honestSt_tail h).2; simp [honestSt, Re.honest, this]
        | mode md =>
          rw [eval_mode]
          refine ih _ _ _ _ _ _ hcur hst' ?_
          rcases hm with hm | hm
          · exact .inl (by simpa [movesSt, Re.moves] using hm)
          · exact .inr ⟨by rw [← hm.1]; cases md <;> rfl, (honestSt_tail hm.2).2⟩
        | reject => exact .fail
        | boundary _ | notBoundary _ | sBegin | sEnd | sEndLine | lBegin | lEnd =>
          rw [eval_test (h := rfl)]
          split
          · exact .ub
          · exact .fail
          · exact near rfl _

/-- Weight of a stack. -/
def weightSt : Stack → Nat
  | [] => 1
  | .re r :: t => r.weight + weightSt t
  | _ :: t => 1 + weightSt t

/-- All patterns of the stack terminate. -/
def progressiveSt : Stack → Bool
  | [] => true
  | .re r :: t => r.progressive && progressiveSt t
  | _ :: t => progressiveSt t

theorem Re.weight_pos (r : Re) : 1 ≤ r.weight := by
  cases r with
  | rep k a b l => cases k <;> simp only [Re.weight] <;> omega
  | _ => simp only [Re.weight] <;> omega

theorem weightSt_pos (t : Stack) : 1 ≤ weightSt t := by
  induction t with
  | nil => simp [weightSt]
  | cons i t ih => cases i <;> simp only [weightSt] <;> omega

theorem weightSt_items (l : List Re) (t : Stack) : weightSt (items l t) ≤ weightAll l + weightSt t := by
  induction l with
  | nil => simp [items, weightAll]
  | cons r l ih => simp only [items, List.map_cons, List.cons_append, weightSt, weightAll] at *; omega

theorem progressiveSt_items (l : List Re) (t : Stack) : progressiveSt (items l t) = (progressiveAll l && progressiveSt t) := by
  induction l with
  | nil => simp [items, progressiveAll]
  | cons r l ih =>
    simp only [items, List.map_cons, List.cons_append, progressiveSt, progressiveAll] at *; rw [ih, Bool.and_assoc]

section loops
variable {s : List Ch} {body tail : Nat → Caps → Out}

theorem step_no_timeout {p : Nat} {c : Caps} (hb : body p c ≠ .timeout) : step body p c ≠ .stop .timeout := by
  unfold step
  cases h : body p c with
  | ok c' => dsimp only; cases c'.whole.e <;> simp
  | timeout => exact (hb h).elim
  | _ => simp

theorem mandLoop_no_timeout (hb : ∀ p c, p ≤ s.length → body p c ≠ .timeout) (hs : StepOn s body) (a : Nat) :
    ∀ p c, p ≤ s.length → mandLoop body a p c ≠ .stop .timeout := by
  induction a with
  | zero => intro p c _; simp [mandLoop]
  | succ a ih =>
    intro p c hp
    unfold mandLoop
    have h1 := step_no_timeout (hb p c hp)
    cases hq : step body p c with
    | stop o => rw [hq] at h1; exact h1
    | go q d => exact ih _ _ (hs _ _ _ _ hp hq).2

/-- Enough iterations: the upper bound is reached, or the iterations move and the subject ends. -/
def Enough (s : List Ch) (body : Nat → Caps → Out) (b m i p : Nat) : Prop :=
  (b ≠ 0 ∧ b - i < m) ∨ (StepUp s body ∧ s.length - p < m)

theorem Enough.next {b m i p p' : Nat} {c c' : Caps} (hp : p ≤ s.length) (h : Enough s body b (m + 1) i p)
    (hi : lessInf b i = true) (hq : step body p c = .go p' c') : Enough s body b m (i + 1) p' := by
  rcases h with ⟨h1, h2⟩ | ⟨h1, h2⟩
  · refine .inl ⟨h1, ?_⟩
    unfold lessInf at hi
    rw [if_neg h1] at hi
    simp at hi; omega
  · have := h1 _ _ _ _ hp hq
    exact .inr ⟨h1, by omega⟩

theorem Enough.pos {b m i p : Nat} (h : Enough s body b m i p) : m ≠ 0 := by
  rcases h with h | h <;> omega

theorem possLoop_no_timeout (hb : ∀ p c, p ≤ s.length → body p c ≠ .timeout) (hs : StepOn s body) {a b : Nat} (m : Nat) :
    ∀ i p c, p ≤ s.length → Enough s body b m i p → possLoop body a b m i p c ≠ .stop .timeout := by
  induction m with
  | zero => intro i p c _ h; exact (h.pos rfl).elim
  | succ m ih =>
    intro i p c hp he
    unfold possLoop
    split
    · rename_i hl
      have h1 := step_no_timeout (hb p c hp)
      cases hq : step body p c with
      | stop o =>
        rw [hq] at h1
        cases o with
        | fail => dsimp only; split <;> simp
        | timeout => exact (h1 rfl).elim
        | _ => simp
      | go q d => exact ih _ _ _ (hs _ _ _ _ hp hq).2 (he.next hp hl hq)
    · simp

theorem orElse_no_timeout {o x : Out} (h : o ≠ .timeout) (h' : x ≠ .timeout) : o.orElse x ≠ .timeout := by
  cases o <;> simp_all [Out.orElse]

theorem lazyLoop_no_timeout (hb : ∀ p c, p ≤ s.length → body p c ≠ .timeout)
    (ht : ∀ p c, p ≤ s.length → tail p c ≠ .timeout) (hs : StepOn s body) {b : Nat} (m : Nat) :
    ∀ i p c, p ≤ s.length → Enough s body b m i p → lazyLoop body tail b m i p c ≠ .timeout := by
  induction m with
  | zero => intro i p c _ h; exact (h.pos rfl).elim
  | succ m ih =>
    intro i p c hp he
    rw [lazyLoop_succ]
    split
    · rename_i hl
      have h1 := step_no_timeout (hb p c hp)
      cases hq : step body p c with
      | stop o => rw [hq] at h1; intro h; exact h1 (by rw [← h])
      | go q d =>
        have h2 := (hs _ _ _ _ hp hq).2
        exact orElse_no_timeout (ht _ _ h2) (ih _ _ _ h2 (he.next hp hl hq))
    · exact ht _ _ hp

theorem greedyRec_no_timeout (hb : ∀ p c, p ≤ s.length → body p c ≠ .timeout)
    (ht : ∀ p c, p ≤ s.length → tail p c ≠ .timeout) (hs : StepOn s body) {b : Nat} (m : Nat) :
    ∀ i p c, p ≤ s.length → Enough s body b m i p → greedyRec body tail b m i p c ≠ .timeout := by
  induction m with
  | zero => intro i p c _ h; exact (h.pos rfl).elim
  | succ m ih =>
    intro i p c hp he
    rw [greedyRec_succ]
    split
    · rename_i hl
      have h1 := step_no_timeout (hb p c hp)
      cases hq : step body p c with
      | stop o =>
        rw [hq] at h1
        cases o with
        | fail => exact ht _ _ hp
        | timeout => exact (h1 rfl).elim
        | _ => simp
      | go q d =>
        have h2 := (hs _ _ _ _ hp hq).2
        exact orElse_no_timeout (ih _ _ _ h2 (he.next hp hl hq)) (ht _ _ hp)
    · exact ht _ _ hp

end loops

theorem matchString_cur {ci : Bool} {s : List Ch} {cs : List Nat} {cur p : Nat} (hcur : cur ≤ s.length)
    (h : matchString ci s cs cur = .yes p) : p ≤ s.length := (matchString_yes h).2 hcur

/-- Fuel linear in the size of the stack and of the subject suffices. -/
theorem eval_terminates (C : Cfg) : ∀ n s lb cur f c st, cur ≤ s.length → (lb = true ∨ progressiveSt st = true) →
    weightSt st + s.length + 1 ≤ n → eval C n s lb cur f c st ≠ .timeout := by
  intro n
  induction n with
  | zero => intro s lb cur f c st _ _ h; omega
  | succ n ih =>
    intro s lb cur f c st hcur hst hn
    rcases st with _ | ⟨it, t⟩
    · rw [eval_nil]; simp
    · have hloop : ∀ {k a b m}, weightSt (.re (.rep k a b m) :: t) + s.length + 1 ≤ n + 1 →
          (lb = true ∨ progressiveSt (.re (.rep k a b m) :: t) = true) → lb = false →
          (∀ p c, p ≤ s.length → eval C n s lb p f.notEmpty c (items m [.endCycle]) ≠ .timeout) ∧
          (∀ i p, Enough s (fun p c => eval C n s lb p f.notEmpty c (items m [.endCycle])) b n i p) := by
        intro k a b m hw hpr hlb
        have hpr := hpr.resolve_left (by simp [hlb])
        simp only [progressiveSt, Re.progressive, Bool.and_eq_true] at hpr
        have hwt : 3 + b + weightAll m + weightSt t ≤ weightSt (.re (.rep k a b m) :: t) := by
          cases k <;> simp only [weightSt, Re.weight] <;> omega
        constructor
        · intro p c hp
          refine ih _ _ _ _ _ _ hp (.inr ?_) ?_
          · rw [progressiveSt_items, hpr.1.2]; rfl
          · have := weightSt_items m [.endCycle]
            simp only [weightSt] at this
            have := weightSt_pos t
            omega
        · intro i p
          by_cases hb : b = 0
          · refine .inr ⟨?_, by omega⟩
            have hm : progress m = true := by
              have := hpr.1.1
              simpa [hb, progress] using this
            intro p c p' c' hp h
            unfold step at h
            split at h
            · rename_i r hr
              obtain ⟨e, he, h3, h4⟩ := eval_moves C n s lb p f.notEmpty c _ hp (endsPos_items (by simp [endsPos])) (moves_items hm) r hr
              rw [he] at h
              simp only [Loop.go.injEq] at h
              omega
            · simp at h
          · exact .inl ⟨hb, by omega⟩
      cases it with
      | accept =>
        cases t with
        | nil => rw [eval_accept]; simp
        | cons => rw [eval_accept_cons]; simp
      | endAhead =>
        cases t with
        | nil => rw [eval_endAhead]; simp
        | cons => rw [eval_endAhead_cons]; simp
      | endBehind =>
        cases t with
        | nil => rw [eval_endBehind]; simp
        | cons => rw [eval_endBehind_cons]; simp
      | endCycle =>
        cases t with
        | nil => rw [eval_endCycle]; repeat' split
                 all_goals simp
        | cons => rw [eval_endCycle_cons]; simp
      | startMark =>
        rw [eval_startMark]
        split
        · simp
        · exact ih _ _ _ _ _ _ hcur hst (by simp only [weightSt] at hn; omega)
      | endMark =>
        rw [eval_endMark]
        split
        · simp
        · exact ih _ _ _ _ _ _ hcur hst (by simp only [weightSt] at hn; omega)
      | numMark id =>
        rw [eval_numMark]
        split
        · simp
        · split
          · simp
          · exact ih _ _ _ _ _ _ hcur hst (by simp only [weightSt] at hn; omega)
      | re r =>
        have hw1 : 1 ≤ r.weight := r.weight_pos
        have hpt : lb = true ∨ progressiveSt t = true := by
          rcases hst with h | h
          · exact .inl h
          · simp only [progressiveSt, Bool.and_eq_true] at h; exact .inr h.2
        have ht : ∀ p f c, p ≤ s.length → eval C n s lb p f c t ≠ .timeout :=
          fun p f c hp => ih _ _ _ _ _ _ hp hpt (by simp only [weightSt] at hn; omega)
        cases r with
        | cc cl =>
          rw [eval_cc]
          split
          · simp
          · split
            · simp
            · split
              · exact ht _ _ _ (by omega)
              · simp
        | any =>
          rw [eval_any]
          split
          · simp
          · split
            · split
              · simp
              · split
                · simp
                · exact ht _ _ _ (by omega)
            · exact ht _ _ _ (by omega)
        | str cs =>
          rw [eval_str]
          split
          · simp
          · simp
          · exact ht _ _ _ (matchString_cur hcur (by assumption))
        | sel l =>
          cases l with
          | nil => rw [eval_sel_nil]; simp
          | cons r opts =>
            rw [eval_sel_cons]
            simp only [weightSt, Re.weight, weightAll] at hn
            simp only [progressiveSt, Re.progressive, progressiveAll, Bool.and_eq_true] at hst
            refine orElse_no_timeout (ih _ _ _ _ _ _ hcur ?_ ?_) (ih _ _ _ _ _ _ hcur ?_ ?_)
            · simp only [progressiveSt, Bool.and_eq_true]; exact hst.imp id fun h => ⟨h.1.1, h.2⟩
            · simp only [weightSt]; omega
            · simp only [progressiveSt, Re.progressive, Bool.and_eq_true]; exact hst.imp id fun h => ⟨h.1.2, h.2⟩
            · simp only [weightSt, Re.weight]; omega
        | seq l =>
          simp only [weightSt, Re.weight, weightAll] at hn
          simp only [progressiveSt, Re.progressive, progressiveAll, Bool.and_eq_true] at hst
          rcases l with _ | ⟨r, _ | ⟨r', m⟩⟩
          · rw [eval_seq_nil]; simp
          · rw [eval_seq_one]
            simp only [weightAll] at hn
            simp only [progressiveAll, Bool.and_eq_true] at hst
            refine ih _ _ _ _ _ _ hcur ?_ (by simp only [weightSt]; omega)
            simp only [progressiveSt, Bool.and_eq_true]; exact hst.imp id fun h => ⟨h.1.1, h.2⟩
          · rw [eval_seq_cons]
            simp only [weightAll] at hn
            simp only [progressiveAll, Bool.and_eq_true] at hst
            refine ih _ _ _ _ _ _ hcur ?_ (by simp only [weightSt, Re.weight, weightAll]; omega)
            simp only [progressiveSt, Re.progressive, progressiveAll, Bool.and_eq_true]
            exact hst.imp id fun h => ⟨h.1.1, h.1.2, h.2⟩
        | empty => exact ht _ _ _ hcur
        | rep k a b m =>
          cases k with
          | lazy =>
            simp only [eval_lazy]
            split
            · simp
            · split
              · simp
              · rename_i hlb
                obtain ⟨h1, h2⟩ := hloop hn hst (by simpa using hlb)
                have hs := stepOn_eval C n s lb f.notEmpty m
                split
                · rename_i o ho
                  rintro rfl
                  exact mandLoop_no_timeout h1 hs a _ _ hcur ho
                · rename_i p' c' hq
                  have hp := (mandLoop_on hs _ _ _ _ _ hcur hq).2
                  exact orElse_no_timeout (ht _ _ _ hp)
                    (lazyLoop_no_timeout h1 (fun p c hp => ht p _ c hp) hs _ _ _ _ hp (h2 _ _))
          | poss =>
            simp only [eval_poss]
            split
            · simp
            · split
              · simp
              · rename_i hlb
                obtain ⟨h1, h2⟩ := hloop hn hst (by simpa using hlb)
                have hs := stepOn_eval C n s lb f.notEmpty m
                split
                · rename_i o ho
                  rintro rfl
                  exact possLoop_no_timeout h1 hs _ _ _ _ hcur (h2 _ _) ho
                · rename_i p' c' hq
                  exact ht _ _ _ (possLoop_on hs _ _ _ _ _ _ hcur hq).2
          | greedy =>
            simp only [eval_greedy, greedyRecRef_eq, ite_self]
            split
            · simp
            · split
              · simp
              · rename_i hlb
                generalize (if C.greedyOpt = true then loopCollides m t else some true) = g
                rcases g with _ | _ | _
                · simp
                · refine ih _ _ _ _ _ _ hcur ?_ (by simp only [weightSt, Re.weight] at hn ⊢; omega)
                  simpa only [progressiveSt, Re.progressive] using hst
                · obtain ⟨h1, h2⟩ := hloop hn hst (by simpa using hlb)
                  have hs := stepOn_eval C n s lb f.notEmpty m
                  dsimp only
                  split
                  · rename_i o ho
                    rintro rfl
                    exact mandLoop_no_timeout h1 hs a _ _ hcur ho
                  · rename_i p' c' hq
                    have hp := (mandLoop_on hs _ _ _ _ _ hcur hq).2
                    exact greedyRec_no_timeout h1 (fun p c hp => ht p _ c hp) hs _ _ _ _ hp (h2 _ _)
        | cap id name m =>
          rw [eval_cap]
          split
          · simp
          · split
            · simp
            · refine ih _ _ _ _ _ _ hcur ?_ (by simp only [weightSt, Re.weight] at hn ⊢; omega)
              simpa only [progressiveSt, Re.progressive] using hst
        | bref id =>
          rw [eval_bref]
          split
          · simp
          · split
            · simp
            · simp
            · simp
            · exact ht _ _ _ (brefCmp_pos hcur (by assumption)).2
        | brefName id =>
          rw [eval_brefName]
          split
          · simp
          · split
            · simp
            · simp
            · simp
            · exact ht _ _ _ (brefCmp_pos hcur (by assumption)).2
        | ahead pos m =>
          rw [eval_ahead]
          have h1 : eval C n s lb cur f c [.re (.seq m), .endAhead] ≠ .timeout := by
            refine ih _ _ _ _ _ _ hcur ?_ ?_
            · simp only [progressiveSt, Re.progressive, Bool.and_eq_true] at hst ⊢
              exact hst.imp id fun h => ⟨h.1, trivial⟩
            · have := weightSt_pos t
              simp only [weightSt, Re.weight] at hn ⊢; omega
          split
          · split
            · exact ht _ _ _ hcur
            · simp
          · split
            · simp
            · exact ht _ _ _ hcur
          · exact h1
        | behind pos m =>
          rw [eval_behind]
          have h1 : eval C n s.reverse true (s.length - cur) f c [.re (.seq m), .endBehind] ≠ .timeout := by
            refine ih _ _ _ _ _ _ (by simp) (.inl rfl) ?_
            have := weightSt_pos t
            simp only [weightSt, Re.weight, List.length_reverse] at hn ⊢; omega
          split
          · split
            · exact ht _ _ _ hcur
            · simp
          · split
            · simp
            · exact ht _ _ _ hcur
          · exact h1
        | atomic m =>
          rw [eval_atomic]
          refine ih _ _ _ _ _ _ hcur ?_ (by simp only [weightSt, Re.weight] at hn ⊢; omega)
          simp only [progressiveSt, Re.progressive, Bool.and_eq_true] at hst ⊢
          exact hst.imp id fun h => ⟨⟨by simp, h.1⟩, h.2⟩
        | mode md => exact ht _ _ _ hcur
        | reject => rw [eval_reject]; simp
        | boundary _ | notBoundary _ | sBegin | sEnd | sEndLine | lBegin | lEnd =>
          rw [eval_test (h := rfl)]
          split
          · simp
          · simp
          · exact ht _ _ _ hcur

/-- Iterations that stay at a position never come to an end. -/
theorem possLoop_stuck {body : Nat → Caps → Out} {p a : Nat}
    (h : ∀ c, step body p c = .stop .timeout ∨ ∃ c', step body p c = .go p c') :
    ∀ m i c, possLoop body a 0 m i p c = .stop .timeout := by
  intro m
  induction m with
  | zero => intros; rfl
  | succ m ih =>
    intro i c
    unfold possLoop
    rw [if_pos (by simp [lessInf])]
    rcases h c with h | ⟨c', h⟩
    · rw [h]
    · rw [h]; exact ih _ _

theorem greedyRec_stuck {body tail : Nat → Caps → Out} {p : Nat}
    (h : ∀ c, step body p c = .stop .timeout ∨ ∃ c', step body p c = .go p c') :
    ∀ m i c, greedyRec body tail 0 m i p c = .timeout := by
  intro m
  induction m with
  | zero => intros; rfl
  | succ m ih =>
    intro i c
    rw [greedyRec_succ, if_pos (by simp [lessInf])]
    rcases h c with h | ⟨c', h⟩
    · rw [h]
    · rw [h]; simp only [ih]; rfl

end Ctre
