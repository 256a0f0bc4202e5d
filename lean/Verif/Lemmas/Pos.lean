import Verif.Lemmas.SoundComplete
import Verif.Lemmas.Swap

/-
Successful runs: the recorded end lies between the start position and the end of the subject.
-/
namespace Ctre

/-- The outcome, if successful, satisfies `Q`. -/
def OkP (Q : Caps → Prop) (o : Out) : Prop := ∀ r, o = .ok r → Q r

section loops
variable {I : Nat → Caps → Prop} {body tail : Nat → Caps → Out} {Q : Caps → Prop}

/-- Successful iterations keep `I`. -/
def StepP (I : Nat → Caps → Prop) (body : Nat → Caps → Out) : Prop :=
  ∀ p c p' c', I p c → step body p c = .go p' c' → I p' c'

theorem OkP.fail : OkP Q .fail := by intro r h; simp at h
theorem OkP.ill : OkP Q .ill := by intro r h; simp at h
theorem OkP.ub : OkP Q .ub := by intro r h; simp at h
theorem OkP.timeout : OkP Q .timeout := by intro r h; simp at h
theorem OkP.orElse {o x : Out} (h : OkP Q o) (h' : OkP Q x) : OkP Q (o.orElse x) := by
  intro r hr
  rcases Out.orElse_eq_ok.1 hr with hr | ⟨_, hr⟩
  · exact h r hr
  · exact h' r hr

theorem mandLoop_P (hs : StepP I body) (a : Nat) : ∀ p c p' c', I p c → mandLoop body a p c = .go p' c' → I p' c' := by
  induction a with
  | zero =>
    intro p c p' c' hi h
    simp only [mandLoop, Loop.go.injEq] at h
    rw [← h.1, ← h.2]; exact hi
  | succ a ih =>
    intro p c p' c' hi h
    unfold mandLoop at h
    cases hq : step body p c with
    | stop o => simp [hq] at h
    | go q d => rw [hq] at h; exact ih q d p' c' (hs _ _ _ _ hi hq) h

theorem possLoop_P (hs : StepP I body) {a b : Nat} (m : Nat) : ∀ i p c p' c', I p c →
    possLoop body a b m i p c = .go p' c' → I p' c' := by
  induction m with
  | zero => intro i p c p' c' hi h; simp [possLoop] at h
  | succ m ih =>
    intro i p c p' c' hi h
    unfold possLoop at h
    split at h
    · cases hq : step body p c with
      | stop o =>
        rw [hq] at h
        cases o with
        | fail =>
          simp only at h
          split at h
          · simp at h
          · simp only [Loop.go.injEq] at h; rw [← h.1, ← h.2]; exact hi
        | _ => simp at h
      | go q d => rw [hq] at h; exact ih _ _ _ _ _ (hs _ _ _ _ hi hq) h
    · simp only [Loop.go.injEq] at h; rw [← h.1, ← h.2]; exact hi

theorem step_stop_P {o : Out} {p : Nat} {c : Caps} (h : step body p c = .stop o) : OkP Q o := by
  rintro r rfl; exact absurd h step_ne_ok

theorem mandLoop_stop_P {o : Out} (a : Nat) : ∀ {p c}, mandLoop body a p c = .stop o → OkP Q o := by
  induction a with
  | zero => intro p c h; simp [mandLoop] at h
  | succ a ih =>
    intro p c h
    unfold mandLoop at h
    cases hq : step body p c with
    | stop o' => rw [hq] at h; simp only [Loop.stop.injEq] at h; subst h; exact step_stop_P hq
    | go q d => rw [hq] at h; exact ih h

theorem possLoop_stop_P {o : Out} {a b m i p : Nat} {c : Caps} (h : possLoop body a b m i p c = .stop o) : OkP Q o := by
  rintro r rfl; exact (possLoop_not_ok _ _ _ _ h).elim

theorem lazyLoop_P (hs : StepP I body) (ht : ∀ p c, I p c → OkP Q (tail p c)) {b : Nat} (m : Nat) :
    ∀ i p c, I p c → OkP Q (lazyLoop body tail b m i p c) := by
  induction m with
  | zero => intro i p c hi; exact .timeout
  | succ m ih =>
    intro i p c hi
    rw [lazyLoop_succ]
    split
    · cases hq : step body p c with
      | stop o => exact step_stop_P hq
      | go q d => exact (ht _ _ (hs _ _ _ _ hi hq)).orElse (ih _ _ _ (hs _ _ _ _ hi hq))
    · exact ht _ _ hi

theorem greedyRec_P (hs : StepP I body) (ht : ∀ p c, I p c → OkP Q (tail p c)) {b : Nat} (m : Nat) :
    ∀ i p c, I p c → OkP Q (greedyRec body tail b m i p c) := by
  induction m with
  | zero => intro i p c hi; exact .timeout
  | succ m ih =>
    intro i p c hi
    rw [greedyRec_succ]
    split
    · cases hq : step body p c with
      | stop o =>
        cases o with
        | fail => exact ht _ _ hi
        | _ => exact step_stop_P hq
      | go q d => exact (ih _ _ _ (hs _ _ _ _ hi hq)).orElse (ht _ _ hi)
    · exact ht _ _ hi

/-- Success of a repetition is success of what follows it, at a position reached by iterations. -/
theorem lazy_P {C : Cfg} {n : Nat} {s : List Ch} {lb : Bool} {cur : Nat} {f : Flags} {c : Caps} {a b : Nat} {m : List Re}
    {t : Stack} (hi : I cur c) (hs : StepP I (fun p c' => eval C n s lb p f.notEmpty c' (items m [.endCycle])))
    (ht : ∀ p c x, I p c → OkP Q (eval C n s lb p (f.consumed x) c t)) :
    OkP Q (eval C (n+1) s lb cur f c (.re (.rep .lazy a b m) :: t)) := by
  simp only [eval_lazy]
  split
  · exact .fail
  · split
    · exact .ill
    · split
      · exact mandLoop_stop_P _ (by assumption)
      · have hi' := mandLoop_P hs _ _ _ _ _ hi (by assumption)
        exact (ht _ _ _ hi').orElse (lazyLoop_P hs (fun p c h => ht p c true h) _ _ _ _ hi')

theorem poss_P {C : Cfg} {n : Nat} {s : List Ch} {lb : Bool} {cur : Nat} {f : Flags} {c : Caps} {a b : Nat} {m : List Re}
    {t : Stack} (hi : I cur c) (hs : StepP I (fun p c' => eval C n s lb p f.notEmpty c' (items m [.endCycle])))
    (ht : ∀ p c x, I p c → OkP Q (eval C n s lb p (f.consumed x) c t)) :
    OkP Q (eval C (n+1) s lb cur f c (.re (.rep .poss a b m) :: t)) := by
  simp only [eval_poss]
  split
  · exact .fail
  · split
    · exact .ill
    · split
      · exact possLoop_stop_P (by assumption)
      · exact ht _ _ _ (possLoop_P hs _ _ _ _ _ _ hi (by assumption))

theorem greedy_P {C : Cfg} {n : Nat} {s : List Ch} {lb : Bool} {cur : Nat} {f : Flags} {c : Caps} {a b : Nat}
    {m : List Re} {t : Stack} (hi : I cur c)
    (hs : StepP I (fun p c' => eval C n s lb p f.notEmpty c' (items m [.endCycle])))
    (ht : ∀ p c x, I p c → OkP Q (eval C n s lb p (f.consumed x) c t))
    (hp : OkP Q (eval C n s lb cur f c (.re (.rep .poss a b m) :: t))) :
    OkP Q (eval C (n+1) s lb cur f c (.re (.rep .greedy a b m) :: t)) := by
  simp only [eval_greedy, greedyRecRef_eq, ite_self]
  split
  · exact .fail
  · split
    · exact .ill
    · generalize (if C.greedyOpt = true then loopCollides m t else some true) = g
      rcases g with _ | _ | _
      · exact .ill
      · exact hp
      · dsimp only
        split
        · exact mandLoop_stop_P _ (by assumption)
        · have hi' := mandLoop_P hs _ _ _ _ _ hi (by assumption)
          exact greedyRec_P hs (fun p c h => ht p c true h) _ _ _ _ hi'
end loops

/-- The recorded end is a position of the subject not before `cur`. -/
def EndAfter (s : List Ch) (cur : Nat) (c : Caps) : Prop := ∃ e, c.whole.e = some e ∧ cur ≤ e ∧ e ≤ s.length

theorem EndAfter.mono {s : List Ch} {cur cur' : Nat} {c : Caps} (h : EndAfter s cur c) (hc : cur' ≤ cur) :
    EndAfter s cur' c := by
  obtain ⟨e, h1, h2, h3⟩ := h
  exact ⟨e, h1, by omega, h3⟩

theorem brefCmp_pos {s : List Ch} {cur p : Nat} {q : Bool} {sl : Option Slot} (hcur : cur ≤ s.length)
    (h : brefCmp s cur sl = some (.yes p, q)) : cur ≤ p ∧ p ≤ s.length := by
  unfold brefCmp at h
  split at h
  · simp at h
  · split at h
    · split at h
      · simp only [Option.some.injEq, Prod.mk.injEq] at h
        have := matchRangeBack_yes _ h.1 hcur
        omega
      · simp at h
    · simp at h

/-- A run on a stack that ends with recording the end records a position not before the start position. -/
theorem eval_end (C : Cfg) : ∀ n s lb cur f c st, cur ≤ s.length → endsPos st →
    OkP (EndAfter s cur) (eval C n s lb cur f c st) := by
  intro n
  induction n with
  | zero => intros; exact .timeout
  | succ n ih =>
    intro s lb cur f c st hcur hst
    have iht : ∀ {it t}, it :: t = st → (endsPos (it :: t) → endsPos t) → ∀ p f c, cur ≤ p → p ≤ s.length →
        OkP (EndAfter s cur) (eval C n s lb p f c t) := by
      rintro it t rfl h p f c h1 h2 r hr
      exact (ih s lb p f c t h2 (h hst) r hr).mono h1
    rcases st with _ | ⟨it, t⟩
    · exact hst.elim
    · have iht' := @iht it t rfl
      cases it with
      | accept =>
        cases t with
        | nil => exact hst.elim
        | cons => exact .fail
      | endAhead =>
        cases t with
        | nil => exact hst.elim
        | cons => exact .fail
      | endBehind =>
        cases t with
        | nil => exact hst.elim
        | cons => exact .fail
      | endCycle =>
        cases t with
        | cons => exact .fail
        | nil =>
          rw [eval_endCycle]
          split
          · exact .ill
          · split
            · exact .fail
            · rintro r hr
              simp only [Out.ok.injEq] at hr
              subst hr
              exact ⟨cur, rfl, Nat.le_refl _, hcur⟩
      | startMark =>
        rw [eval_startMark]
        split
        · exact .ill
        · exact iht' endsPos_of_cons_start _ _ _ (Nat.le_refl _) hcur
      | numMark id =>
        rw [eval_numMark]
        split
        · exact .ill
        · split
          · exact .ill
          · exact iht' endsPos_of_cons_num _ _ _ (Nat.le_refl _) hcur
      | endMark =>
        rw [eval_endMark]
        split
        · exact .ill
        · by_cases ht : endsPos t
          · exact iht' (fun _ => ht) _ _ _ (Nat.le_refl _) hcur
          · have : t = [.accept] := by
              unfold endsPos at hst
              split at hst <;> simp_all
            subst this
            cases n with
            | zero => exact .timeout
            | succ n =>
              rw [eval_accept]
              rintro r hr
              simp only [Out.ok.injEq] at hr
              subst hr
              exact ⟨cur, rfl, Nat.le_refl _, hcur⟩
      | re r =>
        have ht := iht' endsPos_of_cons_re
        have hst' : endsPos t := endsPos_of_cons_re hst
        have hloop : ∀ f m, StepP (fun p _ => cur ≤ p ∧ p ≤ s.length)
            (fun p c' => eval C n s lb p f c' (items m [.endCycle])) := by
          rintro f m p c p' c' ⟨h1, h2⟩ h
          unfold step at h
          split at h
          · rename_i r hr
            obtain ⟨e, he, h3, h4⟩ := ih s lb p f c _ h2 (endsPos_items (by simp [endsPos])) r hr
            rw [he] at h
            simp only [Loop.go.injEq] at h
            omega
          · simp at h
        cases r with
        | cc cl =>
          rw [eval_cc]
          split
          · exact .fail
          · split
            · exact .ub
            · split
              · exact ht _ _ _ (by omega) (by omega)
              · exact .fail
        | any =>
          rw [eval_any]
          split
          · exact .fail
          · split
            · split
              · exact .ub
              · split
                · exact .fail
                · exact ht _ _ _ (by omega) (by omega)
            · exact ht _ _ _ (by omega) (by omega)
        | str cs =>
          rw [eval_str]
          split
          · exact .ub
          · exact .fail
          · rename_i p hp
            have := matchString_yes hp
            exact ht _ _ _ (by omega) (this.2 hcur)
        | sel l =>
          cases l with
          | nil => exact .fail
          | cons r opts =>
            rw [eval_sel_cons]
            exact (ih _ _ _ _ _ _ hcur (endsPos_cons hst')).orElse (ih _ _ _ _ _ _ hcur (endsPos_cons hst'))
        | seq l =>
          rcases l with _ | ⟨r, _ | ⟨r', m⟩⟩
          · exact .fail
          · exact ih _ _ _ _ _ _ hcur (endsPos_cons hst')
          · exact ih _ _ _ _ _ _ hcur (endsPos_cons (endsPos_cons hst'))
        | empty => exact ht _ _ _ (Nat.le_refl _) hcur
        | rep k a b m =>
          cases k with
          | lazy => exact lazy_P (I := fun p _ => cur ≤ p ∧ p ≤ s.length) ⟨Nat.le_refl _, hcur⟩ (hloop _ _) (fun p c x h => ht _ _ _ h.1 h.2)
          | poss => exact poss_P (I := fun p _ => cur ≤ p ∧ p ≤ s.length) ⟨Nat.le_refl _, hcur⟩ (hloop _ _) (fun p c x h => ht _ _ _ h.1 h.2)
          | greedy =>
            exact greedy_P (I := fun p _ => cur ≤ p ∧ p ≤ s.length) ⟨Nat.le_refl _, hcur⟩ (hloop _ _) (fun p c x h => ht _ _ _ h.1 h.2)
              (ih _ _ _ _ _ _ hcur (endsPos_cons hst'))
        | cap id name m =>
          rw [eval_cap]
          split
          · exact .ill
          · split
            · exact .ill
            · exact ih _ _ _ _ _ _ hcur (endsPos_cons (endsPos_cons hst'))
        | bref id =>
          rw [eval_bref]
          split
          · exact .ill
          · split
            · exact .ill
            · exact .ub
            · exact .fail
            · rename_i hp
              have := brefCmp_pos hcur hp
              exact ht _ _ _ this.1 this.2
        | brefName id =>
          rw [eval_brefName]
          split
          · exact .ill
          · split
            · exact .ill
            · exact .ub
            · exact .fail
            · rename_i hp
              have := brefCmp_pos hcur hp
              exact ht _ _ _ this.1 this.2
        | ahead pos m =>
          rw [eval_ahead]
          split
          · split
            · exact ht _ _ _ (Nat.le_refl _) hcur
            · exact .fail
          · split
            · exact .fail
            · exact ht _ _ _ (Nat.le_refl _) hcur
          · rename_i h1 h2; intro r hr; exact absurd hr (h1 r)
        | behind pos m =>
          rw [eval_behind]
          split
          · split
            · exact ht _ _ _ (Nat.le_refl _) hcur
            · exact .fail
          · split
            · exact .fail
            · exact ht _ _ _ (Nat.le_refl _) hcur
          · rename_i h1 h2; intro r hr; exact absurd hr (h1 r)
        | atomic m => exact ih _ _ _ _ _ _ hcur (endsPos_cons hst')
        | mode md => exact ht _ _ _ (Nat.le_refl _) hcur
        | reject => exact .fail
        | boundary _ | notBoundary _ | sBegin | sEnd | sEndLine | lBegin | lEnd =>
          rw [eval_test (h := rfl)]
          split
          · exact .ub
          · exact .fail
          · exact ht _ _ _ (Nat.le_refl _) hcur

end Ctre
