import Verif.Model.Steps
import Verif.Lemmas.Mono

/-
The work of a finished evaluation does not depend on the fuel.
-/
namespace Ctre

section
variable {body body' tail tail' : Nat → Caps → Out} {work work' workT workT' : Nat → Caps → Nat}

/-- Finished calls agree, in result and work. -/
def SameWork (body body' : Nat → Caps → Out) (work work' : Nat → Caps → Nat) : Prop :=
  ∀ p c, body p c ≠ .timeout → body' p c = body p c ∧ work' p c = work p c

theorem SameWork.le (h : SameWork body body' work work') (p : Nat) (c : Caps) : (body p c).Le (body' p c) := by
  by_cases hx : body p c = .timeout
  · exact .inl hx
  · exact .inr (h p c hx).1.symm

theorem step_sameWork (h : SameWork body body' work work') {p : Nat} {c : Caps} (hs : step body p c ≠ .stop .timeout) :
    step body' p c = step body p c ∧ work' p c = work p c := by
  have hx : body p c ≠ .timeout := by
    intro hx; apply hs; simp [step, hx]
  obtain ⟨h1, h2⟩ := h p c hx
  exact ⟨by simp only [step, h1], h2⟩

theorem mandSteps_agree (h : SameWork body body' work work') : ∀ a p c, mandLoop body a p c ≠ .stop .timeout →
    mandSteps body' work' a p c = mandSteps body work a p c
  | 0, _, _, _ => rfl
  | a + 1, p, c, hx => by
    simp only [mandLoop] at hx
    have hs : step body p c ≠ .stop .timeout := by intro hs; rw [hs] at hx; exact hx rfl
    obtain ⟨h1, h2⟩ := step_sameWork h hs
    simp only [mandSteps, h1, h2]
    cases hq : step body p c with
    | stop o => rfl
    | go q c' =>
      rw [hq] at hx
      simp only [mandSteps_agree h a q c' hx]

theorem possSteps_agree (h : SameWork body body' work work') (a b : Nat) : ∀ m m' i p c, m ≤ m' →
    possLoop body a b m i p c ≠ .stop .timeout →
    possSteps body' work' b m' i p c = possSteps body work b m i p c
  | 0, _, _, _, _, _, hx => by simp [possLoop] at hx
  | m + 1, m', i, p, c, hm, hx => by
    obtain ⟨m', rfl⟩ : ∃ k, m' = k + 1 := ⟨m' - 1, by omega⟩
    simp only [possLoop] at hx
    simp only [possSteps]
    split
    · rename_i hl
      rw [if_pos hl] at hx
      have hs : step body p c ≠ .stop .timeout := by intro hs; rw [hs] at hx; exact hx rfl
      obtain ⟨h1, h2⟩ := step_sameWork h hs
      simp only [h1, h2]
      cases hq : step body p c with
      | stop o => rfl
      | go q c' =>
        rw [hq] at hx
        simp only [possSteps_agree h a b m m' (i + 1) q c' (by omega) hx]
    · rfl

theorem lazySteps_agree (h : SameWork body body' work work') (ht : SameWork tail tail' workT workT') (b : Nat) :
    ∀ m m' i p c, m ≤ m' → lazyLoop body tail b m i p c ≠ .timeout →
    lazySteps body' tail' work' workT' b m' i p c = lazySteps body tail work workT b m i p c
  | 0, _, _, _, _, _, hx => by simp [lazyLoop] at hx
  | m + 1, m', i, p, c, hm, hx => by
    obtain ⟨m', rfl⟩ : ∃ k, m' = k + 1 := ⟨m' - 1, by omega⟩
    simp only [lazyLoop] at hx
    simp only [lazySteps]
    split
    · rename_i hl
      rw [if_pos hl] at hx
      have hs : step body p c ≠ .stop .timeout := by intro hs; rw [hs] at hx; exact hx rfl
      obtain ⟨h1, h2⟩ := step_sameWork h hs
      simp only [h1, h2]
      cases hq : step body p c with
      | stop o => rfl
      | go q c' =>
        rw [hq] at hx
        simp only at hx ⊢
        have hy : tail q c' ≠ .timeout := by intro hy; rw [hy] at hx; exact hx rfl
        obtain ⟨h3, h4⟩ := ht q c' hy
        rw [h3, h4]
        cases hz : tail q c' with
        | fail =>
          rw [hz] at hx
          simp only [Out.ifFail]
          rw [lazySteps_agree h ht b m m' (i + 1) q c' (by omega) hx]
        | _ => simp only [Out.ifFail]
    · rename_i hl
      rw [if_neg hl] at hx
      exact (ht p c hx).2

theorem greedySteps_agree (h : SameWork body body' work work') (ht : SameWork tail tail' workT workT') (b : Nat) :
    ∀ m m' i p c, m ≤ m' → greedyRec body tail b m i p c ≠ .timeout →
    greedySteps body' tail' work' workT' b m' i p c = greedySteps body tail work workT b m i p c
  | 0, _, _, _, _, _, hx => by simp [greedyRec] at hx
  | m + 1, m', i, p, c, hm, hx => by
    obtain ⟨m', rfl⟩ : ∃ k, m' = k + 1 := ⟨m' - 1, by omega⟩
    simp only [greedyRec] at hx
    simp only [greedySteps]
    split
    · rename_i hl
      rw [if_pos hl] at hx
      have hs : step body p c ≠ .stop .timeout := by intro hs; rw [hs] at hx; exact hx rfl
      obtain ⟨h1, h2⟩ := step_sameWork h hs
      simp only [h1, h2]
      cases hq : step body p c with
      | stop o =>
        rw [hq] at hx
        cases o with
        | fail => simp only at hx; simp only [Out.ifFail, (ht p c hx).2]
        | _ => simp only [Out.ifFail]
      | go q c' =>
        rw [hq] at hx
        simp only at hx ⊢
        have hy : greedyRec body tail b m (i + 1) q c' ≠ .timeout := by intro hy; rw [hy] at hx; exact hx rfl
        have h3 := (greedyRec_mono h.le ht.le b m m' (i + 1) q c' (by omega)).resolve_left hy
        rw [greedySteps_agree h ht b m m' (i + 1) q c' (by omega) hy, ← h3]
        cases hz : greedyRec body tail b m (i + 1) q c' with
        | fail =>
          rw [hz] at hx
          simp only at hx
          simp only [Out.ifFail, (ht p c hx).2]
        | _ => simp only [Out.ifFail]
    · rename_i hl
      rw [if_neg hl] at hx
      rw [(ht p c hx).2]
end

theorem steps_mono_succ (C : Cfg) : ∀ n s lb cur f c st, eval C n s lb cur f c st ≠ .timeout →
    steps C (n + 1) s lb cur f c st = steps C n s lb cur f c st := by
  intro n
  induction n with
  | zero => intro s lb cur f c st h; exact (h rfl).elim
  | succ n ih =>
    intro s lb cur f c st hx
    have agree : ∀ s lb f st, SameWork (fun p c' => eval C n s lb p f c' st) (fun p c' => eval C (n + 1) s lb p f c' st)
        (fun p c' => steps C n s lb p f c' st) (fun p c' => steps C (n + 1) s lb p f c' st) := by
      intro s lb f st p c' h
      exact ⟨((eval_mono_succ C n s lb p f c' st).resolve_left h).symm, ih s lb p f c' st h⟩
    have same : ∀ s lb p f c' st, eval C n s lb p f c' st ≠ .timeout →
        eval C (n + 1) s lb p f c' st = eval C n s lb p f c' st ∧
        steps C (n + 1) s lb p f c' st = steps C n s lb p f c' st :=
      fun s lb p f c' st h => agree s lb f st p c' h
    rcases st with _ | ⟨it, t⟩
    · rfl
    · cases it with
      | accept => rfl
      | endCycle => rfl
      | endAhead => rfl
      | endBehind => rfl
      | startMark =>
        rw [eval_startMark] at hx
        rw [steps, steps]
        cases lb with
        | true => rfl
        | false => simp only [Bool.false_eq_true, if_false] at hx ⊢; rw [ih _ _ _ _ _ _ hx]
      | endMark =>
        rw [eval_endMark] at hx
        rw [steps, steps]
        cases lb with
        | true => rfl
        | false => simp only [Bool.false_eq_true, if_false] at hx ⊢; rw [ih _ _ _ _ _ _ hx]
      | numMark id =>
        rw [eval_numMark] at hx
        rw [steps, steps]
        cases lb with
        | true => rfl
        | false =>
          simp only [Bool.false_eq_true, if_false] at hx ⊢
          cases hq : c.endCapture id cur with
          | none => rfl
          | some c' => rw [hq] at hx; simp only at hx ⊢; rw [ih _ _ _ _ _ _ hx]
      | re r =>
        cases r with
        | cc cl =>
          rw [eval_cc] at hx
          rw [steps, steps]
          split
          · rfl
          · rename_i h1
            rw [if_neg h1] at hx
            cases hq : s[cur]? with
            | none => rfl
            | some v =>
              rw [hq] at hx
              simp only at hx ⊢
              split
              · rename_i h2; rw [if_pos h2] at hx; rw [ih _ _ _ _ _ _ hx]
              · rfl
        | any =>
          rw [eval_any] at hx
          rw [steps, steps]
          split
          · rfl
          · rename_i h1
            rw [if_neg h1] at hx
            split
            · rename_i h2
              rw [if_pos h2] at hx
              cases hq : s[cur]? with
              | none => rfl
              | some v =>
                rw [hq] at hx
                simp only at hx ⊢
                split
                · rfl
                · rename_i h2; rw [if_neg h2] at hx; rw [ih _ _ _ _ _ _ hx]
            · rename_i h2
              rw [if_neg h2] at hx
              rw [ih _ _ _ _ _ _ hx]
        | str cs =>
          rw [eval_str] at hx
          rw [steps, steps]
          cases hq : matchString f.ci s cs cur with
          | ub => rfl
          | no => rfl
          | yes p => rw [hq] at hx; simp only at hx ⊢; rw [ih _ _ _ _ _ _ hx]
        | sel l =>
          cases l with
          | nil => rfl
          | cons r opts =>
            rw [eval_sel_cons] at hx
            rw [steps, steps]
            have h1 : eval C n s lb cur f c (.re r :: t) ≠ .timeout := by
              intro h1; rw [h1] at hx; exact hx rfl
            rw [(same _ _ _ _ _ _ h1).1, (same _ _ _ _ _ _ h1).2]
            cases hq : eval C n s lb cur f c (.re r :: t) with
            | fail =>
              rw [hq, Out.orElse_fail] at hx
              simp only [Out.ifFail]
              rw [ih _ _ _ _ _ _ hx]
            | _ => simp only [Out.ifFail]
        | seq l =>
          rcases l with _ | ⟨r, _ | ⟨r', m⟩⟩
          · rfl
          · rw [eval_seq_one] at hx; rw [steps, steps, ih _ _ _ _ _ _ hx]
          · rw [eval_seq_cons] at hx
            rw [steps, steps]
            · rw [ih _ _ _ _ _ _ hx]
            all_goals simp
        | empty => rw [eval_empty] at hx; rw [steps, steps, ih _ _ _ _ _ _ hx]
        | rep k a b m =>
          cases k with
          | lazy =>
            rw [eval_lazy] at hx
            rw [steps, steps]
            split
            · rfl
            · rename_i h1
              rw [if_neg h1] at hx
              cases lb with
              | true => rfl
              | false =>
                simp only [Bool.false_eq_true, if_false] at hx ⊢
                have hb := agree s false f.notEmpty (items m [.endCycle])
                have ht := agree s false (f.consumed true) t
                have hM : mandLoop (fun p c' => eval C n s false p f.notEmpty c' (items m [.endCycle])) a cur c ≠
                    .stop .timeout := by
                  intro h; rw [h] at hx; exact hx rfl
                rw [mandSteps_agree hb a cur c hM, ← (mandLoop_mono hb.le a cur c).resolve_left hM]
                cases hq : mandLoop (fun p c' => eval C n s false p f.notEmpty c' (items m [.endCycle])) a cur c with
                | stop o => rfl
                | go p c' =>
                  rw [hq] at hx
                  simp only at hx ⊢
                  have h2 : eval C n s false p (f.consumed (decide (cur ≠ p))) c' t ≠ .timeout := by
                    intro h2; rw [h2] at hx; exact hx rfl
                  rw [(same _ _ _ _ _ _ h2).1, (same _ _ _ _ _ _ h2).2]
                  cases hz : eval C n s false p (f.consumed (decide (cur ≠ p))) c' t with
                  | fail =>
                    rw [hz, Out.orElse_fail] at hx
                    simp only [Out.ifFail]
                    rw [lazySteps_agree hb ht b n (n + 1) a p c' (by omega) hx]
                  | _ => simp only [Out.ifFail]
          | poss =>
            rw [eval_poss] at hx
            rw [steps, steps]
            split
            · rfl
            · rename_i h1
              rw [if_neg h1] at hx
              cases lb with
              | true => rfl
              | false =>
                simp only [Bool.false_eq_true, if_false] at hx ⊢
                have hb := agree s false f.notEmpty (items m [.endCycle])
                have hM : possLoop (fun p c' => eval C n s false p f.notEmpty c' (items m [.endCycle])) a b n 0 cur c ≠
                    .stop .timeout := by
                  intro h; rw [h] at hx; exact hx rfl
                rw [possSteps_agree hb a b n (n + 1) 0 cur c (by omega) hM,
                  ← (possLoop_mono hb.le a b n (n + 1) 0 cur c (by omega)).resolve_left hM]
                cases hq : possLoop (fun p c' => eval C n s false p f.notEmpty c' (items m [.endCycle])) a b n 0 cur c with
                | stop o => rfl
                | go p c' =>
                  rw [hq] at hx
                  simp only at hx ⊢
                  rw [ih _ _ _ _ _ _ hx]
          | greedy =>
            rw [eval_greedy] at hx
            simp only [greedyRecRef_eq, ite_self] at hx
            conv => lhs; rw [steps]
            conv => rhs; rw [steps]
            split
            · rfl
            · rename_i h1
              rw [if_neg h1] at hx
              cases lb with
              | true => rfl
              | false =>
                simp only [Bool.false_eq_true, if_false] at hx ⊢
                cases hg : (if C.greedyOpt = true then loopCollides m t else some true) with
                | none => rfl
                | some x =>
                  rw [hg] at hx
                  cases x with
                  | false => simp only at hx ⊢; rw [ih _ _ _ _ _ _ hx]
                  | true =>
                    simp only at hx ⊢
                    have hb := agree s false f.notEmpty (items m [.endCycle])
                    have ht := agree s false (f.consumed true) t
                    have hM : mandLoop (fun p c' => eval C n s false p f.notEmpty c' (items m [.endCycle])) a cur c ≠
                        .stop .timeout := by
                      intro h; rw [h] at hx; exact hx rfl
                    rw [mandSteps_agree hb a cur c hM, ← (mandLoop_mono hb.le a cur c).resolve_left hM]
                    cases hq : mandLoop (fun p c' => eval C n s false p f.notEmpty c' (items m [.endCycle])) a cur c with
                    | stop o => rfl
                    | go p c' =>
                      rw [hq] at hx
                      simp only at hx ⊢
                      rw [greedySteps_agree hb ht b n (n + 1) a p c' (by omega) hx]
        | cap id name m =>
          rw [eval_cap] at hx
          rw [steps, steps]
          cases lb with
          | true => rfl
          | false =>
            simp only [Bool.false_eq_true, if_false] at hx ⊢
            cases hq : c.startCapture id cur with
            | none => rfl
            | some c' => rw [hq] at hx; simp only at hx ⊢; rw [ih _ _ _ _ _ _ hx]
        | bref id =>
          rw [eval_bref] at hx
          rw [steps, steps]
          cases lb with
          | true => rfl
          | false =>
            simp only [Bool.false_eq_true, if_false] at hx ⊢
            rcases hq : brefCmp s cur (c.get id) with _ | ⟨_ | _ | p, ne⟩
            · rfl
            · rfl
            · rfl
            · rw [hq] at hx; simp only at hx ⊢; rw [ih _ _ _ _ _ _ hx]
        | brefName id =>
          rw [eval_brefName] at hx
          rw [steps, steps]
          cases lb with
          | true => rfl
          | false =>
            simp only [Bool.false_eq_true, if_false] at hx ⊢
            rcases hq : brefCmp s cur (c.getName id) with _ | ⟨_ | _ | p, ne⟩
            · rfl
            · rfl
            · rfl
            · rw [hq] at hx; simp only at hx ⊢; rw [ih _ _ _ _ _ _ hx]
        | ahead pos m =>
          rw [eval_ahead] at hx
          rw [steps, steps]
          have h1 : eval C n s lb cur f c [.re (.seq m), .endAhead] ≠ .timeout := by
            intro h1; rw [h1] at hx; exact hx rfl
          rw [(same _ _ _ _ _ _ h1).1, (same _ _ _ _ _ _ h1).2]
          cases hq : eval C n s lb cur f c [.re (.seq m), .endAhead] with
          | ok c' =>
            rw [hq] at hx
            cases pos with
            | true => simp only [if_true] at hx ⊢; rw [ih _ _ _ _ _ _ hx]
            | false => rfl
          | fail =>
            rw [hq] at hx
            cases pos with
            | true => rfl
            | false => simp only [Bool.false_eq_true, if_false] at hx ⊢; rw [ih _ _ _ _ _ _ hx]
          | _ => rfl
        | behind pos m =>
          rw [eval_behind] at hx
          rw [steps, steps]
          have h1 : eval C n s.reverse true (s.length - cur) f c [.re (.seq m), .endBehind] ≠ .timeout := by
            intro h1; rw [h1] at hx; exact hx rfl
          rw [(same _ _ _ _ _ _ h1).1, (same _ _ _ _ _ _ h1).2]
          cases hq : eval C n s.reverse true (s.length - cur) f c [.re (.seq m), .endBehind] with
          | ok c' =>
            rw [hq] at hx
            cases pos with
            | true => simp only [if_true] at hx ⊢; rw [ih _ _ _ _ _ _ hx]
            | false => rfl
          | fail =>
            rw [hq] at hx
            cases pos with
            | true => rfl
            | false => simp only [Bool.false_eq_true, if_false] at hx ⊢; rw [ih _ _ _ _ _ _ hx]
          | _ => rfl
        | atomic m => 
          rw [eval_atomic] at hx
          conv => lhs; rw [steps]
          conv => rhs; rw [steps]
          rw [ih _ _ _ _ _ _ hx]
        | mode md => rw [eval_mode] at hx; rw [steps, steps, ih _ _ _ _ _ _ hx]
        | reject => rfl
        | boundary _ | notBoundary _ | sBegin | sEnd | sEndLine | lBegin | lEnd =>
          rw [eval_test (h := rfl)] at hx
          conv => lhs; unfold steps
          conv => rhs; unfold steps
          simp only
          split
          · rfl
          · rfl
          · rename_i hq; rw [hq] at hx; rw [ih _ _ _ _ _ _ hx]

/-- Fuel beyond what is needed changes nothing. -/
theorem steps_mono (C : Cfg) {n m : Nat} (h : n ≤ m) {s lb cur f c st} (hx : eval C n s lb cur f c st ≠ .timeout) :
    steps C m s lb cur f c st = steps C n s lb cur f c st := by
  induction h with
  | refl => rfl
  | @step k hk ih =>
    have : eval C k s lb cur f c st ≠ .timeout := by
      rw [← (eval_mono C hk s lb cur f c st).resolve_left hx]; exact hx
    rw [steps_mono_succ C k s lb cur f c st this, ih]

end Ctre
