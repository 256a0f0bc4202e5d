import Verif.Lemmas.EvalEqs

/-
More fuel does not change a result.
-/
namespace Ctre

/-- Flat order: `timeout` is below everything. -/
def Out.Le (o o' : Out) : Prop := o = .timeout ∨ o = o'

theorem Out.Le.refl (o : Out) : o.Le o := .inr rfl
theorem Out.Le.bot (o : Out) : Out.timeout.Le o := .inl rfl
theorem Out.Le.trans {a b c : Out} (h : a.Le b) (h' : b.Le c) : a.Le c := by
  rcases h with h | h
  · exact .inl h
  · subst h; exact h'

def Loop.Le (l l' : Loop) : Prop := l = .stop .timeout ∨ l = l'

theorem step_mono {body body' : Nat → Caps → Out} (hb : ∀ p c, (body p c).Le (body' p c))
    (p : Nat) (c : Caps) : (step body p c).Le (step body' p c) := by
  unfold step
  rcases hb p c with h | h
  · rw [h]; exact .inl rfl
  · rw [h]; exact .inr rfl

theorem mandLoop_mono {body body' : Nat → Caps → Out} (hb : ∀ p c, (body p c).Le (body' p c))
    (a : Nat) : ∀ p c, (mandLoop body a p c).Le (mandLoop body' a p c) := by
  induction a with
  | zero => intro p c; exact .inr rfl
  | succ a ih =>
    intro p c
    unfold mandLoop
    rcases step_mono hb p c with h | h
    · rw [h]; exact .inl rfl
    · rw [h]
      cases step body' p c with
      | stop o => exact .inr rfl
      | go q c' => exact ih q c'

theorem lazyLoop_mono {body body' tail tail' : Nat → Caps → Out}
    (hb : ∀ p c, (body p c).Le (body' p c)) (ht : ∀ p c, (tail p c).Le (tail' p c)) (b : Nat) :
    ∀ m m' i p c, m ≤ m' → (lazyLoop body tail b m i p c).Le (lazyLoop body' tail' b m' i p c) := by
  intro m
  induction m with
  | zero => intros; exact .inl rfl
  | succ m ih =>
    intro m' i p c hm
    obtain ⟨m', rfl⟩ : ∃ k, m' = k + 1 := ⟨m' - 1, by omega⟩
    unfold lazyLoop
    split
    · rcases step_mono hb p c with h | h
      · rw [h]; exact .inl rfl
      · rw [h]
        cases step body' p c with
        | stop o => exact .inr rfl
        | go q c' =>
          rcases ht q c' with h | h
          · simp only [h]; exact .inl rfl
          · simp only [h]
            cases tail' q c' with
            | fail => exact ih m' (i+1) q c' (by omega)
            | _ => exact .inr rfl
    · exact ht p c

theorem possLoop_mono {body body' : Nat → Caps → Out}
    (hb : ∀ p c, (body p c).Le (body' p c)) (a b : Nat) :
    ∀ m m' i p c, m ≤ m' → (possLoop body a b m i p c).Le (possLoop body' a b m' i p c) := by
  intro m
  induction m with
  | zero => intros; exact .inl rfl
  | succ m ih =>
    intro m' i p c hm
    obtain ⟨m', rfl⟩ : ∃ k, m' = k + 1 := ⟨m' - 1, by omega⟩
    unfold possLoop
    split
    · rcases step_mono hb p c with h | h
      · rw [h]; exact .inl rfl
      · rw [h]
        cases step body' p c with
        | stop o => cases o <;> exact .inr rfl
        | go q c' => exact ih m' (i+1) q c' (by omega)
    · exact .inr rfl

theorem greedyRec_mono {body body' tail tail' : Nat → Caps → Out}
    (hb : ∀ p c, (body p c).Le (body' p c)) (ht : ∀ p c, (tail p c).Le (tail' p c)) (b : Nat) :
    ∀ m m' i p c, m ≤ m' → (greedyRec body tail b m i p c).Le (greedyRec body' tail' b m' i p c) := by
  intro m
  induction m with
  | zero => intros; exact .inl rfl
  | succ m ih =>
    intro m' i p c hm
    obtain ⟨m', rfl⟩ : ∃ k, m' = k + 1 := ⟨m' - 1, by omega⟩
    unfold greedyRec
    split
    · rcases step_mono hb p c with h | h
      · rw [h]; exact .inl rfl
      · rw [h]
        cases step body' p c with
        | stop o =>
          cases o with
          | fail => exact ht p c
          | _ => exact .inr rfl
        | go q c' =>
          rcases ih m' (i+1) q c' (by omega) with h | h
          · simp only [h]; exact .inl rfl
          · simp only [h]
            cases greedyRec body' tail' b m' (i+1) q c' with
            | fail => exact ht p c
            | _ => exact .inr rfl
    · exact ht p c

/-- The in/out parameter of the MSVC variant is never read. -/
theorem greedyRecRef_eq (body tail : Nat → Caps → Out) (b : Nat) :
    ∀ m i p c r, greedyRecRef body tail b m i p c r = greedyRec body tail b m i p c := by
  intro m
  induction m with
  | zero => intros; rfl
  | succ m ih =>
    intro i p c r
    unfold greedyRecRef greedyRec
    simp only [ih]

theorem Out.Le.matchFail {o o' x x' : Out} (h : o.Le o') (hx : x.Le x') :
    (o.orElse x).Le (o'.orElse x') := by
  rcases h with h | h
  · rw [h]; exact .inl rfl
  · rw [h]; cases o' <;> first | exact hx | exact .inr rfl

theorem eval_mono_succ (C : Cfg) : ∀ n s lb cur f c st,
    (eval C n s lb cur f c st).Le (eval C (n+1) s lb cur f c st) := by
  intro n
  induction n with
  | zero => intros; exact .inl rfl
  | succ n ih =>
    intro s lb cur f c st
    have hb : ∀ lb (f : Flags) m (t : Stack) p c', (eval C n s lb p f c' (items m t)).Le
      (eval C (n+1) s lb p f c' (items m t)) := fun lb f m t p c' => ih s lb p f c' _
    rcases st with _ | ⟨it, t⟩
    · exact .inr rfl
    · cases it with
      | accept => cases t <;> exact .inr rfl
      | endCycle => cases t <;> exact .inr rfl
      | endAhead => cases t <;> exact .inr rfl
      | endBehind => cases t <;> exact .inr rfl
      | startMark =>
        simp only [eval_startMark]; split
        · exact .inr rfl
        · exact ih ..
      | endMark =>
        simp only [eval_endMark]; split
        · exact .inr rfl
        · exact ih ..
      | numMark id =>
        simp only [eval_numMark]; split
        · exact .inr rfl
        · split
          · exact .inr rfl
          · exact ih ..
      | re r =>
        cases r with
        | cc cl =>
          simp only [eval_cc]
          split
          · exact .inr rfl
          · split
            · exact .inr rfl
            · split
              · exact ih ..
              · exact .inr rfl
        | any =>
          simp only [eval_any]
          split
          · exact .inr rfl
          · split
            · split
              · exact .inr rfl
              · split
                · exact .inr rfl
                · exact ih ..
            · exact ih ..
        | str cs =>
          simp only [eval_str]
          split
          · exact .inr rfl
          · exact .inr rfl
          · exact ih ..
        | sel l =>
          cases l with
          | nil => exact .inr rfl
          | cons r opts =>
            simp only [eval_sel_cons]
            exact Out.Le.matchFail (ih ..) (ih ..)
        | seq l =>
          rcases l with _ | ⟨r, _ | ⟨r', m⟩⟩
          · exact .inr rfl
          · exact ih ..
          · exact ih ..
        | empty => exact ih ..
        | rep k a b m =>
          cases k with
          | lazy =>
            simp only [eval_lazy]
            split
            · exact .inr rfl
            · split
              · exact .inr rfl
              · rcases mandLoop_mono (hb lb f.notEmpty m [.endCycle]) a cur c with h | h
                · rw [h]; exact .inl rfl
                · rw [h]
                  split
                  · exact .inr rfl
                  · exact Out.Le.matchFail (ih ..)
                      (lazyLoop_mono (hb lb f.notEmpty m [.endCycle]) (fun p c => ih ..) b n (n+1) _ _ _ (by omega))
          | poss =>
            simp only [eval_poss]
            split
            · exact .inr rfl
            · split
              · exact .inr rfl
              · rcases possLoop_mono (hb lb f.notEmpty m [.endCycle]) a b n (n+1) 0 cur c (by omega) with h | h
                · rw [h]; exact .inl rfl
                · rw [h]
                  split
                  · exact .inr rfl
                  · exact ih ..
          | greedy =>
            simp only [eval_greedy, greedyRecRef_eq, ite_self]
            split
            · exact .inr rfl
            · split
              · exact .inr rfl
              · generalize (if C.greedyOpt = true then loopCollides m t else some true) = g
                rcases g with _ | _ | _
                · exact .inr rfl
                · exact ih ..
                · rcases mandLoop_mono (hb lb f.notEmpty m [.endCycle]) a cur c with h | h
                  · simp only [h]; exact .inl rfl
                  · simp only [h]
                    split
                    · exact .inr rfl
                    · exact greedyRec_mono (hb lb f.notEmpty m [.endCycle]) (fun p c => ih ..) b n (n+1) _ _ _ (by omega)
        | cap id name m =>
          simp only [eval_cap]; split
          · exact .inr rfl
          · split
            · exact .inr rfl
            · exact ih ..
        | bref id =>
          simp only [eval_bref]; split
          · exact .inr rfl
          · split <;> first | exact .inr rfl | exact ih ..
        | brefName id =>
          simp only [eval_brefName]; split
          · exact .inr rfl
          · split <;> first | exact .inr rfl | exact ih ..
        | ahead pos m =>
          simp only [eval_ahead]
          rcases ih s lb cur f c [.re (.seq m), .endAhead] with h | h
          · rw [h]; exact .inl rfl
          · rw [h]
            split
            · split
              · exact ih ..
              · exact .inr rfl
            · split
              · exact .inr rfl
              · exact ih ..
            · exact .inr rfl
        | behind pos m =>
          simp only [eval_behind]
          rcases ih s.reverse true (s.length - cur) f c [.re (.seq m), .endBehind] with h | h
          · rw [h]; exact .inl rfl
          · rw [h]
            split
            · split
              · exact ih ..
              · exact .inr rfl
            · split
              · exact .inr rfl
              · exact ih ..
            · exact .inr rfl
        | atomic m => exact ih ..
        | mode md => exact ih ..
        | reject => exact .inr rfl
        | boundary _ | notBoundary _ | sBegin | sEnd | sEndLine | lBegin | lEnd =>
          rw [eval_test (h := rfl), eval_test (h := rfl)]
          split
          · exact .inr rfl
          · exact .inr rfl
          · exact ih ..

theorem eval_mono (C : Cfg) {n m : Nat} (h : n ≤ m) (s lb cur f c st) :
    (eval C n s lb cur f c st).Le (eval C m s lb cur f c st) := by
  induction h with
  | refl => exact .refl _
  | step _ ih => exact ih.trans (eval_mono_succ ..)

/-- A result other than `timeout` does not depend on the fuel. -/
theorem eval_det (C : Cfg) {n m : Nat} {s lb cur f c st} 
    (hn : eval C n s lb cur f c st ≠ .timeout) (hm : eval C m s lb cur f c st ≠ .timeout) :
    eval C n s lb cur f c st = eval C m s lb cur f c st := by
  rcases Nat.le_total n m with h | h
  · exact (eval_mono C h s lb cur f c st).resolve_left hn
  · exact ((eval_mono C h s lb cur f c st).resolve_left hm).symm

theorem eval_of_le (C : Cfg) {n m : Nat} (h : n ≤ m) {s lb cur f c st o}
    (hn : eval C n s lb cur f c st = o) (ho : o ≠ .timeout) : eval C m s lb cur f c st = o := by
  rcases eval_mono C h s lb cur f c st with h | h
  · exact absurd (hn.symm.trans h) ho
  · rw [← h, hn]

end Ctre
