import Verif.Lemmas.Mono

/-
Exchanging the end of the stack for another one with a related outcome.
-/
namespace Ctre

/-- Relations between outcomes that respect "on failure try the next". -/
structure Out.Cong (R : Out → Out → Prop) : Prop where
  refl : ∀ o, R o o
  bot : ∀ o, R .timeout o
  orElse : ∀ {o o' x x'}, R o o' → R x x' → R (o.orElse x) (o'.orElse x')

theorem greedyRec_succ (body tail : Nat → Caps → Out) (b m i cur : Nat) (c : Caps) :
    greedyRec body tail b (m+1) i cur c =
    if lessInf b i then
      match step body cur c with
      | .stop .fail => tail cur c
      | .stop o => o
      | .go p c' => (greedyRec body tail b m (i + 1) p c').orElse (tail cur c)
    else tail cur c := rfl

theorem lazyLoop_succ (body tail : Nat → Caps → Out) (b m i cur : Nat) (c : Caps) :
    lazyLoop body tail b (m+1) i cur c =
    if lessInf b i then
      match step body cur c with
      | .stop o => o
      | .go p c' => (tail p c').orElse (lazyLoop body tail b m (i + 1) p c')
    else tail cur c := rfl

theorem step_not_ok {body : Nat → Caps → Out} {p : Nat} {c c' : Caps} : step body p c ≠ .stop (.ok c') := by
  unfold step
  split
  · split <;> simp
  · rename_i h
    intro h'
    simp only [Loop.stop.injEq] at h'
    exact h c' h'

theorem possLoop_not_ok {body : Nat → Caps → Out} {a b : Nat} {c' : Caps} : ∀ m i p c,
    possLoop body a b m i p c ≠ .stop (.ok c') := by
  intro m
  induction m with
  | zero => intro i p c; simp [possLoop]
  | succ m ih =>
    intro i p c
    unfold possLoop
    split
    · split
      · split <;> simp
      · rename_i h
        intro h'
        simp only [Loop.stop.injEq] at h'
        subst h'
        exact step_not_ok h
      · exact ih _ _ _
    · simp

theorem Out.Cong.le {R : Out → Out → Prop} (hR : Out.Cong R) {o o' : Out} (h : o.Le o') : R o o' := by
  rcases h with rfl | rfl
  · exact hR.bot _
  · exact hR.refl _

theorem greedyRec_cong {R : Out → Out → Prop} (hR : Out.Cong R) {body body' tail tail' : Nat → Caps → Out}
    (hb : ∀ p c, (body p c).Le (body' p c)) (ht : ∀ p c, R (tail p c) (tail' p c)) (b : Nat) :
    ∀ m m' i p c, m ≤ m' → R (greedyRec body tail b m i p c) (greedyRec body' tail' b m' i p c) := by
  intro m
  induction m with
  | zero => intros; exact hR.bot _
  | succ m ih =>
    intro m' i p c hm
    obtain ⟨m', rfl⟩ : ∃ k, m' = k + 1 := ⟨m' - 1, by omega⟩
    rw [greedyRec_succ, greedyRec_succ]
    split
    · rcases step_mono hb p c with h | h
      · rw [h]; exact hR.bot _
      · rw [h]
        split
        · exact ht _ _
        · exact hR.refl _
        · exact hR.orElse (ih _ _ _ _ (by omega)) (ht ..)
    · exact ht _ _

theorem lazyLoop_cong {R : Out → Out → Prop} (hR : Out.Cong R) {body body' tail tail' : Nat → Caps → Out}
    (hb : ∀ p c, (body p c).Le (body' p c)) (ht : ∀ p c, R (tail p c) (tail' p c)) (b : Nat) :
    ∀ m m' i p c, m ≤ m' → R (lazyLoop body tail b m i p c) (lazyLoop body' tail' b m' i p c) := by
  intro m
  induction m with
  | zero => intros; exact hR.bot _
  | succ m ih =>
    intro m' i p c hm
    obtain ⟨m', rfl⟩ : ∃ k, m' = k + 1 := ⟨m' - 1, by omega⟩
    rw [lazyLoop_succ, lazyLoop_succ]
    split
    · rcases step_mono hb p c with h | h
      · rw [h]; exact hR.bot _
      · rw [h]
        split
        · exact hR.refl _
        · exact hR.orElse (ht ..) (ih _ _ _ _ (by omega))
    · exact ht _ _

theorem first_append {T1 T2 : Stack} (h : first T1 = first T2) : ∀ pre, first (pre ++ T1) = first (pre ++ T2)
  | [] => h
  | x :: pre => by
    have ih := first_append h pre
    funext l
    cases x <;> simp only [List.cons_append, first, ih]

theorem loopCollides_append {T1 T2 : Stack} (h : first T1 = first T2) (m : List Re) (pre : Stack) :
    loopCollides m (pre ++ T1) = loopCollides m (pre ++ T2) := by
  unfold loopCollides
  rw [first_append h pre]

/-- If the two ends of the stack have the same first list and related outcomes, so have the stacks.  The second
evaluation may use `k` more fuel. -/
theorem eval_swap {R : Out → Out → Prop} (hR : Out.Cong R) (C : Cfg) {T1 T2 : Stack} (h1 : T1 ≠ []) (h2 : T2 ≠ [])
    (hf : C.greedyOpt = true → first T1 = first T2)
    (k : Nat) {s : List Ch} {lb : Bool}
    (hT : ∀ n cur f c, R (eval C n s lb cur f c T1) (eval C (n+k) s lb cur f c T2)) :
    ∀ n pre cur f c, R (eval C n s lb cur f c (pre ++ T1)) (eval C (n+k) s lb cur f c (pre ++ T2)) := by
  intro n
  induction n with
  | zero => intros; exact hR.bot _
  | succ n ih =>
    intro pre cur f c
    have ih' := fun x pre cur f c => ih (x :: pre) cur f c
    simp only [List.cons_append] at ih'
    have hb : ∀ (f : Flags) m (t : Stack) p c', (eval C n s lb p f c' (items m t)).Le
      (eval C (n+k) s lb p f c' (items m t)) := fun f m t p c' => eval_mono C (by omega) ..
    rw [show n + 1 + k = (n + k) + 1 by omega]
    rcases pre with _ | ⟨it, t⟩
    · have := hT (n+1) cur f c
      rwa [show n + 1 + k = (n + k) + 1 by omega] at this
    · obtain ⟨y1, u1, e1⟩ : ∃ y u, t ++ T1 = y :: u := by
        cases h : t ++ T1 with
        | nil => simp at h; exact absurd h.2 h1
        | cons y u => exact ⟨y, u, rfl⟩
      obtain ⟨y2, u2, e2⟩ : ∃ y u, t ++ T2 = y :: u := by
        cases h : t ++ T2 with
        | nil => simp at h; exact absurd h.2 h2
        | cons y u => exact ⟨y, u, rfl⟩
      rw [List.cons_append, List.cons_append]
      cases it with
      | accept => rw [e1, e2]; exact hR.refl _
      | endCycle => rw [e1, e2]; exact hR.refl _
      | endAhead => rw [e1, e2]; exact hR.refl _
      | endBehind => rw [e1, e2]; exact hR.refl _
      | startMark =>
        simp only [eval_startMark]; split
        · exact hR.refl _
        · exact ih ..
      | endMark =>
        simp only [eval_endMark]; split
        · exact hR.refl _
        · exact ih ..
      | numMark id =>
        simp only [eval_numMark]; split
        · exact hR.refl _
        · split
          · exact hR.refl _
          · exact ih ..
      | re r =>
        cases r with
        | cc cl =>
          simp only [eval_cc]
          split
          · exact hR.refl _
          · split
            · exact hR.refl _
            · split
              · exact ih ..
              · exact hR.refl _
        | any =>
          simp only [eval_any]
          split
          · exact hR.refl _
          · split
            · split
              · exact hR.refl _
              · split
                · exact hR.refl _
                · exact ih ..
            · exact ih ..
        | str cs =>
          simp only [eval_str]
          split
          · exact hR.refl _
          · exact hR.refl _
          · exact ih ..
        | sel l =>
          cases l with
          | nil => exact hR.refl _
          | cons r opts =>
            simp only [eval_sel_cons]
            exact hR.orElse (ih' ..) (ih' ..)
        | seq l =>
          rcases l with _ | ⟨r, _ | ⟨r', m⟩⟩
          · exact hR.refl _
          · exact ih' ..
          · exact ih (.re r :: .re (.seq (r' :: m)) :: t) ..
        | empty => exact ih ..
        | rep kd a b m =>
          cases kd with
          | greedy =>
            simp only [eval_greedy, greedyRecRef_eq, ite_self]
            split
            · exact hR.refl _
            · split
              · exact hR.refl _
              · have hc : (if C.greedyOpt = true then loopCollides m (t ++ T1) else some true) =
                    (if C.greedyOpt = true then loopCollides m (t ++ T2) else some true) := by
                  split
                  · exact loopCollides_append (hf ‹_›) m t
                  · rfl
                rw [hc]
                generalize (if C.greedyOpt = true then loopCollides m (t ++ T2) else some true) = g
                rcases g with _ | _ | _
                · exact hR.refl _
                · exact ih' ..
                · dsimp only
                  rcases mandLoop_mono (hb f.notEmpty m [.endCycle]) a cur c with h | h
                  · rw [h]; exact hR.bot _
                  · rw [h]
                    split
                    · exact hR.refl _
                    · exact greedyRec_cong hR (hb _ _ _) (fun p c => ih ..) _ _ _ _ _ _ (by omega)
          | lazy =>
            simp only [eval_lazy]
            split
            · exact hR.refl _
            · split
              · exact hR.refl _
              · rcases mandLoop_mono (hb f.notEmpty m [.endCycle]) a cur c with h | h
                · rw [h]; exact hR.bot _
                · rw [h]
                  split
                  · exact hR.refl _
                  · exact hR.orElse (ih ..) (lazyLoop_cong hR (hb _ _ _) (fun p c => ih ..) _ _ _ _ _ _ (by omega))
          | poss =>
            simp only [eval_poss]
            split
            · exact hR.refl _
            · split
              · exact hR.refl _
              · rcases possLoop_mono (hb f.notEmpty m [.endCycle]) a b n (n+k) 0 cur c (by omega) with h | h
                · rw [h]; exact hR.bot _
                · rw [h]
                  split
                  · exact hR.refl _
                  · exact ih ..
        | cap id name m =>
          simp only [eval_cap]; split
          · exact hR.refl _
          · split
            · exact hR.refl _
            · exact ih (.re (.seq m) :: .numMark id :: t) ..
        | bref id =>
          simp only [eval_bref]; split
          · exact hR.refl _
          · split
            · exact hR.refl _
            · exact hR.refl _
            · exact hR.refl _
            · exact ih ..
        | brefName name =>
          simp only [eval_brefName]; split
          · exact hR.refl _
          · split
            · exact hR.refl _
            · exact hR.refl _
            · exact hR.refl _
            · exact ih ..
        | ahead pos m =>
          simp only [eval_ahead]
          rcases eval_mono C (show n ≤ n + k by omega) s lb cur f c [.re (.seq m), .endAhead] with h | h
          · rw [h]; exact hR.bot _
          · rw [h]
            split
            · split
              · exact ih ..
              · exact hR.refl _
            · split
              · exact hR.refl _
              · exact ih ..
            · exact hR.refl _
        | behind pos m =>
          simp only [eval_behind]
          rcases eval_mono C (show n ≤ n + k by omega) s.reverse true (s.length - cur) f c [.re (.seq m), .endBehind] with h | h
          · rw [h]; exact hR.bot _
          · rw [h]
            split
            · split
              · exact ih ..
              · exact hR.refl _
            · split
              · exact hR.refl _
              · exact ih ..
            · exact hR.refl _
        | atomic m => exact ih' ..
        | mode md => exact ih ..
        | reject => exact hR.refl _
        | boundary _ | notBoundary _ | sBegin | sEnd | sEndLine | lBegin | lEnd =>
          rw [eval_test (h := rfl), eval_test (h := rfl)]
          split
          · exact hR.refl _
          · exact hR.refl _
          · exact ih ..

end Ctre
