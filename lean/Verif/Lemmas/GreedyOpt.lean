import Verif.Lemmas.GreedyFlags
import Verif.Lemmas.Collides

/-
The machine with the replacement of greedy by possessive repetition agrees with the machine without it on steady
patterns.
-/
namespace Ctre

/-- The machine has decided. -/
def Out.settled : Out → Bool
  | .fail | .ok _ => true
  | _ => false

def Loop.settled : Loop → Bool
  | .go _ _ => true
  | .stop o => o.settled

/-- Two outcomes do not contradict each other. -/
def Agree (o o' : Out) : Prop := o.settled = true → o'.settled = true → o = o'

def LAgree (x y : Loop) : Prop := x.settled = true → y.settled = true → x = y

theorem Agree.refl (o : Out) : Agree o o := fun _ _ => rfl
theorem Agree.left {o o' : Out} (h : o.settled = false) : Agree o o' := by intro h'; simp [h] at h'
theorem Agree.right {o o' : Out} (h : o'.settled = false) : Agree o o' := by intro _ h'; simp [h] at h'

theorem Agree.orElse {o o' x x' : Out} (h : Agree o o') (h' : o = .fail → o' = .fail → Agree x x') :
    Agree (o.orElse x) (o'.orElse x') := by
  cases ho : o.settled with
  | false => cases o <;> first | exact .left rfl | simp [Out.settled] at ho
  | true =>
    cases ho' : o'.settled with
    | false => cases o' <;> first | exact .right rfl | simp [Out.settled] at ho'
    | true =>
      obtain rfl := h ho ho'
      cases o with
      | fail => exact h' rfl rfl
      | ok c => exact .refl _
      | _ => simp [Out.settled] at ho

section loops
variable {s : List Ch} {bO bN tO tN : Nat → Caps → Out}

theorem step_agree {p : Nat} {c : Caps} (h : Agree (bO p c) (bN p c)) : LAgree (step bO p c) (step bN p c) := by
  intro h1 h2
  have e1 : (bO p c).settled = true := by
    unfold step at h1
    cases hb : bO p c <;> simp_all [Out.settled, Loop.settled]
  have e2 : (bN p c).settled = true := by
    unfold step at h2
    cases hb : bN p c <;> simp_all [Out.settled, Loop.settled]
  unfold step
  rw [h e1 e2]

theorem step_cases (b : Nat → Caps → Out) (p : Nat) (c : Caps) :
    step b p c = .stop .fail ∨ (∃ o, step b p c = .stop o ∧ o.settled = false) ∨ ∃ q d, step b p c = .go q d := by
  cases h : step b p c with
  | go q d => exact .inr (.inr ⟨q, d, rfl⟩)
  | stop o =>
    cases o with
    | fail => exact .inl rfl
    | ok x => exact absurd h step_ne_ok
    | timeout => exact .inr (.inl ⟨_, rfl, rfl⟩)
    | ub => exact .inr (.inl ⟨_, rfl, rfl⟩)
    | ill => exact .inr (.inl ⟨_, rfl, rfl⟩)

/-- The steps of both machines: undecided in one of them, a failure, or the same. -/
theorem step_both {p : Nat} {c : Caps} (h : Agree (bO p c) (bN p c)) :
    (∃ o, step bO p c = .stop o ∧ o.settled = false) ∨ (∃ o, step bN p c = .stop o ∧ o.settled = false) ∨
      (step bO p c = .stop .fail ∧ step bN p c = .stop .fail) ∨ ∃ q d, step bO p c = .go q d ∧ step bN p c = .go q d := by
  have h' := step_agree h
  rcases step_cases bO p c with h1 | h1 | ⟨q, d, h1⟩
  · rcases step_cases bN p c with h2 | h2 | ⟨q, d, h2⟩
    · exact .inr (.inr (.inl ⟨h1, h2⟩))
    · exact .inr (.inl h2)
    · rw [h1, h2] at h'; simpa [LAgree, Loop.settled, Out.settled] using h'
  · exact .inl h1
  · rcases step_cases bN p c with h2 | h2 | ⟨q', d', h2⟩
    · rw [h1, h2] at h'; simpa [LAgree, Loop.settled, Out.settled] using h'
    · exact .inr (.inl h2)
    · rw [h1, h2] at h'
      have := h' rfl rfl
      exact .inr (.inr (.inr ⟨q, d, h1, by rw [h2, ← this]⟩))

theorem stop_left {o : Out} {y : Loop} (h : o.settled = false) : LAgree (.stop o) y := by
  intro h'; simp [Loop.settled, h] at h'
theorem stop_right {o : Out} {y : Loop} (h : o.settled = false) : LAgree y (.stop o) := by
  intro _ h'; simp [Loop.settled, h] at h'

variable (hb : ∀ p c, p ≤ s.length → Agree (bO p c) (bN p c)) (hs : StepOn s bN)
  (ht : ∀ p c, p ≤ s.length → Agree (tO p c) (tN p c))
include hb hs

theorem mandLoop_agree (a : Nat) : ∀ p c, p ≤ s.length → LAgree (mandLoop bO a p c) (mandLoop bN a p c) := by
  induction a with
  | zero => intro p c _ _ _; rfl
  | succ a ih =>
    intro p c hp
    unfold mandLoop
    rcases step_both (hb p c hp) with ⟨o, h, ho⟩ | ⟨o, h, ho⟩ | ⟨h1, h2⟩ | ⟨q, d, h1, h2⟩
    · simp only [h]; exact stop_left ho
    · simp only [h]; exact stop_right ho
    · simp only [h1, h2]; exact fun _ _ => rfl
    · simp only [h1, h2]
      exact ih q d (hs p c q d hp h2).2

theorem possLoop_agree {a b : Nat} (m : Nat) : ∀ m' i p c, p ≤ s.length →
    LAgree (possLoop bO a b m i p c) (possLoop bN a b m' i p c) := by
  induction m with
  | zero => intro m' i p c _; exact stop_left rfl
  | succ m ih =>
    intro m' i p c hp
    cases m' with
    | zero => exact stop_right rfl
    | succ m' =>
      unfold possLoop
      split
      · rcases step_both (hb p c hp) with ⟨o, h, ho⟩ | ⟨o, h, ho⟩ | ⟨h1, h2⟩ | ⟨q, d, h1, h2⟩
        · simp only [h]
          cases o <;> first | exact stop_left ho | simp [Out.settled] at ho
        · simp only [h]
          cases o <;> first | exact stop_right ho | simp [Out.settled] at ho
        · simp only [h1, h2]; exact fun _ _ => rfl
        · simp only [h1, h2]
          exact ih _ _ _ _ (hs p c q d hp h2).2
      · exact fun _ _ => rfl

include ht

theorem lazyLoop_agree {b : Nat} (m : Nat) : ∀ m' i p c, p ≤ s.length →
    Agree (lazyLoop bO tO b m i p c) (lazyLoop bN tN b m' i p c) := by
  induction m with
  | zero => intro m' i p c _; exact .left rfl
  | succ m ih =>
    intro m' i p c hp
    cases m' with
    | zero => exact .right rfl
    | succ m' =>
      unfold lazyLoop
      split
      · rcases step_both (hb p c hp) with ⟨o, h, ho⟩ | ⟨o, h, ho⟩ | ⟨h1, h2⟩ | ⟨q, d, h1, h2⟩
        · simp only [h]; exact .left ho
        · simp only [h]; exact .right ho
        · simp only [h1, h2]; exact .refl _
        · simp only [h1, h2]
          have hq := (hs p c q d hp h2).2
          exact Agree.orElse (ht q d hq) fun _ _ => ih _ _ _ _ hq
      · exact ht p c hp

theorem greedyRec_agree {b : Nat} (m : Nat) : ∀ m' i p c, p ≤ s.length →
    Agree (greedyRec bO tO b m i p c) (greedyRec bN tN b m' i p c) := by
  induction m with
  | zero => intro m' i p c _; exact .left rfl
  | succ m ih =>
    intro m' i p c hp
    cases m' with
    | zero => exact .right rfl
    | succ m' =>
      unfold greedyRec
      split
      · rcases step_both (hb p c hp) with ⟨o, h, ho⟩ | ⟨o, h, ho⟩ | ⟨h1, h2⟩ | ⟨q, d, h1, h2⟩
        · simp only [h]
          cases o <;> first | exact .left ho | simp [Out.settled] at ho
        · simp only [h]
          cases o <;> first | exact .right ho | simp [Out.settled] at ho
        · simp only [h1, h2]; exact ht p c hp
        · simp only [h1, h2]
          have hq := (hs p c q d hp h2).2
          exact Agree.orElse (ih _ _ _ _ hq) fun _ _ => ht p c hp
      · exact ht p c hp

/-- The possessive loop and what follows it. -/
def possThen (body tail : Nat → Caps → Out) (a b m i p : Nat) (c : Caps) : Out :=
  match possLoop body a b m i p c with
  | .stop o => o
  | .go p' c' => tail p' c'

/-- The greedy loop after the mandatory iterations. -/
def mandThen (body tail : Nat → Caps → Out) (k a b m p : Nat) (c : Caps) : Out :=
  match mandLoop body k p c with
  | .stop o => o
  | .go p' c' => greedyRec body tail b m a p' c'

/-- After the mandatory iterations. -/
theorem poss_greedy {a b : Nat}
    (hh : ∀ p c q d x, p ≤ s.length → step bN p c = .go q d → tN p c = .ok x → ∀ e, tN q e ≠ .fail) (m : Nat) :
    ∀ m' i p c, a ≤ i → p ≤ s.length → Agree (possThen bO tO a b m i p c) (greedyRec bN tN b m' i p c) := by
  induction m with
  | zero => intro m' i p c _ _; exact .left rfl
  | succ m ih =>
    intro m' i p c hi hp
    cases m' with
    | zero => exact .right rfl
    | succ m' =>
      unfold possThen possLoop greedyRec
      have hlt : lessThan a i = false := by
        unfold lessThan; split <;> simp; omega
      by_cases hl : lessInf b i = true
      · simp only [hl, if_true]
        rcases step_both (hb p c hp) with ⟨o, h, ho⟩ | ⟨o, h, ho⟩ | ⟨h1, h2⟩ | ⟨q, d, h1, h2⟩
        · simp only [h]
          cases o <;> first | exact .left ho | simp [Out.settled] at ho
        · simp only [h]
          cases o <;> first | exact .right ho | simp [Out.settled] at ho
        · simp only [h1, h2, hlt, Bool.false_eq_true, if_false]; exact ht p c hp
        · simp only [h1, h2]
          have hq := (hs p c q d hp h2).2
          have := ih m' (i + 1) q d (by omega) hq
          unfold possThen at this
          cases hg : greedyRec bN tN b m' (i + 1) q d with
          | fail =>
            rw [hg] at this
            intro e1 e2
            rw [this e1 rfl]
            dsimp only at e2 ⊢
            cases htl : tN p c with
            | fail => rfl
            | ok x =>
              obtain ⟨e, he⟩ := greedyRec_fail hg
              exact absurd he (hh p c q d x hp h2 htl e)
            | _ => simp [htl, Out.settled] at e2
          | ok x => rw [hg] at this; exact this
          | _ => exact .right rfl
      · simp only [hl, Bool.false_eq_true, if_false]; exact ht p c hp

/-- The possessive loop against the greedy loop. -/
theorem poss_mand {a b : Nat} (hab : b = 0 ∨ a ≤ b)
    (hh : ∀ p c q d x, p ≤ s.length → step bN p c = .go q d → tN p c = .ok x → ∀ e, tN q e ≠ .fail) (m : Nat) :
    ∀ m' k i p c, i + k = a → p ≤ s.length → Agree (possThen bO tO a b m i p c) (mandThen bN tN k a b m' p c) := by
  induction m with
  | zero => intro m' k i p c _ _; exact .left rfl
  | succ m ih =>
    intro m' k i p c hi hp
    cases k with
    | zero =>
      have : i = a := by omega
      subst this
      unfold mandThen
      simp only [mandLoop]
      exact poss_greedy hb hs ht hh (m + 1) m' i p c (Nat.le_refl _) hp
    | succ k =>
      unfold possThen possLoop mandThen mandLoop
      have hl : lessInf b i = true := by unfold lessInf; split <;> simp; omega
      have hlt : lessThan a i = true := by
        unfold lessThan; rw [if_neg (by omega)]; simp; omega
      simp only [hl, if_true]
      rcases step_both (hb p c hp) with ⟨o, h, ho⟩ | ⟨o, h, ho⟩ | ⟨h1, h2⟩ | ⟨q, d, h1, h2⟩
      · simp only [h]
        cases o <;> first | exact .left ho | simp [Out.settled] at ho
      · simp only [h]; exact .right ho
      · simp only [h1, h2, hlt, if_true]; exact .refl _
      · simp only [h1, h2]
        have hq := (hs p c q d hp h2).2
        have := ih m' k (i + 1) q d (by omega) hq
        unfold possThen mandThen at this
        exact this

end loops

/-- What follows a greedy repetition that does not collide with it: if it succeeds where an iteration is possible, then
it never fails. -/
theorem loop_tail {C : Cfg} (hC : C.greedyOpt = false) {s : List Ch} (hs : ∀ v ∈ s, IsCh v) {ml up : Bool} {n : Nat} {lb : Bool} {f : Flags}
    {a b : Nat} {m : List Re} {t : Stack} (hci : OneCase up f.ci (leavesSt (.re (.rep .greedy a b m) :: t))) (hml : f.ml = true → ml = true)
    (hst : steadySt ml (.re (.rep .greedy a b m) :: t) = true) (hcl : closed t = true) (hlc : loopCollides m t = some false)
    {p : Nat} {c : Caps} {q : Nat} {d : Caps} {x : Caps} (hp : p ≤ s.length)
    (hq : step (fun p c' => eval C n s lb p f.notEmpty c' (items m [.endCycle])) p c = .go q d)
    (hx : eval C n s lb p (f.consumed true) c t = .ok x) (q' : Nat) (e : Caps) :
    eval C n s lb q' (f.consumed true) e t ≠ .fail := by
  obtain ⟨hm, h2, h3⟩ := steadySt_body hst
  have hpl : p < s.length := by
    have := stepUp_eval C n s lb f (m := m) (by simp [progress, hm]) p c q d hp hq
    omega
  obtain ⟨y, hy⟩ := step_go_ok hq
  unfold loopCollides at hlc
  cases h4 : first (items m []) [] with
  | none => simp [h4] at hlc
  | some A =>
    cases h5 : first t [] with
    | none => simp [h4, h5] at hlc
    | some B =>
      simp only [h4, h5] at hlc
      have h6 : first (items m [.endCycle]) [] = some A := by rw [first_items] at h4 ⊢; exact h4
      have hA := first_sound hC n lb p f.notEmpty c (items m [.endCycle]) [] A y hpl
        (hci.mono (by simp +contextual [leavesSt_items, leavesSt, Re.leaves])) hml h2
        (.inl (by rw [movesSt_items, hm]; rfl)) (closed_items rfl) h6 hy
      have hB := first_sound hC n lb p (f.consumed true) c t [] B x hpl (hci.mono (by simp +contextual [leavesSt])) hml h3
        (steadySt_greedy hst) hcl h5 hx
      rcases hB with ⟨v, hv, hB⟩ | hB
      · rcases hA with ⟨v', hv', hA⟩ | hA
        · rw [hv] at hv'
          obtain rfl : v = v' := Option.some.inj hv'
          have sane : ∀ st : Stack, steadySt ml st = true → KSane (first st) := by
            intro st
            induction st with
            | nil => intro _ l x hl h; simp only [first, Option.some.injEq] at h; subst h; exact hl
            | cons i t ih =>
              intro hst l x hl h
              cases i with
              | re r =>
                simp only [steadySt, Bool.and_eq_true] at hst
                exact firstRe_sane r hst.1 (ih hst.2) l x hl h
              | startMark => simp [first] at h
              | endBehind => cases t <;> simp [first] at h
              | numMark id => exact ih hst l x hl h
              | accept => cases t <;> first | exact ih hst l x hl h | (simp only [first, Option.some.injEq] at h; subst h; exact hl)
              | endCycle => cases t <;> first | exact ih hst l x hl h | (simp only [first, Option.some.injEq] at h; subst h; exact hl)
              | endAhead => cases t <;> first | exact ih hst l x hl h | (simp only [first, Option.some.injEq] at h; subst h; exact hl)
              | endMark => cases t <;> first | exact ih hst l x hl h | (simp only [first, Option.some.injEq] at h; subst h; exact hl)
          exact (collides_disjoint (foldTo_isCh (hs v (List.mem_of_getElem? hv))) (sane _ h2 [] A (by simp [Sane]) h6)
            (sane _ h3 [] B (by simp [Sane]) h5) hlc hA hB).elim
        · have := freeSt_moves _ hA
          rw [movesSt_items, hm] at this
          simp at this
      · exact eval_free hC n lb q' _ e t rfl hB hcl

/-- The demand for consumption is absent or without effect. -/
def Quiet (f : Flags) (st : Stack) : Prop := f.blk = false ∨ Calm st

theorem quiet_next {f : Flags} {r : Re} {t st' : Stack} (h : Quiet f (.re r :: t))
    (h1 : movesSt (.re r :: t) = true → movesSt st' = true) (h2 : endsCycle st' → endsCycle t) : Quiet f st' := by
  rcases h with h | h | h
  · exact .inl h
  · exact .inr (.inl (h1 h))
  · exact .inr (.inr fun h' => h (h2 h'))

theorem quiet_consumed {f : Flags} {st : Stack} (h : Quiet f st) (b : Bool) : Quiet (f.consumed b) st := by
  rcases h with h | h
  · exact .inl (consumed_blk h b)
  · exact .inr h

/-- The two machines do not contradict each other on steady stacks. -/
theorem eval_agree {C D : Cfg} (hu : C.uni = D.uni) (hD : D.greedyOpt = false) {ml up : Bool} : ∀ n n' s lb cur f c st,
    (∀ v ∈ s, IsCh v) → cur ≤ s.length → OneCase up f.ci (leavesSt st) → (f.ml = true → ml = true) → steadySt ml st = true →
    closed st = true → Quiet f st → Agree (eval C n s lb cur f c st) (eval D n' s lb cur f c st) := by
  intro n
  induction n using Nat.strongRecOn with
  | _ n ih =>
  intro n' s lb cur f c st hs hcur hci hml hst hcl hq
  cases n with
  | zero => exact .left rfl
  | succ n =>
  cases n' with
  | zero => exact .right rfl
  | succ n' =>
  replace ih := fun m (h : m ≤ n) => ih m (by omega)
  rcases st with _ | ⟨i, t⟩
  · exact .refl _
  · cases i with
    | accept => cases t <;> exact .refl _
    | endAhead => cases t <;> exact .refl _
    | endBehind => cases t <;> exact .refl _
    | endCycle => cases t <;> exact .refl _
    | startMark =>
      rw [eval_startMark, eval_startMark]
      split
      · exact .refl _
      · exact ih n (Nat.le_refl _) _ _ _ _ _ _ _ hs hcur hci hml hst hcl hq
    | endMark =>
      rcases t with _ | ⟨j, t⟩
      · simp [closed] at hcl
      · cases j <;> cases t <;> simp [closed] at hcl
        rw [eval_endMark, eval_endMark]
        split
        · exact .refl _
        · exact ih n (Nat.le_refl _) _ _ _ _ _ _ _ hs hcur hci hml hst rfl (.inr (.inr (by simp [endsCycle])))
    | numMark id =>
      rw [eval_numMark, eval_numMark]
      split
      · exact .refl _
      · split
        · exact .refl _
        · exact ih n (Nat.le_refl _) _ _ _ _ _ _ _ hs hcur hci hml hst hcl hq
    | re r =>
      have hst' : steadySt ml t = true := by
        simp only [steadySt, Bool.and_eq_true] at hst; exact hst.2
      have hcl' : closed t = true := hcl
      have hci' : OneCase up f.ci (leavesSt t) := hci.mono (by simp +contextual [leavesSt])
      -- the rest of the stack after consumption
      have far : ∀ p c, p ≤ s.length →
          Agree (eval C n s lb p (f.consumed true) c t) (eval D n' s lb p (f.consumed true) c t) :=
        fun p c hp => ih n (Nat.le_refl _) _ _ _ _ _ _ _ hs hp hci' hml hst' hcl' (.inl rfl)
      have near : r.moves = false → ∀ p b c, p ≤ s.length →
          Agree (eval C n s lb p (f.consumed b) c t) (eval D n' s lb p (f.consumed b) c t) := by
        intro hr p b c hp
        refine ih n (Nat.le_refl _) _ _ _ _ _ _ _ hs hp (by rw [consumed_ci_eq]; exact hci') (by rw [consumed_ml_eq]; exact hml)
          hst' hcl' (quiet_consumed ?_ b)
        refine quiet_next hq (fun h => ?_) id
        simpa [movesSt, hr] using h
      have here : r.moves = false → ∀ c, Agree (eval C n s lb cur f c t) (eval D n' s lb cur f c t) := by
        intro hr c
        exact near hr cur false c hcur
      have test : r.isTest = true → r.moves = false →
          Agree (eval C (n+1) s lb cur f c (.re r :: t)) (eval D (n'+1) s lb cur f c (.re r :: t)) := by
        intro h1 h2
        rw [eval_test (h := h1), eval_test (h := h1), hu]
        split
        · exact .refl _
        · exact .refl _
        · exact here h2 c
      have go : ∀ st' c, steadySt ml st' = true → closed st' = true → (movesSt (.re r :: t) = true → movesSt st' = true) →
          (endsCycle st' → endsCycle t) → (∀ x ∈ leavesSt st', x ∈ leavesSt (.re r :: t)) → Agree (eval C n s lb cur f c st') (eval D n' s lb cur f c st') := by
        intro st' c h1 h2 h3 h4 h5
        exact ih n (Nat.le_refl _) _ _ _ _ _ _ _ hs hcur (hci.mono h5) hml h1 h2 (quiet_next hq h3 h4)
      cases r with
      | cc cl =>
        rw [eval_cc, eval_cc, hu]
        split
        · exact .refl _
        · split
          · exact .refl _
          · split
            · exact far _ _ (by omega)
            · exact .refl _
      | any =>
        rw [eval_any, eval_any]
        split
        · exact .refl _
        · split
          · split
            · exact .refl _
            · split
              · exact .refl _
              · exact far _ _ (by omega)
          · exact far _ _ (by omega)
      | reject => exact .refl _
      | str cs =>
        rw [eval_str, eval_str]
        split
        · exact .refl _
        · exact .refl _
        · rename_i p hp
          have hp' := matchString_cur hcur hp
          cases cs with
          | nil => exact near rfl _ _ _ hp'
          | cons => exact far _ _ hp'
      | sel l =>
        cases l with
        | nil => exact .refl _
        | cons r l =>
          rw [eval_sel_cons, eval_sel_cons]
          have h2 := steadySt_sel hst
          refine .orElse (go _ _ h2.1 hcl ?_ id (by simp +contextual [leavesSt, Re.leaves, leavesAll, or_imp])) fun _ _ =>
            go _ _ h2.2 hcl ?_ id (by simp +contextual [leavesSt, Re.leaves, leavesAll])
          · intro h
            simp only [movesSt, Re.moves, movesAll, Bool.or_eq_true, Bool.and_eq_true] at h ⊢
            rcases h with h | h
            · exact .inl h.1
            · exact .inr h
          · intro h
            simp only [movesSt, Re.moves, movesAll, Bool.or_eq_true, Bool.and_eq_true] at h ⊢
            rcases h with h | h
            · exact .inl h.2
            · exact .inr h
      | seq m =>
        rcases m with _ | ⟨r, _ | ⟨r', m⟩⟩
        · exact .refl _
        · rw [eval_seq_one, eval_seq_one]
          exact go _ _ (steadySt_one hst) hcl (fun h => by simpa [movesSt, Re.moves, movesAny] using h) id
            (by simp [leavesSt, Re.leaves, leavesAll])
        · rw [eval_seq_cons, eval_seq_cons]
          exact go _ _ (steadySt_seq hst) hcl (fun h => by simpa [movesSt, Re.moves, movesAny, or_assoc] using h) id
            (by simp [leavesSt, Re.leaves, leavesAll])
      | empty => rw [eval_empty, eval_empty]; exact here rfl c
      | rep k a b m =>
        obtain ⟨hm, h2, _⟩ := steadySt_body hst
        have hpr : progress m = true := by simp [progress, hm]
        have hb : ∀ n0, n0 ≤ n → ∀ m0 p c, p ≤ s.length →
            Agree (eval C n0 s lb p f.notEmpty c (items m [.endCycle])) (eval D m0 s lb p f.notEmpty c (items m [.endCycle])) := by
          intro n0 hn0 m0 p c hp
          exact ih n0 hn0 _ _ _ _ _ _ _ hs hp (hci.mono (by simp +contextual [leavesSt_items, leavesSt, Re.leaves])) hml h2 (closed_items rfl) (.inr (.inl (by rw [movesSt_items, hm]; rfl)))
        have hb1 := hb n (Nat.le_refl _) n'
        have hon : ∀ m0, StepOn s (fun p c' => eval D m0 s lb p f.notEmpty c' (items m [.endCycle])) :=
          fun m0 => stepOn_eval D m0 s lb f.notEmpty m
        -- after the possessive loop the demand for consumption has no effect
        have hposs : ∀ {E : Cfg} {n0 p' c'}, 
            possLoop (fun p c' => eval E n0 s lb p f.notEmpty c' (items m [.endCycle])) a b n0 0 cur c = .go p' c' →
            eval E n0 s lb p' (f.consumed (decide (cur ≠ p'))) c' t = eval E n0 s lb p' (f.consumed true) c' t := by
          intro E n0 p' c' hq1
          by_cases hp : cur ≠ p'
          · simp only [hp, ne_eq, not_false_eq_true, decide_true]
          · have hp : cur = p' := by omega
            subst hp
            simp only [ne_eq, not_true, decide_false]
            show eval E n0 s lb cur f c' t = eval E n0 s lb cur f.calm c' t
            by_cases ha : a = 0
            · subst ha
              have : Quiet f t := quiet_next hq (fun h => by simpa [movesSt, Re.moves] using h) id
              rcases this with h | h
              · have : f.calm = f := by cases f; simp_all [Flags.calm]
                rw [this]
              · exact eval_calm E _ _ _ _ _ _ _ hcur h
            · have := possLoop_up (stepUp_eval E n0 s lb f hpr) (by omega) hcur hq1
              omega
        have hmand : ∀ {E : Cfg} {n0 p' c'}, 
            mandLoop (fun p c' => eval E n0 s lb p f.notEmpty c' (items m [.endCycle])) a cur c = .go p' c' →
            eval E n0 s lb p' (f.consumed (decide (cur ≠ p'))) c' t = eval E n0 s lb p' (f.consumed true) c' t := by
          intro E n0 p' c' hq1
          by_cases hp : cur ≠ p'
          · simp only [hp, ne_eq, not_false_eq_true, decide_true]
          · have hp : cur = p' := by omega
            subst hp
            simp only [ne_eq, not_true, decide_false]
            show eval E n0 s lb cur f c' t = eval E n0 s lb cur f.calm c' t
            by_cases ha : a = 0
            · subst ha
              have : Quiet f t := quiet_next hq (fun h => by simpa [movesSt, Re.moves] using h) id
              rcases this with h | h
              · have : f.calm = f := by cases f; simp_all [Flags.calm]
                rw [this]
              · exact eval_calm E _ _ _ _ _ _ _ hcur h
            · have := mandLoop_up (stepUp_eval E n0 s lb f hpr) (by omega) hcur hq1
              omega
        cases k with
        | greedy =>
          simp only [eval_greedy, hD, greedyRecRef_eq, ite_self]
          split
          · exact .refl _
          · rename_i hab
            split
            · exact .refl _
            · rename_i hlb
              simp only [Bool.false_eq_true, if_false]
              have plain : Agree
                  (match mandLoop (fun p c' => eval C n s lb p f.notEmpty c' (items m [.endCycle])) a cur c with
                    | .stop o => o
                    | .go p c' => greedyRec (fun p c' => eval C n s lb p f.notEmpty c' (items m [.endCycle]))
                        (fun p c' => eval C n s lb p (f.consumed true) c' t) b n a p c')
                  (match mandLoop (fun p c' => eval D n' s lb p f.notEmpty c' (items m [.endCycle])) a cur c with
                    | .stop o => o
                    | .go p c' => greedyRec (fun p c' => eval D n' s lb p f.notEmpty c' (items m [.endCycle]))
                        (fun p c' => eval D n' s lb p (f.consumed true) c' t) b n' a p c') := by
                have hL := mandLoop_agree hb1 (hon n') a cur c hcur
                cases h1 : mandLoop (fun p c' => eval C n s lb p f.notEmpty c' (items m [.endCycle])) a cur c with
                | stop o =>
                  cases h3 : mandLoop (fun p c' => eval D n' s lb p f.notEmpty c' (items m [.endCycle])) a cur c with
                  | stop o' =>
                    rw [h1, h3] at hL
                    dsimp only
                    intro e1 e2
                    exact Loop.stop.inj (hL e1 e2)
                  | go p c' =>
                    rw [h1, h3] at hL
                    dsimp only
                    intro e1 e2
                    have := hL e1 rfl
                    simp at this
                | go p c' =>
                  cases h3 : mandLoop (fun p c' => eval D n' s lb p f.notEmpty c' (items m [.endCycle])) a cur c with
                  | stop o' =>
                    rw [h1, h3] at hL
                    dsimp only
                    intro e1 e2
                    have := hL rfl e2
                    simp at this
                  | go p' c'' =>
                    rw [h1, h3] at hL
                    have := hL rfl rfl
                    simp only [Loop.go.injEq] at this
                    obtain ⟨rfl, rfl⟩ := this
                    exact greedyRec_agree hb1 (hon n') far n n' a p c' (mandLoop_on (hon n') _ _ _ _ _ hcur h3).2
              split
              · exact .left rfl
              · rename_i hlc
                have hlc' : loopCollides m t = some false := by
                  split at hlc
                  · exact hlc
                  · simp at hlc
                cases n with
                | zero => exact .left rfl
                | succ n =>
                  have e : eval C (n + 1) s lb cur f c (.re (.rep .poss a b m) :: t) =
                      possThen (fun p c' => eval C n s lb p f.notEmpty c' (items m [.endCycle]))
                        (fun p c' => eval C n s lb p (f.consumed true) c' t) a b n 0 cur c := by
                    rw [eval_poss, if_neg hab, if_neg hlb]
                    unfold possThen
                    cases h1 : possLoop (fun p c' => eval C n s lb p f.notEmpty c' (items m [.endCycle])) a b n 0 cur c with
                    | stop o => rfl
                    | go p c' => exact hposs h1
                  rw [e]
                  refine poss_mand (hb n (by omega) n') (hon n') ?_ (by omega) ?_ n n' a 0 cur c (by omega) hcur
                  · intro p c hp
                    exact ih n (by omega) _ _ _ _ _ _ _ hs hp hci' hml hst' hcl' (.inl rfl)
                  · intro p c q d x hp h1 h3 e
                    exact loop_tail hD hs hci hml hst hcl' hlc' hp h1 h3 q e
              · exact plain
        | lazy =>
          simp only [eval_lazy]
          split
          · exact .refl _
          · split
            · exact .refl _
            · have hL := mandLoop_agree hb1 (hon n') a cur c hcur
              cases h1 : mandLoop (fun p c' => eval C n s lb p f.notEmpty c' (items m [.endCycle])) a cur c with
              | stop o =>
                cases h3 : mandLoop (fun p c' => eval D n' s lb p f.notEmpty c' (items m [.endCycle])) a cur c with
                | stop o' =>
                  rw [h1, h3] at hL
                  dsimp only
                  intro e1 e2
                  exact Loop.stop.inj (hL e1 e2)
                | go p c' =>
                  rw [h1, h3] at hL
                  dsimp only
                  intro e1 e2
                  have := hL e1 rfl
                  simp at this
              | go p c' =>
                cases h3 : mandLoop (fun p c' => eval D n' s lb p f.notEmpty c' (items m [.endCycle])) a cur c with
                | stop o' =>
                  rw [h1, h3] at hL
                  dsimp only
                  intro e1 e2
                  have := hL rfl e2
                  simp at this
                | go p' c'' =>
                  rw [h1, h3] at hL
                  have := hL rfl rfl
                  simp only [Loop.go.injEq] at this
                  obtain ⟨rfl, rfl⟩ := this
                  have hp := (mandLoop_on (hon n') _ _ _ _ _ hcur h3).2
                  dsimp only
                  rw [hmand h1, hmand h3]
                  exact .orElse (far _ _ hp) fun _ _ => lazyLoop_agree hb1 (hon n') far n n' a p c' hp
        | poss =>
          simp only [eval_poss]
          split
          · exact .refl _
          · split
            · exact .refl _
            · have hL := possLoop_agree hb1 (hon n') (a := a) (b := b) n n' 0 cur c hcur
              cases h1 : possLoop (fun p c' => eval C n s lb p f.notEmpty c' (items m [.endCycle])) a b n 0 cur c with
              | stop o =>
                cases h3 : possLoop (fun p c' => eval D n' s lb p f.notEmpty c' (items m [.endCycle])) a b n' 0 cur c with
                | stop o' =>
                  rw [h1, h3] at hL
                  dsimp only
                  intro e1 e2
                  exact Loop.stop.inj (hL e1 e2)
                | go p c' =>
                  rw [h1, h3] at hL
                  dsimp only
                  intro e1 e2
                  have := hL e1 rfl
                  simp at this
              | go p c' =>
                cases h3 : possLoop (fun p c' => eval D n' s lb p f.notEmpty c' (items m [.endCycle])) a b n' 0 cur c with
                | stop o' =>
                  rw [h1, h3] at hL
                  dsimp only
                  intro e1 e2
                  have := hL rfl e2
                  simp at this
                | go p' c'' =>
                  rw [h1, h3] at hL
                  have := hL rfl rfl
                  simp only [Loop.go.injEq] at this
                  obtain ⟨rfl, rfl⟩ := this
                  have hp := (possLoop_on (hon n') _ _ _ _ _ _ hcur h3).2
                  dsimp only
                  rw [hposs h1, hposs h3]
                  exact far _ _ hp
      | cap id nm m =>
        rw [eval_cap, eval_cap]
        split
        · exact .refl _
        · split
          · exact .refl _
          · exact go _ _ (steadySt_cap hst) hcl (fun h => by simpa [movesSt, Re.moves] using h) (fun h => h)
              (by simp [leavesSt, Re.leaves, leavesAll])
      | bref id =>
        rw [eval_bref, eval_bref]
        split
        · exact .refl _
        · split <;> try exact .refl _
          rename_i hq
          exact near rfl _ _ _ (brefCmp_pos hcur hq).2
      | brefName id =>
        rw [eval_brefName, eval_brefName]
        split
        · exact .refl _
        · split <;> try exact .refl _
          rename_i hq
          exact near rfl _ _ _ (brefCmp_pos hcur hq).2
      | ahead pos m =>
        have h2 : steadySt ml [.re (.seq m), .endAhead] = true := by
          simp only [steadySt, Re.steady, Bool.and_eq_true] at hst
          simpa [steadySt, Re.steady, movesSt, testsSt] using hst.1
        have h3 := ih n (Nat.le_refl _) n' s lb cur f c _ hs hcur
          (hci.mono (m := leavesSt [.re (.seq m), .endAhead]) (by simp +contextual [leavesSt, Re.leaves])) hml h2 rfl (.inr (.inr (by simp [endsCycle])))
        rw [eval_ahead, eval_ahead]
        cases h4 : eval C n s lb cur f c [.re (.seq m), .endAhead] with
        | fail =>
          cases h5 : eval D n' s lb cur f c [.re (.seq m), .endAhead] with
          | fail =>
            dsimp only
            split
            · exact .refl _
            · exact here rfl c
          | ok x => rw [h4, h5] at h3; exact absurd (h3 rfl rfl) (by simp)
          | _ => exact .right rfl
        | ok x =>
          cases h5 : eval D n' s lb cur f c [.re (.seq m), .endAhead] with
          | fail => rw [h4, h5] at h3; exact absurd (h3 rfl rfl) (by simp)
          | ok x' =>
            rw [h4, h5] at h3
            obtain rfl := Out.ok.inj (h3 rfl rfl)
            dsimp only
            split
            · exact here rfl _
            · exact .refl _
          | _ => exact .right rfl
        | _ => exact .left rfl
      | behind pos m =>
        have h2 : steadySt ml [.re (.seq m), .endBehind] = true := by
          simp only [steadySt, Re.steady, Bool.and_eq_true] at hst
          simpa [steadySt, Re.steady, movesSt, testsSt] using hst.1
        have h3 := ih n (Nat.le_refl _) n' s.reverse true (s.length - cur) f c _ (by simpa using hs) (by simp)
          (hci.mono (m := leavesSt [.re (.seq m), .endBehind]) (by simp +contextual [leavesSt, Re.leaves])) hml h2 rfl
          (.inr (.inr (by simp [endsCycle])))
        rw [eval_behind, eval_behind]
        cases h4 : eval C n s.reverse true (s.length - cur) f c [.re (.seq m), .endBehind] with
        | fail =>
          cases h5 : eval D n' s.reverse true (s.length - cur) f c [.re (.seq m), .endBehind] with
          | fail =>
            dsimp only
            split
            · exact .refl _
            · exact here rfl c
          | ok x => rw [h4, h5] at h3; exact absurd (h3 rfl rfl) (by simp)
          | _ => exact .right rfl
        | ok x =>
          cases h5 : eval D n' s.reverse true (s.length - cur) f c [.re (.seq m), .endBehind] with
          | fail => rw [h4, h5] at h3; exact absurd (h3 rfl rfl) (by simp)
          | ok x' =>
            rw [h4, h5] at h3
            obtain rfl := Out.ok.inj (h3 rfl rfl)
            dsimp only
            split
            · exact here rfl _
            · exact .refl _
          | _ => exact .right rfl
        | _ => exact .left rfl
      | atomic m =>
        rw [eval_atomic, eval_atomic]
        exact go _ _ (steadySt_atomic hst) hcl (fun h => by simpa [movesSt, Re.moves] using h) (fun h => h)
            (by simp [leavesSt, Re.leaves, leavesAll])
      | mode md =>
        rw [eval_mode, eval_mode]
        refine ih n (Nat.le_refl _) _ _ _ _ _ _ _ hs hcur ?_ ?_ hst' hcl' ?_
        · exact OneCase.add hci
        · cases md <;> first | exact hml | (intro h; simp [Flags.add] at h; done) | (intro _; simp [steadySt, Re.steady] at hst; exact hst.1)
        · rcases hq with h | h | h
          · exact .inl (by cases md <;> exact h)
          · exact .inr (.inl (by simpa [movesSt, Re.moves] using h))
          · exact .inr (.inr h)
      | boundary cl => exact test rfl rfl
      | notBoundary cl => exact test rfl rfl
      | sBegin => exact test rfl rfl
      | sEnd => exact test rfl rfl
      | sEndLine => exact test rfl rfl
      | lBegin => exact test rfl rfl
      | lEnd => exact test rfl rfl

end Ctre
