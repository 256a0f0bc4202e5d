import Verif.Lemmas.FirstRun

/-
Stacks which cannot fail, and stacks which do not depend on the demand for consumption.
-/
namespace Ctre

section loops
variable {body tail : Nat → Caps → Out}

theorem greedyRec_fail {b m i p : Nat} {c : Caps} (h : greedyRec body tail b m i p c = .fail) :
    ∃ c, tail p c = .fail := by
  cases m with
  | zero => simp [greedyRec] at h
  | succ m =>
    unfold greedyRec at h
    split at h
    · split at h
      · exact ⟨c, h⟩
      · rename_i h1 h2
        subst h
        exact (h1 rfl).elim
      · split at h
        · exact ⟨c, h⟩
        · simp_all
    · exact ⟨c, h⟩

theorem possLoop_no_fail {b m i p : Nat} {c : Caps} : possLoop body 0 b m i p c ≠ .stop .fail := by
  induction m generalizing i p c with
  | zero => simp [possLoop]
  | succ m ih =>
    unfold possLoop
    split
    · split
      · simp [lessThan]
      · rename_i o h1 h2
        intro h
        simp only [Loop.stop.injEq] at h
        subst h
        simp_all
      · exact ih
    · simp

end loops

theorem consumed_blk {f : Flags} (h : f.blk = false) (b : Bool) : (f.consumed b).blk = false := by
  cases b <;> simp [Flags.consumed, h]

/-- A stack that succeeds on empty text everywhere does not fail. -/
theorem eval_free {C : Cfg} (hC : C.greedyOpt = false) {s : List Ch} : ∀ n lb cur f c st, f.blk = false → freeSt st = true →
    closed st = true → eval C n s lb cur f c st ≠ .fail := by
  intro n
  induction n with
  | zero => intros; simp [eval_zero]
  | succ n ih =>
    intro lb cur f c st hf hfr hcl
    rcases st with _ | ⟨i, t⟩
    · simp [closed] at hcl
    · cases i with
      | accept => cases t with
        | nil => simp [eval_accept]
        | cons => simp [closed] at hcl
      | endCycle => cases t with
        | nil => rw [eval_endCycle, hf]; cases lb <;> simp
        | cons => simp [closed] at hcl
      | endAhead => cases t with
        | nil => simp [eval_endAhead]
        | cons => simp [closed] at hcl
      | endBehind => cases t with
        | nil => simp [eval_endBehind]
        | cons => simp [closed] at hcl
      | startMark =>
        rw [eval_startMark]
        split
        · simp
        · exact ih _ _ _ _ _ hf hfr hcl
      | endMark =>
        rcases t with _ | ⟨j, t⟩
        · simp [closed] at hcl
        · cases j <;> cases t <;> simp [closed] at hcl
          rw [eval_endMark]
          split
          · simp
          · exact ih _ _ _ _ _ hf rfl rfl
      | numMark id =>
        rw [eval_numMark]
        split
        · simp
        · split
          · simp
          · exact ih _ _ _ _ _ hf hfr hcl
      | re r =>
        simp only [freeSt, Bool.and_eq_true] at hfr
        have hcl' : closed t = true := hcl
        cases r with
        | empty => rw [eval_empty]; exact ih _ _ _ _ _ hf hfr.2 hcl'
        | str cs =>
          have : cs = [] := by simpa [Re.free] using hfr.1
          subst this
          rw [eval_str]
          simp only [matchString]
          exact ih _ _ _ _ _ (consumed_blk hf _) hfr.2 hcl'
        | sel l =>
          cases l with
          | nil => simp [Re.free, freeAny] at hfr
          | cons r l =>
            rw [eval_sel_cons, ne_eq, Out.orElse_eq_fail]
            rintro ⟨h1, h2⟩
            simp only [Re.free, freeAny, Bool.or_eq_true] at hfr
            rcases hfr.1 with h | h
            · exact ih _ _ _ _ (.re r :: t) hf (by simp [freeSt, h, hfr.2]) hcl h1
            · exact ih _ _ _ _ (.re (.sel l) :: t) hf (by simp [freeSt, Re.free, h, hfr.2]) hcl h2
        | seq m =>
          rcases m with _ | ⟨r, _ | ⟨r', m⟩⟩
          · simp [Re.free] at hfr
          · rw [eval_seq_one]
            exact ih _ _ _ _ _ hf (by simpa [freeSt, Re.free, freeAll] using hfr) hcl
          · rw [eval_seq_cons]
            exact ih _ _ _ _ _ hf (by simpa [freeSt, Re.free, freeAll, and_assoc] using hfr) hcl
        | cap id nm m =>
          rw [eval_cap]
          split
          · simp
          · split
            · simp
            · exact ih _ _ _ _ _ hf (by simpa [freeSt, Re.free] using hfr) hcl
        | rep k a b m =>
          have ha : a = 0 := by simpa [Re.free] using hfr.1
          subst ha
          cases k with
          | greedy =>
            simp only [eval_greedy, hC, greedyRecRef_eq, ite_self, mandLoop]
            rw [if_neg (by omega)]
            split
            · simp
            · simp only [Bool.false_eq_true, if_false]
              intro h
              obtain ⟨c', h⟩ := greedyRec_fail h
              exact ih _ _ _ _ _ rfl hfr.2 hcl' h
          | lazy =>
            simp only [eval_lazy, mandLoop]
            rw [if_neg (by omega)]
            split
            · simp
            · rw [ne_eq, Out.orElse_eq_fail]
              exact fun h => ih _ _ _ _ _ (consumed_blk hf _) hfr.2 hcl' h.1
          | poss =>
            simp only [eval_poss]
            rw [if_neg (by omega)]
            split
            · simp
            · split
              · rename_i o ho
                rintro rfl
                exact possLoop_no_fail ho
              · exact ih _ _ _ _ _ (consumed_blk hf _) hfr.2 hcl'
        | _ => simp [Re.free] at hfr

/-- The flags without the demand for consumption. -/
def Flags.calm (f : Flags) : Flags := { f with blk := false }

/-- The demand for consumption has no effect. -/
def Calm (st : Stack) : Prop := movesSt st = true ∨ ¬ endsCycle st

theorem stepUp_eval (C : Cfg) (n : Nat) (s : List Ch) (lb : Bool) (f : Flags) {m : List Re} (h : progress m = true) :
    StepUp s (fun p c' => eval C n s lb p f.notEmpty c' (items m [.endCycle])) := by
  intro p c p' c' hp hq
  unfold step at hq
  split at hq
  · rename_i r hr
    obtain ⟨e, he, h3, h4⟩ := eval_moves C n s lb p f.notEmpty c _ hp (endsPos_items (by simp [endsPos])) (moves_items h) r hr
    rw [he] at hq
    simp only [Loop.go.injEq] at hq
    omega
  · simp at hq

theorem testAt_calm (U : Uni) (s : List Ch) (cur : Nat) (f : Flags) (r : Re) : testAt U s cur f.calm r = testAt U s cur f r := by
  cases r <;> rfl

theorem calm_consumed (f : Flags) : f.calm.consumed true = f.consumed true := rfl
theorem calm_consumed_eq (f : Flags) (b : Bool) : f.calm.consumed b = (f.consumed b).calm := by cases b <;> rfl
theorem consumed_calm (f : Flags) : (f.consumed true).calm = f.consumed true := rfl
theorem calm_notEmpty (f : Flags) : f.calm.notEmpty = f.notEmpty := rfl
theorem calm_add (f : Flags) (m : Mode) : f.calm.add m = (f.add m).calm := by cases m <;> rfl
theorem calm_ci (f : Flags) : f.calm.ci = f.ci := rfl
theorem calm_ml (f : Flags) : f.calm.ml = f.ml := rfl

/-- The demand for consumption matters only in the rest of an iteration that may be empty. -/
theorem eval_calm (C : Cfg) : ∀ n s lb cur f c st, cur ≤ s.length → Calm st →
    eval C n s lb cur f c st = eval C n s lb cur f.calm c st := by
  intro n
  induction n with
  | zero => intros; rfl
  | succ n ih =>
    intro s lb cur f c st hcur hst
    rcases st with _ | ⟨i, t⟩
    · rfl
    · cases i with
      | accept => cases t <;> rfl
      | endAhead => cases t <;> rfl
      | endBehind => cases t <;> rfl
      | endCycle =>
        cases t with
        | cons => rfl
        | nil => rcases hst with h | h
                 · simp [movesSt] at h
                 · simp [endsCycle] at h
      | startMark =>
        rw [eval_startMark, eval_startMark, ih _ _ _ _ _ t hcur hst]
      | endMark =>
        rw [eval_endMark, eval_endMark, ih _ _ _ _ _ t hcur hst]
      | numMark id =>
        rw [eval_numMark, eval_numMark]
        split
        · rfl
        · split
          · rfl
          · exact ih _ _ _ _ _ _ hcur hst
      | re r =>
        have near : r.moves = false → ∀ p c, p ≤ s.length →
            eval C n s lb p f c t = eval C n s lb p f.calm c t := by
          intro hr p c hp
          refine ih _ _ _ _ _ _ hp ?_
          rcases hst with h | h
          · exact .inl (by simpa [movesSt, hr] using h)
          · exact .inr h
        have cons : r.moves = false → ∀ p b c, p ≤ s.length →
            eval C n s lb p (f.consumed b) c t = eval C n s lb p (f.calm.consumed b) c t := by
          intro hr p b c hp
          cases b with
          | true => rfl
          | false => exact near hr p c hp
        have go : ∀ st', (movesSt (.re r :: t) = true → movesSt st' = true) → (endsCycle st' → endsCycle (.re r :: t)) → ∀ c,
            eval C n s lb cur f c st' = eval C n s lb cur f.calm c st' := by
          intro st' h1 h2 c
          refine ih _ _ _ _ _ _ hcur ?_
          rcases hst with h | h
          · exact .inl (h1 h)
          · exact .inr fun h' => h (h2 h')
        have hon : ∀ m, StepOn s (fun p c' => eval C n s lb p f.notEmpty c' (items m [.endCycle])) :=
          fun m => stepOn_eval C n s lb f.notEmpty m
        have hrep : ∀ {k a b m}, r = .rep k a b m → r.moves = true → 1 ≤ a ∧ progress m = true := by
          rintro k a b m rfl h
          simpa [Re.moves, progress] using h
        have test : r.isTest = true → r.moves = false → 
            eval C (n+1) s lb cur f c (.re r :: t) = eval C (n+1) s lb cur f.calm c (.re r :: t) := by
          intro h1 h2
          rw [eval_test (h := h1), eval_test (h := h1), testAt_calm, near h2 _ _ hcur]
        cases r with
        | cc cl => rw [eval_cc, eval_cc]; rfl
        | any => rw [eval_any, eval_any]; rfl
        | reject => rfl
        | str cs =>
          rw [eval_str, eval_str, calm_ci]
          split
          · rfl
          · rfl
          · rename_i p hp
            cases cs with
            | nil => exact cons rfl _ _ _ (matchString_cur hcur hp)
            | cons => rfl
        | sel l =>
          cases l with
          | nil => rfl
          | cons r l =>
            rw [eval_sel_cons, eval_sel_cons, go (.re r :: t), go (.re (.sel l) :: t)]
            · intro h
              simp only [movesSt, Re.moves, movesAll, Bool.or_eq_true, Bool.and_eq_true] at h ⊢
              rcases h with h | h
              · exact .inl h.2
              · exact .inr h
            · exact id
            · intro h
              simp only [movesSt, Re.moves, movesAll, Bool.or_eq_true, Bool.and_eq_true] at h ⊢
              rcases h with h | h
              · exact .inl h.1
              · exact .inr h
            · exact id
        | seq m =>
          rcases m with _ | ⟨r, _ | ⟨r', m⟩⟩
          · rfl
          · rw [eval_seq_one, eval_seq_one, go (.re r :: t)]
            · intro h; simpa [movesSt, Re.moves, movesAny] using h
            · exact id
          · rw [eval_seq_cons, eval_seq_cons, go]
            · intro h; simpa [movesSt, Re.moves, movesAny, or_assoc] using h
            · exact id
        | empty => rw [eval_empty, eval_empty, near rfl _ _ hcur]
        | rep k a b m =>
          have hposs : ∀ {p' c'}, 
              possLoop (fun p c' => eval C n s lb p f.notEmpty c' (items m [.endCycle])) a b n 0 cur c = .go p' c' →
              eval C n s lb p' (f.consumed (decide (cur ≠ p'))) c' t = eval C n s lb p' (f.calm.consumed (decide (cur ≠ p'))) c' t := by
            intro p' c' hq
            have h1 := possLoop_on (hon m) _ _ _ _ _ _ hcur hq
            by_cases hp : cur ≠ p'
            · simp only [hp, ne_eq, not_false_eq_true, decide_true]; rfl
            · refine cons ?_ _ _ _ h1.2
              cases hc : (Re.rep k a b m).moves with
              | false => rfl
              | true =>
                have h2 := hrep rfl hc
                have := possLoop_up (stepUp_eval C n s lb f h2.2) h2.1 hcur hq
                omega
          have hmand : ∀ {p' c'}, 
              mandLoop (fun p c' => eval C n s lb p f.notEmpty c' (items m [.endCycle])) a cur c = .go p' c' →
              eval C n s lb p' (f.consumed (decide (cur ≠ p'))) c' t = eval C n s lb p' (f.calm.consumed (decide (cur ≠ p'))) c' t := by
            intro p' c' hq
            have h1 := mandLoop_on (hon m) _ _ _ _ _ hcur hq
            by_cases hp : cur ≠ p'
            · simp only [hp, ne_eq, not_false_eq_true, decide_true]; rfl
            · refine cons ?_ _ _ _ h1.2
              cases hc : (Re.rep k a b m).moves with
              | false => rfl
              | true =>
                have h2 := hrep rfl hc
                have := mandLoop_up (stepUp_eval C n s lb f h2.2) h2.1 hcur hq
                omega
          cases k with
          | greedy =>
            simp only [eval_greedy, calm_notEmpty, calm_consumed]
            split
            · rfl
            · split
              · rfl
              · split
                · rfl
                · exact go (.re (.rep .poss a b m) :: t) (fun h => by simpa [movesSt, Re.moves] using h) (fun h => h) c
                · rfl
          | lazy =>
            simp only [eval_lazy, calm_notEmpty, calm_consumed]
            split
            · rfl
            · split
              · rfl
              · split
                · rfl
                · rename_i hq
                  rw [hmand hq]
          | poss =>
            simp only [eval_poss, calm_notEmpty]
            split
            · rfl
            · split
              · rfl
              · split
                · rfl
                · rename_i hq
                  rw [hposs hq]
        | cap id nm m =>
          rw [eval_cap, eval_cap]
          split
          · rfl
          · split
            · rfl
            · refine go _ ?_ ?_ _
              · intro h; simpa [movesSt, Re.moves] using h
              · exact fun h => h
        | bref id =>
          rw [eval_bref, eval_bref]
          split
          · rfl
          · split <;> try rfl
            rename_i hq
            exact cons rfl _ _ _ (brefCmp_pos hcur hq).2
        | brefName id =>
          rw [eval_brefName, eval_brefName]
          split
          · rfl
          · split <;> try rfl
            rename_i hq
            exact cons rfl _ _ _ (brefCmp_pos hcur hq).2
        | ahead pos m =>
          rw [eval_ahead, eval_ahead, ih _ _ _ _ _ [.re (.seq m), .endAhead] hcur (.inr (by simp [endsCycle])), near rfl _ _ hcur]
          split
          · rw [near rfl _ _ hcur]
          · rfl
          · rfl
        | behind pos m =>
          rw [eval_behind, eval_behind, ih _ _ _ _ _ [.re (.seq m), .endBehind] (by simp) (.inr (by simp [endsCycle])), near rfl _ _ hcur]
          split
          · rw [near rfl _ _ hcur]
          · rfl
          · rfl
        | atomic m =>
          rw [eval_atomic, eval_atomic]
          refine go (.re (.rep .poss 1 1 m) :: t) ?_ (fun h => h) c
          intro h; simpa [movesSt, Re.moves] using h
        | mode m =>
          rw [eval_mode, eval_mode, calm_add]
          refine ih _ _ _ _ _ _ hcur ?_
          rcases hst with h | h
          · exact .inl (by simpa [movesSt, Re.moves] using h)
          · exact .inr h
        | boundary cl => exact test rfl rfl
        | notBoundary cl => exact test rfl rfl
        | sBegin => exact test rfl rfl
        | sEnd => exact test rfl rfl
        | sEndLine => exact test rfl rfl
        | lBegin => exact test rfl rfl
        | lEnd => exact test rfl rfl

end Ctre
