import Verif.Lemmas.GreedyOpt
import Verif.Lemmas.Flat
import Verif.Spec.Sharpen

/-
The machine with the replacement of greedy by possessive repetition on a pattern agrees with the machine without it on
the sharpened pattern.
-/
namespace Ctre

theorem sharpenSt_items : ∀ (l : List Re) (t : Stack), sharpenSt (items l t) = items (sharpenAll t l) (sharpenSt t)
  | [], _ => rfl
  | r :: l, t => by
    show Item.re (r.sharpen (items l t)) :: sharpenSt (items l t) =
      Item.re (r.sharpen (items l t)) :: items (sharpenAll t l) (sharpenSt t)
    rw [sharpenSt_items l t]

mutual
/-- Only the first characters of what follows matter. -/
theorem Re.sharpen_congr {t t' : Stack} (h : first t = first t') : ∀ r : Re, r.sharpen t = r.sharpen t'
  | .sel l => by simp only [Re.sharpen, sharpenEach_congr h l]
  | .seq l => by simp only [Re.sharpen, sharpenAll_congr h l]
  | .cap id name l => by
    have : first (.numMark id :: t) = first (.numMark id :: t') := by funext x; simp only [first, h]
    simp only [Re.sharpen, sharpenAll_congr this l]
  | .rep k a b l => by
    have e : loopCollides l t = loopCollides l t' := by unfold loopCollides; rw [h]
    have : sharpKind l t k = sharpKind l t' k := by cases k <;> simp only [sharpKind, e]
    simp only [Re.sharpen, this]
  | .cc _ | .any | .str _ | .empty | .bref _ | .brefName _ | .ahead _ _ | .behind _ _ | .atomic _ | .boundary _ | .notBoundary _
  | .sBegin | .sEnd | .sEndLine | .lBegin | .lEnd | .mode _ | .reject _ => by simp only [Re.sharpen]

theorem sharpenAll_congr {t t' : Stack} (h : first t = first t') : ∀ l : List Re, sharpenAll t l = sharpenAll t' l
  | [] => rfl
  | r :: l => by
    have : first (items l t) = first (items l t') := by rw [first_items_nil, first_items_nil, h]
    simp only [sharpenAll, Re.sharpen_congr this r, sharpenAll_congr h l]

theorem sharpenEach_congr {t t' : Stack} (h : first t = first t') : ∀ l : List Re, sharpenEach t l = sharpenEach t' l
  | [] => rfl
  | r :: l => by simp only [sharpenEach, Re.sharpen_congr h r, sharpenEach_congr h l]
end

theorem first_seq (m : List Re) (t : Stack) : first (.re (.seq m) :: t) = first (items m t) := by
  rw [first_items_nil]; rfl

/-- Agreement of loops followed by agreeing continuations. -/
theorem loop_then {x y : Loop} (h : LAgree x y) {g g' : Nat → Caps → Out} (hg : ∀ p c, y = .go p c → Agree (g p c) (g' p c)) :
    Agree (match (generalizing := false) x with | .stop o => o | .go p c => g p c)
      (match (generalizing := false) y with | .stop o => o | .go p c => g' p c) := by
  cases x with
  | stop o =>
    cases y with
    | stop o' => intro e1 e2; exact Loop.stop.inj (h e1 e2)
    | go p c => intro e1 e2; have := h e1 rfl; simp at this
  | go p c =>
    cases y with
    | stop o' => intro e1 e2; have := h rfl e2; simp at this
    | go p' c' =>
      have := h rfl rfl
      simp only [Loop.go.injEq] at this
      obtain ⟨rfl, rfl⟩ := this
      exact hg _ _ rfl

/-- The machine with the optimisation on a stack and the one without it on the sharpened stack do not contradict each
other. -/
theorem eval_sharpen {C D : Cfg} (hu : C.uni = D.uni) (hC : C.greedyOpt = true) (hD : D.greedyOpt = false) :
    ∀ n n' s lb cur f c st, cur ≤ s.length → Agree (eval C n s lb cur f c st) (eval D n' s lb cur f c (sharpenSt st)) := by
  intro n
  induction n with
  | zero => intros; exact .left rfl
  | succ n ih =>
  intro n' s lb cur f c st hcur
  cases n' with
  | zero => exact .right rfl
  | succ n' =>
  rcases st with _ | ⟨i, t⟩
  · exact .refl _
  · cases i with
    | accept => rcases t with _ | ⟨_ | _, _⟩ <;> exact .refl _
    | endAhead => rcases t with _ | ⟨_ | _, _⟩ <;> exact .refl _
    | endBehind => rcases t with _ | ⟨_ | _, _⟩ <;> exact .refl _
    | endCycle => rcases t with _ | ⟨_ | _, _⟩ <;> exact .refl _
    | startMark =>
      simp only [sharpenSt, eval_startMark]
      split
      · exact .refl _
      · exact ih _ _ _ _ _ _ _ hcur
    | endMark =>
      simp only [sharpenSt, eval_endMark]
      split
      · exact .refl _
      · exact ih _ _ _ _ _ _ _ hcur
    | numMark id =>
      simp only [sharpenSt, eval_numMark]
      split
      · exact .refl _
      · split
        · exact .refl _
        · exact ih _ _ _ _ _ _ _ hcur
    | re r =>
      have next : ∀ p f c, p ≤ s.length → Agree (eval C n s lb p f c t) (eval D n' s lb p f c (sharpenSt t)) :=
        fun p f c hp => ih _ _ _ _ _ _ _ hp
      have test : r.isTest = true → r.sharpen t = r →
          Agree (eval C (n+1) s lb cur f c (.re r :: t)) (eval D (n'+1) s lb cur f c (.re r :: sharpenSt t)) := by
        intro h1 _
        rw [eval_test (h := h1), eval_test (h := h1), hu]
        split
        · exact .refl _
        · exact .refl _
        · exact next _ _ _ hcur
      show Agree _ (eval D (n'+1) s lb cur f c (.re (r.sharpen t) :: sharpenSt t))
      cases r with
      | cc cl =>
        simp only [Re.sharpen, eval_cc, hu]
        split
        · exact .refl _
        · split
          · exact .refl _
          · split
            · exact next _ _ _ (by omega)
            · exact .refl _
      | any =>
        simp only [Re.sharpen, eval_any]
        split
        · exact .refl _
        · split
          · split
            · exact .refl _
            · split
              · exact .refl _
              · exact next _ _ _ (by omega)
          · exact next _ _ _ (by omega)
      | reject => exact .refl _
      | str cs =>
        simp only [Re.sharpen, eval_str]
        split
        · exact .refl _
        · exact .refl _
        · rename_i p hp
          exact next _ _ _ (matchString_cur hcur hp)
      | sel l =>
        cases l with
        | nil => exact .refl _
        | cons r l =>
          simp only [Re.sharpen, sharpenEach, eval_sel_cons]
          exact .orElse (ih _ _ _ _ _ _ (.re r :: t) hcur) fun _ _ => ih _ _ _ _ _ _ (.re (.sel l) :: t) hcur
      | seq m =>
        rcases m with _ | ⟨r, _ | ⟨r', m⟩⟩
        · exact .refl _
        · simp only [Re.sharpen, sharpenAll, eval_seq_one]
          exact ih _ _ _ _ _ _ (.re r :: t) hcur
        · have e : r.sharpen (items (r' :: m) t) = r.sharpen (.re (.seq (r' :: m)) :: t) :=
            Re.sharpen_congr (first_seq _ _).symm r
          have h := ih n' s lb cur f c (.re r :: .re (.seq (r' :: m)) :: t) hcur
          simp only [sharpenSt, Re.sharpen, sharpenAll, eval_seq_cons, e] at h ⊢
          exact h
      | empty => simp only [Re.sharpen, eval_empty]; exact next _ _ _ hcur
      | rep k a b m =>
        have hb : ∀ p c, p ≤ s.length →
            Agree (eval C n s lb p f.notEmpty c (items m [.endCycle]))
              (eval D n' s lb p f.notEmpty c (items (sharpenAll [.endCycle] m) [.endCycle])) := by
          intro p c hp
          have h := ih n' s lb p f.notEmpty c (items m [.endCycle]) hp
          rw [sharpenSt_items] at h
          exact h
        have hon : StepOn s (fun p c' => eval D n' s lb p f.notEmpty c' (items (sharpenAll [.endCycle] m) [.endCycle])) :=
          stepOn_eval D n' s lb f.notEmpty _
        have far : ∀ p c, p ≤ s.length →
          Agree (eval C n s lb p (f.consumed true) c t) (eval D n' s lb p (f.consumed true) c (sharpenSt t)) :=
          fun p c hp => next _ _ _ hp
        cases k with
        | greedy =>
          simp only [Re.sharpen, sharpKind]
          by_cases hlc : loopCollides m t = some false
          · have h := ih (n' + 1) s lb cur f c (.re (.rep .poss a b m) :: t) hcur
            simp only [sharpenSt, Re.sharpen, sharpKind] at h
            rw [if_pos hlc, eval_greedy, hC]
            simp only [hlc, if_true]
            split
            · rename_i hab
              rw [eval_poss, if_pos hab]; exact .refl _
            · split
              · exact .left rfl
              · exact h
          · simp only [if_neg hlc, eval_greedy, hC, hD, greedyRecRef_eq, ite_self, if_true, Bool.false_eq_true, if_false]
            split
            · exact .refl _
            · split
              · exact .refl _
              · cases hl : loopCollides m t with
                | none => exact .left rfl
                | some v =>
                  cases v with
                  | false => exact absurd hl hlc
                  | true =>
                    dsimp only
                    refine loop_then (mandLoop_agree hb hon a cur c hcur) ?_
                    intro p c' h3
                    exact greedyRec_agree hb hon far n n' a p c' (mandLoop_on hon _ _ _ _ _ hcur h3).2
        | lazy =>
          simp only [Re.sharpen, sharpKind, eval_lazy]
          split
          · exact .refl _
          · split
            · exact .refl _
            · refine loop_then (mandLoop_agree hb hon a cur c hcur) ?_
              intro p c' h3
              have hp := (mandLoop_on hon _ _ _ _ _ hcur h3).2
              exact .orElse (next _ _ _ hp) fun _ _ => lazyLoop_agree hb hon far n n' a p c' hp
        | poss =>
          simp only [Re.sharpen, sharpKind, eval_poss]
          split
          · exact .refl _
          · split
            · exact .refl _
            · refine loop_then (possLoop_agree hb hon (a := a) (b := b) n n' 0 cur c hcur) ?_
              intro p c' h3
              exact next _ _ _ (possLoop_on hon _ _ _ _ _ _ hcur h3).2
      | cap id nm m =>
        simp only [Re.sharpen, eval_cap]
        split
        · exact .refl _
        · split
          · exact .refl _
          · exact ih _ _ _ _ _ _ (.re (.seq m) :: .numMark id :: t) hcur
      | bref id =>
        simp only [Re.sharpen, eval_bref]
        split
        · exact .refl _
        · split <;> try exact .refl _
          rename_i hq
          exact next _ _ _ (brefCmp_pos hcur hq).2
      | brefName id =>
        simp only [Re.sharpen, eval_brefName]
        split
        · exact .refl _
        · split <;> try exact .refl _
          rename_i hq
          exact next _ _ _ (brefCmp_pos hcur hq).2
      | ahead pos m =>
        have h3 := ih n' s lb cur f c [.re (.seq m), .endAhead] hcur
        simp only [sharpenSt, Re.sharpen] at h3
        simp only [Re.sharpen, eval_ahead]
        cases h4 : eval C n s lb cur f c [.re (.seq m), .endAhead] with
        | fail =>
          cases h5 : eval D n' s lb cur f c [.re (.seq (sharpenAll [.endAhead] m)), .endAhead] with
          | fail =>
            dsimp only
            split
            · exact .refl _
            · exact next _ _ _ hcur
          | ok x => rw [h4, h5] at h3; exact absurd (h3 rfl rfl) (by simp)
          | _ => exact .right rfl
        | ok x =>
          cases h5 : eval D n' s lb cur f c [.re (.seq (sharpenAll [.endAhead] m)), .endAhead] with
          | fail => rw [h4, h5] at h3; exact absurd (h3 rfl rfl) (by simp)
          | ok x' =>
            rw [h4, h5] at h3
            obtain rfl := Out.ok.inj (h3 rfl rfl)
            dsimp only
            split
            · exact next _ _ _ hcur
            · exact .refl _
          | _ => exact .right rfl
        | _ => exact .left rfl
      | behind pos m =>
        have h3 := ih n' s.reverse true (s.length - cur) f c [.re (.seq m), .endBehind] (by simp)
        simp only [sharpenSt, Re.sharpen] at h3
        simp only [Re.sharpen, eval_behind]
        cases h4 : eval C n s.reverse true (s.length - cur) f c [.re (.seq m), .endBehind] with
        | fail =>
          cases h5 : eval D n' s.reverse true (s.length - cur) f c [.re (.seq (sharpenAll [.endBehind] m)), .endBehind] with
          | fail =>
            dsimp only
            split
            · exact .refl _
            · exact next _ _ _ hcur
          | ok x => rw [h4, h5] at h3; exact absurd (h3 rfl rfl) (by simp)
          | _ => exact .right rfl
        | ok x =>
          cases h5 : eval D n' s.reverse true (s.length - cur) f c [.re (.seq (sharpenAll [.endBehind] m)), .endBehind] with
          | fail => rw [h4, h5] at h3; exact absurd (h3 rfl rfl) (by simp)
          | ok x' =>
            rw [h4, h5] at h3
            obtain rfl := Out.ok.inj (h3 rfl rfl)
            dsimp only
            split
            · exact next _ _ _ hcur
            · exact .refl _
          | _ => exact .right rfl
        | _ => exact .left rfl
      | atomic m =>
        simp only [Re.sharpen, eval_atomic]
        exact ih _ _ _ _ _ _ (.re (.rep .poss 1 1 m) :: t) hcur
      | mode md =>
        simp only [Re.sharpen, eval_mode]
        exact next _ _ _ hcur
      | boundary cl => exact test rfl rfl
      | notBoundary cl => exact test rfl rfl
      | sBegin => exact test rfl rfl
      | sEnd => exact test rfl rfl
      | sEndLine => exact test rfl rfl
      | lBegin => exact test rfl rfl
      | lEnd => exact test rfl rfl

end Ctre
