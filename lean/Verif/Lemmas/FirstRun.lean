import Verif.Lemmas.Nullable
import Verif.Lemmas.OneCase

/-
Soundness of the first-character analysis for runs of the evaluation machine, and the stacks that cannot fail.
-/
namespace Ctre

theorem consumed_ci_eq (f : Flags) (b : Bool) : (f.consumed b).ci = f.ci := by cases b <;> rfl
theorem consumed_ml_eq (f : Flags) (b : Bool) : (f.consumed b).ml = f.ml := by cases b <;> rfl

theorem getElem?_lt {s : List Ch} {i : Nat} (h : i < s.length) : ∃ v, s[i]? = some v :=
  ⟨s[i], List.getElem?_eq_getElem h⟩

/-- The next character, in the case in which the pattern is written, is in the list. -/
def Next (U : Uni) (up ci : Bool) (s : List Ch) (cur : Nat) (fs : List FC) : Prop :=
  ∃ v, s[cur]? = some v ∧ Has (propsOf U v) (foldTo up ci v) fs

theorem Next.sub {U : Uni} {up ci : Bool} {s : List Ch} {cur : Nat} {l m : List FC} (h : Next U up ci s cur l) (hs : ∀ U, Sub U l m) :
    Next U up ci s cur m := by
  obtain ⟨v, h1, h2⟩ := h
  exact ⟨v, h1, hs _ _ h2⟩

/-- If a stack succeeds before the end of the subject, the next character is in the computed list or the stack succeeds
on empty text everywhere. -/
theorem first_sound {C : Cfg} (hC : C.greedyOpt = false) {s : List Ch} {ml up : Bool} : ∀ n lb cur f c st l fs x,
    cur < s.length → OneCase up f.ci (leavesSt st) → (f.ml = true → ml = true) → steadySt ml st = true →
    (movesSt st = true ∨ testsSt st = false) → closed st = true → first st l = some fs →
    eval C n s lb cur f c st = .ok x → Next C.uni up f.ci s cur fs ∨ freeSt st = true := by
  intro n
  induction n with
  | zero => intro lb cur f c st l fs x _ _ _ _ _ _ _ h; simp [eval_zero] at h
  | succ n ih =>
    intro lb cur f c st l fs x hcur hci hml hs hmt hcl hf h
    obtain ⟨v, hv⟩ := getElem?_lt hcur
    rcases st with _ | ⟨i, t⟩
    · simp [closed] at hcl
    · cases i with
      | accept => cases t with
        | nil => exact .inr rfl
        | cons => simp [closed] at hcl
      | endCycle => cases t with
        | nil => exact .inr rfl
        | cons => simp [closed] at hcl
      | endAhead => cases t with
        | nil => exact .inr rfl
        | cons => simp [closed] at hcl
      | endBehind => cases t with
        | nil => exact .inr rfl
        | cons => simp [closed] at hcl
      | startMark => simp [first] at hf
      | endMark =>
        rcases t with _ | ⟨j, t⟩
        · simp [closed] at hcl
        · cases j <;> cases t <;> simp [closed] at hcl
          exact .inr rfl
      | numMark id =>
        have hci : OneCase up f.ci (leavesSt t) := hci
        rw [eval_numMark] at h
        split at h
        · simp at h
        · split at h
          · simp at h
          · exact ih lb cur f _ t l fs x hcur hci hml hs hmt hcl hf h
      | re r =>
        have hk : ∀ U, Keeps U (first t) := fun U => first_keeps t
        have hci' : OneCase up f.ci (leavesSt t) := hci.mono (by simp +contextual [leavesSt])
        have hs' : steadySt ml t = true := by
          simp only [steadySt, Bool.and_eq_true] at hs; exact hs.2
        have hcl' : closed t = true := hcl
        -- a list which contains everything
        have hany : fs = [.anything] → Next C.uni up f.ci s cur fs := by
          rintro rfl
          exact ⟨v, hv, .anything, by simp, trivial⟩
        -- the condition for the rest of the stack, if the item does not move
        have hmt' : r.moves = false → (movesSt t = true ∨ testsSt t = false) := by
          intro hr
          rcases hmt with h | h
          · exact .inl (by simpa [movesSt, hr] using h)
          · simp only [testsSt, Bool.or_eq_false_iff] at h; exact .inr h.2
        -- tests
        have test : r.isTest = true → r.tests = true → r.moves = false → firstRe (first t) l r = first t l →
            Next C.uni up f.ci s cur fs ∨ freeSt (.re r :: t) = true := by
          intro h1 h2 h3 h4
          have hf : firstRe (first t) l r = some fs := hf
          rw [h4] at hf
          rw [eval_test (h := h1)] at h
          have hm : movesSt t = true := by
            rcases hmt with h | h
            · simpa [movesSt, h3] using h
            · simp [testsSt, h2] at h
          split at h
          · simp at h
          · simp at h
          · rcases ih lb cur f c t l fs x hcur hci' hml hs' (.inl hm) hcl' hf h with h5 | h5
            · exact .inl h5
            · rw [freeSt_moves t h5] at hm; simp at hm
        cases r with
        | cc cl =>
          have hf : firstRe (first t) l (.cc cl) = some fs := hf
          simp only [firstRe, Option.some.injEq] at hf
          subst hf
          rw [eval_cc, if_neg (by omega)] at h
          simp only [hv] at h
          split at h
          · rename_i hm
            exact .inl ⟨v, hv, firstCC_has (hci.sound (by simp [leavesSt, Re.leaves]) hm)⟩
          · simp at h
        | any =>
          have hf : firstRe (first t) l .any = some fs := hf
          simp only [firstRe, Option.some.injEq] at hf
          exact .inl (hany hf.symm)
        | str cs =>
          have hf : firstRe (first t) l (.str cs) = some fs := hf
          rw [eval_str] at h
          cases cs with
          | nil =>
            simp only [firstRe] at hf
            simp only [matchString] at h
            rcases ih lb cur _ c t l fs x hcur (by rw [consumed_ci_eq]; exact hci') (by rw [consumed_ml_eq]; exact hml) hs'
              (hmt' rfl) hcl' hf h with h5 | h5
            · exact .inl h5
            · exact .inr (by simp [freeSt, Re.free, h5])
          | cons d cs =>
            simp only [firstRe, Option.some.injEq] at hf
            subst hf
            refine .inl ⟨v, hv, .cc (.chr d), by simp, ?_⟩
            unfold matchString at h
            rw [if_neg (by omega)] at h
            simp only [hv] at h
            by_cases hm : matchCharacter f.ci v d = true
            · exact hci.sound (c := .chr d) (by simp [leavesSt, Re.leaves]) hm
            · rw [if_neg hm] at h; simp at h
        | sel opts =>
          have hf : firstRe (first t) l (.sel opts) = some fs := hf
          simp only [firstRe] at hf
          cases opts with
          | nil => simp [eval_sel_nil] at h
          | cons r opts =>
            rw [eval_sel_cons] at h
            have h2 := steadySt_sel hs
            simp only [firstSel] at hf
            cases h1 : firstRe (first t) l r with
            | none => simp [h1] at hf
            | some l' =>
              simp only [h1] at hf
              rcases Out.orElse_eq_ok.1 h with h | ⟨_, h⟩
              · have hmt2 : movesSt (.re r :: t) = true ∨ testsSt (.re r :: t) = false := by
                  rcases hmt with h | h
                  · refine .inl ?_
                    simp only [movesSt, Re.moves, movesAll, Bool.or_eq_true, Bool.and_eq_true] at h ⊢
                    rcases h with h | h
                    · exact .inl h.1
                    · exact .inr h
                  · refine .inr ?_
                    simp only [testsSt, Re.tests, testsAny, Bool.or_eq_false_iff] at h ⊢
                    exact ⟨h.1.1, h.2⟩
                rcases ih lb cur f c (.re r :: t) l l' x hcur (hci.mono (by simp +contextual [leavesSt, Re.leaves, leavesAll, or_imp])) hml h2.1 hmt2 hcl h1 h with h5 | h5
                · exact .inl (h5.sub fun U => firstSel_keeps opts (hk U) l' fs hf)
                · refine .inr ?_
                  simp only [freeSt, Re.free, freeAny, Bool.and_eq_true, Bool.or_eq_true] at h5 ⊢
                  exact ⟨.inl h5.1, h5.2⟩
              · have hmt2 : movesSt (.re (.sel opts) :: t) = true ∨ testsSt (.re (.sel opts) :: t) = false := by
                  rcases hmt with h | h
                  · refine .inl ?_
                    simp only [movesSt, Re.moves, movesAll, Bool.or_eq_true, Bool.and_eq_true] at h ⊢
                    rcases h with h | h
                    · exact .inl h.2
                    · exact .inr h
                  · refine .inr ?_
                    simp only [testsSt, Re.tests, testsAny, Bool.or_eq_false_iff] at h ⊢
                    exact ⟨h.1.2, h.2⟩
                rcases ih lb cur f c (.re (.sel opts) :: t) l' fs x hcur (hci.mono (by simp +contextual [leavesSt, Re.leaves, leavesAll])) hml h2.2 hmt2 hcl
                  (by simpa only [first, firstRe] using hf) h with h5 | h5
                · exact .inl h5
                · refine .inr ?_
                  simp only [freeSt, Re.free, freeAny, Bool.and_eq_true, Bool.or_eq_true] at h5 ⊢
                  exact ⟨.inr h5.1, h5.2⟩
        | seq m =>
          have hf : firstRe (first t) l (.seq m) = some fs := hf
          simp only [firstRe] at hf
          rcases m with _ | ⟨r, _ | ⟨r', m⟩⟩
          · simp [eval_seq_nil] at h
          · rw [eval_seq_one] at h
            have hmt2 : movesSt (.re r :: t) = true ∨ testsSt (.re r :: t) = false := by
              simpa [movesSt, testsSt, Re.moves, Re.tests, movesAny, testsAny] using hmt
            rcases ih lb cur f c (.re r :: t) l fs x hcur (hci.mono (by simp +contextual [leavesSt, Re.leaves, leavesAll])) hml (steadySt_one hs) hmt2 hcl
              (by simpa only [first, firstSeq] using hf) h with h5 | h5
            · exact .inl h5
            · refine .inr ?_
              simpa [freeSt, Re.free, freeAll] using h5
          · rw [eval_seq_cons] at h
            have hmt2 : movesSt (.re r :: .re (.seq (r' :: m)) :: t) = true ∨
                testsSt (.re r :: .re (.seq (r' :: m)) :: t) = false := by
              simpa [movesSt, testsSt, Re.moves, Re.tests, movesAny, testsAny, Bool.or_assoc, and_assoc, or_assoc] using hmt
            rcases ih lb cur f c (.re r :: .re (.seq (r' :: m)) :: t) l fs x hcur (hci.mono (by simp +contextual [leavesSt, Re.leaves, leavesAll])) hml (steadySt_seq hs) hmt2 hcl
              (by simpa only [first, firstSeq, firstRe] using hf) h with h5 | h5
            · exact .inl h5
            · refine .inr ?_
              simpa [freeSt, Re.free, freeAll, and_assoc] using h5
        | empty =>
          have hf : firstRe (first t) l .empty = some fs := hf
          simp only [firstRe] at hf
          rw [eval_empty] at h
          rcases ih lb cur f c t l fs x hcur hci' hml hs' (hmt' rfl) hcl' hf h with h5 | h5
          · exact .inl h5
          · exact .inr (by simp [freeSt, Re.free, h5])
        | rep k a b m =>
          have hf : firstRe (first t) l (.rep k a b m) = some fs := hf
          simp only [firstRe] at hf
          obtain ⟨h1, h2, _⟩ := steadySt_body hs
          -- the first character of an iteration
          have iter : ∀ {l' y : List FC}, firstSeq (first t) l' m = some y →
              (∃ z, eval C n s lb cur f.notEmpty c (items m [.endCycle]) = .ok z) →
              Next C.uni up f.ci s cur y := by
            rintro l' y hy ⟨z, hz⟩
            obtain ⟨y0, e1, s1⟩ := first_body hk hy
            rcases ih lb cur f.notEmpty c (items m [.endCycle]) [] y0 z hcur (hci.mono (by simp +contextual [leavesSt_items, leavesSt, Re.leaves, leavesAll])) hml h2
              (.inl (by rw [movesSt_items, h1]; rfl)) (closed_items rfl) e1 hz with h5 | h5
            · exact h5.sub s1
            · have := freeSt_moves _ h5
              rw [movesSt_items, h1] at this
              simp at this
          rcases rep_start hC h with h3 | ⟨h0, z, h3⟩
          · by_cases ha : a = 0
            · rw [if_pos ha] at hf
              by_cases hb : b = 1 ∧ k ≠ .poss
              · rw [if_pos hb] at hf
                cases hl : firstSeq (first t) l m with
                | none => simp [hl] at hf
                | some l' =>
                  simp only [hl] at hf
                  exact .inl ((iter hl h3).sub fun U => hk U l' fs hf)
              · rw [if_neg hb] at hf
                cases hl : first t l with
                | none => simp [hl] at hf
                | some l' =>
                  simp only [hl] at hf
                  exact .inl (iter hf h3)
            · rw [if_neg ha] at hf
              exact .inl (iter hf h3)
          · have hm0 : (Re.rep k a b m).moves = false := by simp [Re.moves, h0]
            have next : ∀ l' y, first t l' = some y →
                Next C.uni up f.ci s cur y ∨ freeSt (.re (.rep k a b m) :: t) = true := by
              intro l' y hy
              rcases ih lb cur _ c t l' y x hcur (by rw [consumed_ci_eq]; exact hci') (by rw [consumed_ml_eq]; exact hml) hs'
                (hmt' hm0) hcl' hy h3 with h5 | h5
              · rw [consumed_ci_eq] at h5; exact .inl h5
              · exact .inr (by simp [freeSt, Re.free, h5, h0])
            rw [if_pos h0] at hf
            by_cases hb : b = 1 ∧ k ≠ .poss
            · rw [if_pos hb] at hf
              cases hl : firstSeq (first t) l m with
              | none => simp [hl] at hf
              | some l' =>
                simp only [hl] at hf
                exact next l' fs hf
            · rw [if_neg hb] at hf
              cases hl : first t l with
              | none => simp [hl] at hf
              | some l' =>
                simp only [hl] at hf
                rcases next l l' hl with h5 | h5
                · exact .inl (h5.sub fun U => firstSeq_keeps m (hk U) l' fs hf)
                · exact .inr h5
        | cap id nm m =>
          have hf : firstRe (first t) l (.cap id nm m) = some fs := hf
          simp only [firstRe] at hf
          rw [eval_cap] at h
          split at h
          · simp at h
          · split at h
            · simp at h
            · rename_i c' hc'
              have hf2 : first (.re (.seq m) :: .numMark id :: t) l = some fs := by
                have : first (.numMark id :: t) = first t := by funext l; rfl
                simp only [first, firstRe]
                simpa only [first] using hf
              have hmt2 : movesSt (.re (.seq m) :: .numMark id :: t) = true ∨
                  testsSt (.re (.seq m) :: .numMark id :: t) = false := by
                simpa [movesSt, testsSt, Re.moves, Re.tests] using hmt
              rcases ih lb cur f c' (.re (.seq m) :: .numMark id :: t) l fs x hcur (hci.mono (by simp [leavesSt, Re.leaves, leavesAll])) hml (steadySt_cap hs) hmt2 hcl hf2 h
                with h5 | h5
              · exact .inl h5
              · refine .inr ?_
                simpa [freeSt, Re.free] using h5
        | atomic m =>
          have hf : firstRe (first t) l (.atomic m) = some fs := hf
          simp only [firstRe] at hf
          rw [eval_atomic] at h
          have hs2 := steadySt_atomic hs
          have hmv : (Re.rep .poss 1 1 m).moves = true := by
            simp [Re.moves, (steadySt_body hs2).1]
          rcases ih lb cur f c (.re (.rep .poss 1 1 m) :: t) l fs x hcur (hci.mono (by simp [leavesSt, Re.leaves, leavesAll])) hml hs2
            (.inl (by simp [movesSt, hmv])) hcl (by simpa [first, firstRe] using hf) h with h5 | h5
          · exact .inl h5
          · have := freeSt_moves _ h5
            simp [movesSt, hmv] at this
        | bref id =>
          have hf : firstRe (first t) l (.bref id) = some fs := hf
          simp only [firstRe, Option.some.injEq] at hf
          exact .inl (hany hf.symm)
        | brefName id =>
          have hf : firstRe (first t) l (.brefName id) = some fs := hf
          simp only [firstRe, Option.some.injEq] at hf
          exact .inl (hany hf.symm)
        | ahead pos m =>
          have hf : firstRe (first t) l (.ahead pos m) = some fs := hf
          simp only [firstRe, Option.some.injEq] at hf
          exact .inl (hany hf.symm)
        | behind pos m =>
          have hf : firstRe (first t) l (.behind pos m) = some fs := hf
          simp only [firstRe, Option.some.injEq] at hf
          exact .inl (hany hf.symm)
        | boundary cl => exact test rfl rfl rfl rfl
        | sBegin => exact test rfl rfl rfl rfl
        | lBegin => exact test rfl rfl rfl rfl
        | notBoundary cl =>
          have hf : firstRe (first t) l (.notBoundary cl) = some fs := hf
          simp [firstRe] at hf
        | mode m =>
          have hf : firstRe (first t) l (.mode m) = some fs := hf
          simp [firstRe] at hf
        | reject =>
          have hf : firstRe (first t) l (.reject _) = some fs := hf
          simp [firstRe] at hf
        | sEnd =>
          rw [eval_test (r := .sEnd) (h := rfl)] at h
          simp only [testAt] at h
          rw [if_neg (by omega)] at h
          simp at h
        | sEndLine =>
          have hm : f.ml = false := by
            simp only [steadySt, Re.steady, Bool.and_eq_true, Bool.not_eq_true'] at hs
            cases hx : f.ml with
            | false => rfl
            | true => rw [hml hx] at hs; simp at hs
          rw [eval_test (r := .sEndLine) (h := rfl)] at h
          simp only [testAt, hm] at h
          simp only [Bool.false_eq_true, if_false] at h
          rw [if_neg (by omega)] at h
          simp at h
        | lEnd =>
          have hm : f.ml = false := by
            simp only [steadySt, Re.steady, Bool.and_eq_true, Bool.not_eq_true'] at hs
            cases hx : f.ml with
            | false => rfl
            | true => rw [hml hx] at hs; simp at hs
          rw [eval_test (r := .lEnd) (h := rfl)] at h
          simp only [testAt, hm] at h
          simp only [Bool.false_eq_true, if_false] at h
          rw [if_neg (by omega)] at h
          simp at h

end Ctre
