import Verif.Lemmas.Flat

/-
Evaluations of stacks that are equal up to bracketing.
-/
namespace Ctre

/-- Heads that are equal up to brackets are the same node with parts that are equal up to brackets. -/
inductive HeadEq : Re → Re → Prop
  | same (r) : HeadEq r r
  | sel {l l'} : flatAlts l = flatAlts l' → HeadEq (.sel l) (.sel l')
  | rep {k a b l l'} : flatList l = flatList l' → HeadEq (.rep k a b l) (.rep k a b l')
  | cap {id name l l'} : flatList l = flatList l' → HeadEq (.cap id name l) (.cap id name l')
  | ahead {pos l l'} : flatList l = flatList l' → HeadEq (.ahead pos l) (.ahead pos l')
  | behind {pos l l'} : flatList l = flatList l' → HeadEq (.behind pos l) (.behind pos l')
  | atomic {l l'} : flatList l = flatList l' → HeadEq (.atomic l) (.atomic l')

theorem headEq {r r' : Re} {t t' : Stack} (h1 : Hard (.re r :: t)) (h2 : Hard (.re r' :: t')) (h : r.flat = r'.flat) :
    HeadEq r r' := by
  rcases r with _|_|_|_|(_|_)|_|_|_|_|_|_|_|_|_|_|_|_|_|_|_|_|_ <;> first | exact h1.elim | skip
  all_goals
    rcases r' with _|_|_|_|(_|_)|_|_|_|_|_|_|_|_|_|_|_|_|_|_|_|_|_ <;> first | exact h2.elim | skip
    all_goals
      simp only [Re.flat, List.isEmpty_nil, if_true, List.cons.injEq, and_true, Re.sel.injEq,
        Re.rep.injEq, Re.cap.injEq, Re.ahead.injEq, Re.behind.injEq, Re.atomic.injEq, reduceCtorEq] at h
      try first
        | (subst h; exact .same _)
        | (rw [h]; exact .same _)
        | exact .same _
        | exact .sel h
        | exact .atomic h
        | (obtain ⟨rfl, rfl, rfl, h⟩ := h; exact .rep h)
        | (obtain ⟨rfl, rfl, h⟩ := h; exact .cap h)
        | (obtain ⟨rfl, h⟩ := h; exact .ahead h)
        | (obtain ⟨rfl, h⟩ := h; exact .behind h)

/-- Evaluations of stacks that are equal up to bracketing agree, if the second one has enough fuel for the unpacking
of concatenations. -/
theorem eval_flat (C : Cfg) (S : Nat) : ∀ n s lb cur f c st st', Small S st' → flatStack st = flatStack st' →
    (eval C n s lb cur f c st).Le (eval C (n * (S + 2)) s lb cur f c st') := by
  intro n
  induction n with
  | zero => intros; exact .bot _
  | succ n ih =>
    intro s lb cur f c st st' hS hfl
    have hmono : n * (S + 2) ≤ (n + 1) * (S + 2) := Nat.mul_le_mul_right _ (by omega)
    by_cases hh : ∃ r l t, st = .re (.seq (r :: l)) :: t
    · obtain ⟨r, l, t, rfl⟩ := hh
      cases l with
      | nil =>
        rw [eval_seq_one]
        refine (ih _ _ _ _ _ _ st' hS ?_).trans (eval_mono C hmono ..)
        rw [← hfl]; simp [flatStack, Item.flat, Re.flat, flatList]
      | cons r' l =>
        rw [eval_seq_cons]
        refine (ih _ _ _ _ _ _ st' hS ?_).trans (eval_mono C hmono ..)
        rw [← hfl]; simp [flatStack, Item.flat, Re.flat, flatList]
    · have hard : Hard st := by
        unfold Hard
        split
        · exact hh ⟨_, _, _, rfl⟩
        · trivial
      obtain ⟨u, j, hj, hu, hfu, hSu, he⟩ := peel C S st' hS (fun r t h => hS r (by simp [h]))
      rw [← hfu] at hfl
      clear hfu
      have hf2 : (n + 1) * (S + 2) = ((n + 1) * (S + 2) - j) + j := by
        have : (n + 1) * (S + 2) = n * (S + 2) + (S + 2) := by rw [Nat.add_mul, Nat.one_mul]
        omega
      rw [hf2, he]
      have hle : n * (S + 2) + 1 ≤ (n + 1) * (S + 2) - j := by
        have : (n + 1) * (S + 2) = n * (S + 2) + (S + 2) := by rw [Nat.add_mul, Nat.one_mul]
        omega
      refine Out.Le.trans ?_ (eval_mono C hle ..)
      clear he hf2 hmono hj hS hle
      generalize hN : n * (S + 2) = N at ih
      have hnN : n ≤ N := by
        rw [← hN]; exact Nat.le_mul_of_pos_right _ (by omega)
      rcases st with _ | ⟨it, t⟩
      · rw [show flatStack [] = [] from rfl] at hfl
        rw [flatStack_eq_nil.1 hfl.symm]
        exact .refl _
      · by_cases hit : ∃ r, it = .re r
        · obtain ⟨r, rfl⟩ := hit
          obtain ⟨r', t', rfl, hr, ht, _⟩ := flat_heads hard hu hfl
          rw [small_re] at hSu
          obtain ⟨hz, hSt⟩ := hSu
          have H := headEq hard hu hr
          have hE : Small S [.endCycle] := fun _ h => by simp at h
          have hb : ∀ (f : Flags) {m m' : List Re} (hm : flatList m = flatList m') (hz : szList m' ≤ S) p c',
            (eval C n s lb p f c' (items m [.endCycle])).Le (eval C N s lb p f c' (items m' [.endCycle])) :=
            fun f m m' hm hz p c' => ih _ _ _ _ _ _ _ (small_items hz hE) (flatStack_items_congr hm rfl)
          have hrep : ∀ k a b l l', flatList l = flatList l' → 1 + szList l' ≤ S →
              (eval C (n+1) s lb cur f c (.re (.rep k a b l) :: t)).Le
              (eval C (N+1) s lb cur f c (.re (.rep k a b l') :: t')) := by
            intro k a b m m' hm hz1
            have hz : szList m' ≤ S := by omega
            cases k with
            | lazy =>
              simp only [eval_lazy]
              split
              · exact .inr rfl
              · split
                · exact .inr rfl
                · rcases mandLoop_mono (hb f.notEmpty hm hz) a cur c with h | h
                  · rw [h]; exact .inl rfl
                  · rw [h]
                    split
                    · exact .inr rfl
                    · exact Out.Le.matchFail (ih _ _ _ _ _ _ _ hSt ht)
                        (lazyLoop_mono (hb f.notEmpty hm hz) (fun p c => ih _ _ _ _ _ _ _ hSt ht) b n N _ _ _ hnN)
            | poss =>
              simp only [eval_poss]
              split
              · exact .inr rfl
              · split
                · exact .inr rfl
                · rcases possLoop_mono (hb f.notEmpty hm hz) a b n N 0 cur c hnN with h | h
                  · rw [h]; exact .inl rfl
                  · rw [h]
                    split
                    · exact .inr rfl
                    · exact ih _ _ _ _ _ _ _ hSt ht
            | greedy =>
              simp only [eval_greedy, greedyRecRef_eq, ite_self]
              split
              · exact .inr rfl
              · split
                · exact .inr rfl
                · rw [loopCollides_flat hm ht]
                  generalize (if C.greedyOpt = true then loopCollides m' t' else some true) = g
                  rcases g with _ | _ | _
                  · exact .inr rfl
                  · refine ih _ _ _ _ _ _ _ ?_ ?_
                    · rw [small_re]
                      exact ⟨by simp only [Re.sz]; omega, hSt⟩
                    · simp only [flatStack, Item.flat, Re.flat, hm, ht]
                  · rcases mandLoop_mono (hb f.notEmpty hm hz) a cur c with h | h
                    · simp only [h]; exact .inl rfl
                    · simp only [h]
                      split
                      · exact .inr rfl
                      · exact greedyRec_mono (hb f.notEmpty hm hz) (fun p c => ih _ _ _ _ _ _ _ hSt ht) b n N _ _ _ hnN
          have ih' := fun cur f c => ih s lb cur f c t t' hSt ht
          cases H with
          | rep h => exact hrep _ _ _ _ _ h (by simpa [Re.sz] using hz)
          | @atomic l l' h =>
            rw [eval_atomic, eval_atomic]
            refine ih _ _ _ _ _ _ _ ?_ ?_
            · rw [small_re]; exact ⟨by simpa [Re.sz] using hz, hSt⟩
            · simp only [flatStack, Item.flat, Re.flat, h, ht]
          | @cap id name l l' h =>
            simp only [eval_cap]; split
            · exact .inr rfl
            · split
              · exact .inr rfl
              · refine ih _ _ _ _ _ _ _ ?_ ?_
                · rw [small_re]
                  exact ⟨by simpa [Re.sz] using hz, by rw [small_cons]; exact ⟨by simp, hSt⟩⟩
                · exact flatStack_seq_congr h (by simp only [flatStack, Item.flat, ht])
          | @ahead pos l l' h =>
            simp only [eval_ahead]
            have := ih s lb cur f c [.re (.seq l), .endAhead] [.re (.seq l'), .endAhead]
              (by rw [small_re, small_cons]; exact ⟨by simpa [Re.sz] using hz, by simp, small_nil _⟩)
              (flatStack_seq_congr h rfl)
            rcases this with h | h
            · rw [h]; exact .inl rfl
            · rw [h]
              split
              · split
                · exact ih' ..
                · exact .inr rfl
              · split
                · exact .inr rfl
                · exact ih' ..
              · exact .inr rfl
          | @behind pos l l' h =>
            simp only [eval_behind]
            have := ih s.reverse true (s.length - cur) f c [.re (.seq l), .endBehind] [.re (.seq l'), .endBehind]
              (by rw [small_re, small_cons]; exact ⟨by simpa [Re.sz] using hz, by simp, small_nil _⟩)
              (flatStack_seq_congr h rfl)
            rcases this with h | h
            · rw [h]; exact .inl rfl
            · rw [h]
              split
              · split
                · exact ih' ..
                · exact .inr rfl
              · split
                · exact .inr rfl
                · exact ih' ..
              · exact .inr rfl
          | @sel l l' h =>
            rcases l with _ | ⟨x, l⟩ <;> rcases l' with _ | ⟨x', l'⟩
            · exact .inr rfl
            · simp [flatAlts] at h
            · simp [flatAlts] at h
            · simp only [flatAlts, List.cons.injEq, Re.seq.injEq] at h
              simp only [Re.sz, szList] at hz
              simp only [eval_sel_cons]
              refine Out.Le.matchFail (ih _ _ _ _ _ _ _ ?_ ?_) (ih _ _ _ _ _ _ _ ?_ ?_)
              · rw [small_re]; exact ⟨by omega, hSt⟩
              · simp only [flatStack, Item.flat, h.1, ht]
              · rw [small_re]; exact ⟨by simp only [Re.sz]; omega, hSt⟩
              · simp only [flatStack, Item.flat, Re.flat, h.2, ht]
          | same =>
            cases r with
            | cc cl =>
              simp only [eval_cc]
              split
              · exact .inr rfl
              · split
                · exact .inr rfl
                · split
                  · exact ih' ..
                  · exact .inr rfl
            | any =>
              simp only [eval_any]
              split
              · exact .inr rfl
              · split
                · split
                  · exact .inr rfl
                  · split
                    · exact .inr rfl
                    · exact ih' ..
                · exact ih' ..
            | str cs =>
              simp only [eval_str]
              split
              · exact .inr rfl
              · exact .inr rfl
              · exact ih' ..
            | sel l =>
              cases l with
              | nil => exact .inr rfl
              | cons r opts =>
                simp only [Re.sz, szList] at hz
                simp only [eval_sel_cons]
                refine Out.Le.matchFail (ih _ _ _ _ _ _ _ ?_ ?_) (ih _ _ _ _ _ _ _ ?_ ?_)
                · rw [small_re]; exact ⟨by omega, hSt⟩
                · simp only [flatStack, ht]
                · rw [small_re]; exact ⟨by simp only [Re.sz]; omega, hSt⟩
                · simp only [flatStack, ht]
            | seq l =>
              rcases l with _ | ⟨r, l⟩
              · exact .inr rfl
              · exact hard.elim
            | empty => exact ih' ..
            | rep k a b m => exact hrep _ _ _ _ _ rfl (by simpa [Re.sz] using hz)
            | cap id name m =>
              simp only [eval_cap]; split
              · exact .inr rfl
              · split
                · exact .inr rfl
                · refine ih _ _ _ _ _ _ _ ?_ ?_
                  · rw [small_re]
                    exact ⟨by simpa [Re.sz] using hz, by rw [small_cons]; exact ⟨by simp, hSt⟩⟩
                  · exact flatStack_seq_congr rfl (by simp only [flatStack, Item.flat, ht])
            | bref id =>
              simp only [eval_bref]; split
              · exact .inr rfl
              · split <;> first | exact .inr rfl | exact ih' ..
            | brefName id =>
              simp only [eval_brefName]; split
              · exact .inr rfl
              · split <;> first | exact .inr rfl | exact ih' ..
            | ahead pos m =>
              simp only [eval_ahead]
              have := ih s lb cur f c [.re (.seq m), .endAhead] [.re (.seq m), .endAhead]
                (by rw [small_re, small_cons]; exact ⟨by simpa [Re.sz] using hz, by simp, small_nil _⟩) rfl
              rcases this with h | h
              · rw [h]; exact .inl rfl
              · rw [h]
                split
                · split
                  · exact ih' ..
                  · exact .inr rfl
                · split
                  · exact .inr rfl
                  · exact ih' ..
                · exact .inr rfl
            | behind pos m =>
              simp only [eval_behind]
              have := ih s.reverse true (s.length - cur) f c [.re (.seq m), .endBehind] [.re (.seq m), .endBehind]
                (by rw [small_re, small_cons]; exact ⟨by simpa [Re.sz] using hz, by simp, small_nil _⟩) rfl
              rcases this with h | h
              · rw [h]; exact .inl rfl
              · rw [h]
                split
                · split
                  · exact ih' ..
                  · exact .inr rfl
                · split
                  · exact .inr rfl
                  · exact ih' ..
                · exact .inr rfl
            | atomic m =>
              rw [eval_atomic, eval_atomic]
              refine ih _ _ _ _ _ _ _ ?_ ?_
              · rw [small_re]; exact ⟨by simpa [Re.sz] using hz, hSt⟩
              · simp only [flatStack, ht]
            | mode md => exact ih' ..
            | reject => exact .inr rfl
            | boundary _ | notBoundary _ | sBegin | sEnd | sEndLine | lBegin | lEnd =>
              rw [eval_test (h := rfl), eval_test (h := rfl)]
              split
              · exact .inr rfl
              · exact .inr rfl
              · exact ih' ..
        · obtain ⟨t', rfl, ht⟩ := flat_heads_mark (fun r h => hit ⟨r, h⟩) hu hfl
          have hSt := (small_cons.1 hSu).2
          have ih' := fun cur f c => ih s lb cur f c t t' hSt ht
          have hnil : t = [] ↔ t' = [] := by rw [← flatStack_eq_nil, ht, flatStack_eq_nil]
          have hend : ∀ o o' : Out, (t ≠ [] → o = .fail) → (t' ≠ [] → o' = .fail) → (t = [] → t' = [] → o = o') →
              o.Le o' := by
            intro o o' h1 h2 h3
            by_cases ht0 : t = []
            · exact .inr (h3 ht0 (hnil.1 ht0))
            · rw [h1 ht0, h2 (fun h => ht0 (hnil.2 h))]; exact .refl _
          cases it with
          | re r => exact absurd ⟨r, rfl⟩ hit
          | accept | endCycle | endAhead | endBehind =>
            refine hend _ _ ?_ ?_ ?_
            · intro h; cases t with
              | nil => exact absurd rfl h
              | cons => rfl
            · intro h; cases t' with
              | nil => exact absurd rfl h
              | cons => rfl
            · rintro rfl rfl; rfl
          | startMark =>
            simp only [eval_startMark]; split
            · exact .inr rfl
            · exact ih' ..
          | endMark =>
            simp only [eval_endMark]; split
            · exact .inr rfl
            · exact ih' ..
          | numMark id =>
            simp only [eval_numMark]; split
            · exact .inr rfl
            · split
              · exact .inr rfl
              · exact ih' ..

/-- Stacks that are equal up to bracketing have the same outcomes. -/
theorem runs_flat {C : Cfg} {s : List Ch} {lb : Bool} {cur : Nat} {f : Flags} {c : Caps} {st st' : Stack} {o : Out}
    (h : flatStack st = flatStack st') (hr : Runs C s lb cur f c st o) : Runs C s lb cur f c st' o := by
  obtain ⟨ho, n, hn⟩ := hr
  obtain ⟨S, hS⟩ : ∃ S, Small S st' := by
    clear h
    induction st' with
    | nil => exact ⟨0, small_nil _⟩
    | cons x t ih =>
      obtain ⟨S, hS⟩ := ih
      refine ⟨S + (match x with | .re r => r.sz | _ => 0), ?_⟩
      rw [small_cons]
      refine ⟨by rintro r rfl; simp, fun r hr => Nat.le_trans (hS r hr) (by omega)⟩
  refine ⟨ho, n * (S + 2), ?_⟩
  rcases eval_flat C S n s lb cur f c st st' hS h with h | h
  · rw [hn] at h; exact absurd h ho
  · rw [← h, hn]

theorem capturesList_append (l l' : List Re) : capturesList (l ++ l') = capturesList l ++ capturesList l' := by
  induction l with
  | nil => rfl
  | cons r l ih => simp [capturesList, ih]

theorem captures_flat (r : Re) : capturesList r.flat = r.captures := by
  induction r using Re.rec (motive_2 := fun m => capturesList (flatList m) = capturesList m ∧
      capturesList (flatAlts m) = capturesList m) with
  | seq m ih =>
    cases m with
    | nil => simp [Re.flat, Re.captures, capturesList]
    | cons r m => simp [Re.flat, ih.1, Re.captures]
  | cons r m ih1 ih2 =>
    exact ⟨by simp only [flatList, capturesList_append, capturesList, ih1, ih2.1],
      by simp only [flatAlts, capturesList, Re.captures, ih1, ih2.2]⟩
  | nil => simp [flatList, flatAlts, capturesList]
  | sel m ih => simp [Re.flat, Re.captures, capturesList, ih.2]
  | rep _ _ _ m ih | cap _ _ m ih | ahead _ m ih => simp [Re.flat, Re.captures, capturesList, ih.1]
  | _ => intros; simp_all [Re.flat, Re.captures, capturesList]

theorem anchorSeq_append (f : Flags) (k : Bool) (m m' : List Re) :
    anchorSeq f k (m ++ m') = anchorSeq f (anchorSeq f k m') m := by
  induction m with
  | nil => rfl
  | cons r m ih => simp [anchorSeq, ih]

theorem anchor_flat (f : Flags) (r : Re) : ∀ k, anchorSeq f k r.flat = anchorRe f k r := by
  induction r using Re.rec (motive_2 := fun m => (∀ k, anchorSeq f k (flatList m) = anchorSeq f k m) ∧
      (∀ k, anchorSel f k (flatAlts m) = anchorSel f k m)) with
  | seq m ih =>
    intro k
    cases m with
    | nil => simp [Re.flat, anchorSeq, anchorRe]
    | cons r m => simp only [Re.flat, List.isEmpty_cons, Bool.false_eq_true, if_false, ih.1, anchorRe]
  | cons r m ih1 ih2 =>
    exact ⟨fun k => by simp only [flatList, anchorSeq_append, anchorSeq, ih1, ih2.1],
      fun k => by simp only [flatAlts, anchorSel, anchorRe, ih1, ih2.2]⟩
  | nil => simp [flatList, flatAlts]
  | sel m ih => intro k; simp only [Re.flat, anchorSeq, anchorRe, ih.2]
  | rep _ _ _ m ih => intro k; simp only [Re.flat, anchorSeq, anchorRe, ih.1]
  | cap _ name m ih => intro k; cases name <;> simp only [Re.flat, anchorSeq, anchorRe, ih.1]
  | _ => intros; simp_all only [Re.flat, anchorSeq, anchorRe]

end Ctre
