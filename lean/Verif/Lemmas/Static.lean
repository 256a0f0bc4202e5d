import Verif.Lemmas.Compiles
import Verif.Model.Static
import Verif.Spec.Static

/-
Static instantiation: what compiles never meets an overload that does not compile; exact conditions; number of
instantiations.
-/
namespace Ctre

theorem Compiled.inv {C : Cfg} {K : Known} {lb : Bool} {st : Stack} (h : Compiled C K (lb, st)) :
    ∃ l, uses C K lb st = some l ∧ ∀ y ∈ l, Compiled C K y := by
  have h1 := h _ .first
  obtain ⟨l, hl⟩ := Option.isSome_iff_exists.1 h1
  refine ⟨l, hl, ?_⟩
  intro y hy z hz
  apply h z
  induction hz with
  | first => exact .next .first hl hy
  | next _ h2 h3 ih => exact .next ih h2 h3

theorem Compiled.of {C : Cfg} {K : Known} {x : Bool × Stack} (h : ∃ l, uses C K x.1 x.2 = some l ∧ ∀ y ∈ l, Compiled C K y) :
    Compiled C K x := by
  obtain ⟨l, hl, h⟩ := h
  intro z hz
  have : z = x ∨ ∃ y ∈ l, Instantiated C K y z := by
    induction hz with
    | first => exact .inl rfl
    | next h1 h2 h3 ih =>
      rcases ih with rfl | ⟨y, hy, h4⟩
      · rw [hl, Option.some.injEq] at h2
        subst h2
        exact .inr ⟨_, h3, .first⟩
      · exact .inr ⟨y, hy, .next h4 h2 h3⟩
  rcases this with rfl | ⟨y, hy, h1⟩
  · rw [hl]; rfl
  · exact h y hy z h1

/-- Groups and names of a shape. -/
def Shape.known (sh : Shape) : Known := { ids := sh.map (·.1), names := sh.filterMap (·.2) }

theorem startCapture_known {sh : Shape} {c : Caps} (hc : shape c.groups = sh) {id p : Nat} (h : sh.known.hasId id = true) :
    ∃ c', c.startCapture id p = some c' ∧ shape c'.groups = sh := by
  by_cases h0 : id = 0
  · subst h0; exact ⟨_, rfl, hc⟩
  · simp only [Known.hasId, h0, decide_false, Bool.false_or, List.contains_iff_mem] at h
    obtain ⟨c', h1, h2⟩ := startCapture_some (p := p) (ids := sh.map (·.1)) (c := c) (by rw [groupIds_shape, hc]) h
    exact ⟨c', h1, h2.trans hc⟩

theorem endCapture_known {sh : Shape} {c : Caps} (hc : shape c.groups = sh) {id p : Nat} (h : sh.known.hasId id = true) :
    ∃ c', c.endCapture id p = some c' ∧ shape c'.groups = sh := by
  by_cases h0 : id = 0
  · subst h0; exact ⟨_, rfl, hc⟩
  · simp only [Known.hasId, h0, decide_false, Bool.false_or, List.contains_iff_mem] at h
    obtain ⟨c', h1, h2⟩ := endCapture_some (p := p) (ids := sh.map (·.1)) (c := c) (by rw [groupIds_shape, hc]) h
    exact ⟨c', h1, h2.trans hc⟩

theorem get_known {sh : Shape} {c : Caps} (hc : shape c.groups = sh) {id : Nat} (h : sh.known.hasId id = true) :
    ∃ sl, c.get id = some sl := by
  unfold Caps.get
  split
  · exact ⟨_, rfl⟩
  · rename_i h0
    simp only [Known.hasId, h0, decide_false, Bool.false_or, List.contains_iff_mem] at h
    rw [← Option.isSome_iff_exists, selectId_isSome, hasId_iff, groupIds_shape, hc]
    exact h

theorem getName_known {sh : Shape} {c : Caps} (hc : shape c.groups = sh) {nm : List Nat} (h : sh.known.hasName nm = true) :
    ∃ sl, c.getName nm = some sl := by
  apply selectName_some
  rw [groupNames_shape, hc]
  exact (show nm ∈ sh.known.names by simpa only [Known.hasName, List.contains_iff_mem] using h)

/-- What the compiler has accepted never meets an overload that does not compile. -/
theorem eval_covered {C : Cfg} {sh : Shape} : ∀ n s lb cur f c st, Compiled C sh.known (lb, st) → shape c.groups = sh →
    Fine (fun c' => shape c'.groups = sh) (eval C n s lb cur f c st) := by
  intro n
  induction n with
  | zero => intros; exact .timeout
  | succ n ih =>
    intro s lb cur f c st hco hc
    obtain ⟨l, hu, hl⟩ := hco.inv
    have hok : ∀ c', shape c'.groups = sh → Fine (fun c' => shape c'.groups = sh) (.ok c') := by
      intro c' h
      refine ⟨by simp, ?_⟩
      intro r hr
      simp only [Out.ok.injEq] at hr
      subst hr; exact h
    rcases st with _ | ⟨i, t⟩
    · exact .fail
    · cases i with
      | accept => cases t with
        | nil => exact hok _ hc
        | cons => exact .fail
      | endAhead => cases t with
        | nil => exact hok _ hc
        | cons => exact .fail
      | endBehind => cases t with
        | nil => exact hok _ hc
        | cons => exact .fail
      | endCycle =>
        cases t with
        | cons => exact .fail
        | nil =>
          rw [eval_endCycle]
          cases lb with
          | true => simp [uses] at hu
          | false =>
            rw [if_neg (by simp)]
            split
            · exact .fail
            · exact hok _ hc
      | startMark =>
        rw [eval_startMark]
        cases lb with
        | true => simp [uses] at hu
        | false =>
          simp only [uses, Bool.false_eq_true, if_false, Option.some.injEq] at hu
          subst hu
          exact ih _ _ _ _ _ _ (hl _ (by simp)) hc
      | endMark =>
        rw [eval_endMark]
        cases lb with
        | true => simp [uses] at hu
        | false =>
          simp only [uses, Bool.false_eq_true, if_false, Option.some.injEq] at hu
          subst hu
          exact ih _ _ _ _ _ _ (hl _ (by simp)) hc
      | numMark id =>
        rw [eval_numMark]
        cases lb with
        | true => simp [uses] at hu
        | false =>
          simp only [uses, Bool.false_eq_true, if_false] at hu ⊢
          split at hu
          · rename_i hid
            simp only [Option.some.injEq] at hu
            subst hu
            obtain ⟨c', h1, h2⟩ := endCapture_known (p := cur) hc hid
            rw [h1]
            exact ih _ _ _ _ _ _ (hl _ (by simp)) h2
          · simp at hu
      | re r =>
        have next : uses C sh.known lb (.re r :: t) = some [(lb, t)] → ∀ p f c, shape c.groups = sh →
            Fine (fun c' => shape c'.groups = sh) (eval C n s lb p f c t) := by
          intro h p f c hc
          rw [h, Option.some.injEq] at hu
          subst hu
          exact ih _ _ _ _ _ _ (hl _ (by simp)) hc
        have test : r.isTest = true → uses C sh.known lb (.re r :: t) = some [(lb, t)] →
            Fine (fun c' => shape c'.groups = sh) (eval C (n+1) s lb cur f c (.re r :: t)) := by
          intro h hn
          rw [eval_test (h := h)]
          split
          · exact .ub
          · exact .fail
          · exact next hn _ _ _ hc
        cases r with
        | cc cl =>
          rw [eval_cc]
          split
          · exact .fail
          · split
            · exact .ub
            · split
              · exact next rfl _ _ _ hc
              · exact .fail
        | any =>
          rw [eval_any]
          split
          · exact .fail
          · split
            · split
              · exact .ub
              · split
                · exact .fail
                · exact next rfl _ _ _ hc
            · exact next rfl _ _ _ hc
        | reject => exact .fail
        | str cs =>
          rw [eval_str]
          split
          · exact .ub
          · exact .fail
          · exact next rfl _ _ _ hc
        | sel m =>
          cases m with
          | nil => exact .fail
          | cons r m =>
            rw [eval_sel_cons]
            simp only [uses, Option.some.injEq] at hu
            subst hu
            exact .orElse (ih _ _ _ _ _ _ (hl _ (by simp)) hc) (ih _ _ _ _ _ _ (hl _ (by simp)) hc)
        | seq m =>
          rcases m with _ | ⟨r, _ | ⟨r', m⟩⟩
          · exact .fail
          · rw [eval_seq_one]
            simp only [uses, Option.some.injEq] at hu
            subst hu
            exact ih _ _ _ _ _ _ (hl _ (by simp)) hc
          · rw [eval_seq_cons]
            simp only [uses, Option.some.injEq] at hu
            subst hu
            exact ih _ _ _ _ _ _ (hl _ (by simp)) hc
        | empty => rw [eval_empty]; exact next rfl _ _ _ hc
        | rep k a b m =>
          have fine : ¬ (b ≠ 0 ∧ a > b) → lb = false → Compiled C sh.known (lb, items m [.endCycle]) → Compiled C sh.known (lb, t) →
              (Fine (fun c' => shape c'.groups = sh)
                (match possLoop (fun p c' => eval C n s lb p f.notEmpty c' (items m [.endCycle])) a b n 0 cur c with
                  | .stop o => o
                  | .go p c' => eval C n s lb p (f.consumed (decide (cur ≠ p))) c' t)) ∧
              (Fine (fun c' => shape c'.groups = sh)
                (match mandLoop (fun p c' => eval C n s lb p f.notEmpty c' (items m [.endCycle])) a cur c with
                  | .stop o => o
                  | .go p c' =>
                    (eval C n s lb p (f.consumed (decide (cur ≠ p))) c' t).orElse
                      (lazyLoop (fun p c' => eval C n s lb p f.notEmpty c' (items m [.endCycle]))
                        (fun p c' => eval C n s lb p (f.consumed true) c' t) b n a p c'))) ∧
              (Fine (fun c' => shape c'.groups = sh)
                (match mandLoop (fun p c' => eval C n s lb p f.notEmpty c' (items m [.endCycle])) a cur c with
                  | .stop o => o
                  | .go p c' => greedyRec (fun p c' => eval C n s lb p f.notEmpty c' (items m [.endCycle]))
                      (fun p c' => eval C n s lb p (f.consumed true) c' t) b n a p c')) := by
            intro _ hlb hb htl
            subst hlb
            have nxt : ∀ p f c, shape c.groups = sh → Fine (fun c' => shape c'.groups = sh) (eval C n s false p f c t) :=
              fun p f c hc => ih _ _ _ _ _ _ htl hc
            have hs : StepFine (fun _ c => shape c.groups = sh) (fun p c' => eval C n s false p f.notEmpty c' (items m [.endCycle])) := by
              intro p c1 hc1
              have := ih s false p f.notEmpty c1 (items m [.endCycle]) hb hc1
              simp only [step]
              cases ho : eval C n s false p f.notEmpty c1 (items m [.endCycle]) with
              | ok c2 =>
                dsimp only
                have h1 := this.2 c2 ho
                cases he : c2.whole.e with
                | none => simp
                | some e =>
                  refine ⟨by simp, ?_⟩
                  intro p' c' hq
                  simp only [Loop.go.injEq] at hq
                  rw [← hq.2]; exact h1
              | ill => exact absurd ho this.1
              | _ => simp
            have h1 := mandLoop_fine hs a cur c hc
            refine ⟨?_, ?_, ?_⟩
            · have h1 := possLoop_fine hs (a := a) (b := b) n 0 cur c hc
              cases hq : possLoop (fun p c' => eval C n s false p f.notEmpty c' (items m [.endCycle])) a b n 0 cur c with
              | stop o =>
                rw [hq] at h1
                refine fine_stop (by simpa using h1.1) ?_
                rintro r hr
                dsimp only at hr
                subst hr
                exact absurd rfl (possLoop_stop_P (Q := fun _ => False) hq r)
              | go p c' => exact nxt _ _ _ (h1.2 _ _ hq)
            · split
              · rename_i o hq
                rw [hq] at h1
                exact fine_stop (by simpa using h1.1) (fun r hr => absurd rfl (mandLoop_stop_P (Q := fun _ => False) _ (hr ▸ hq) r))
              · rename_i p c' hq
                exact .orElse (nxt _ _ _ (h1.2 _ _ hq)) (lazyLoop_fine hs (fun p c hc => nxt _ _ _ hc) _ _ _ _ (h1.2 _ _ hq))
            · split
              · rename_i o hq
                rw [hq] at h1
                exact fine_stop (by simpa using h1.1) (fun r hr => absurd rfl (mandLoop_stop_P (Q := fun _ => False) _ (hr ▸ hq) r))
              · rename_i p c' hq
                exact greedyRec_fine hs (fun p c hc => nxt _ _ _ hc) _ _ _ _ (h1.2 _ _ hq)
          by_cases hi : b ≠ 0 ∧ a > b
          · cases k
            · rw [eval_greedy, if_pos hi]; exact .fail
            · rw [eval_lazy, if_pos hi]; exact .fail
            · rw [eval_poss, if_pos hi]; exact .fail
          · simp only [uses] at hu
            rw [if_neg hi] at hu
            cases lb with
            | true => simp at hu
            | false =>
              simp only [Bool.false_eq_true, if_false] at hu
              cases k with
              | greedy =>
                simp only [eval_greedy, greedyRecRef_eq, ite_self]
                rw [if_neg hi]
                simp only [Bool.false_eq_true, if_false]
                dsimp only at hu
                generalize (if C.greedyOpt then loopCollides m t else some true) = q at hu
                rcases q with _ | _ | _
                · simp at hu
                · simp only [Option.some.injEq] at hu
                  subst hu
                  exact ih _ _ _ _ _ _ (hl _ (by simp)) hc
                · simp only [Option.some.injEq] at hu
                  subst hu
                  exact (fine hi rfl (hl _ (by simp)) (hl _ (by simp))).2.2
              | lazy =>
                simp only [Option.some.injEq] at hu
                subst hu
                simp only [eval_lazy]
                rw [if_neg hi]
                simp only [Bool.false_eq_true, if_false]
                exact (fine hi rfl (hl _ (by simp)) (hl _ (by simp))).2.1
              | poss =>
                simp only [Option.some.injEq] at hu
                subst hu
                simp only [eval_poss]
                rw [if_neg hi]
                simp only [Bool.false_eq_true, if_false]
                exact (fine hi rfl (hl _ (by simp)) (hl _ (by simp))).1
        | cap id nm m =>
          cases lb with
          | true => simp [uses] at hu
          | false =>
            simp only [uses, Bool.false_eq_true, if_false] at hu
            rw [eval_cap, if_neg (by simp)]
            split at hu
            · rename_i hid
              simp only [Option.some.injEq] at hu
              subst hu
              obtain ⟨c', h1, h2⟩ := startCapture_known (p := cur) hc hid
              rw [h1]
              exact ih _ _ _ _ _ _ (hl _ (by simp)) h2
            · simp at hu
        | bref id =>
          cases lb with
          | true => simp [uses] at hu
          | false =>
            have hu' := hu
            simp only [uses, Bool.false_eq_true, if_false] at hu
            rw [eval_bref, if_neg (by simp)]
            split at hu
            · rename_i hid
              obtain ⟨sl, hsl⟩ := get_known hc hid
              rw [hsl]
              cases hb : brefCmp s cur (some sl) with
              | none => exact absurd hb brefCmp_some
              | some x =>
                obtain ⟨x, y⟩ := x
                cases x with
                | ub => exact .ub
                | no => exact .fail
                | yes p => exact next (hu'.trans hu.symm) _ _ _ hc
            · simp at hu
        | brefName nm =>
          cases lb with
          | true => simp [uses] at hu
          | false =>
            have hu' := hu
            simp only [uses, Bool.false_eq_true, if_false] at hu
            rw [eval_brefName, if_neg (by simp)]
            split at hu
            · rename_i hid
              obtain ⟨sl, hsl⟩ := getName_known hc hid
              rw [hsl]
              cases hb : brefCmp s cur (some sl) with
              | none => exact absurd hb brefCmp_some
              | some x =>
                obtain ⟨x, y⟩ := x
                cases x with
                | ub => exact .ub
                | no => exact .fail
                | yes p => exact next (hu'.trans hu.symm) _ _ _ hc
            · simp at hu
        | ahead pos m =>
          simp only [uses, Option.some.injEq] at hu
          subst hu
          have h1 := ih s lb cur f c [.re (.seq m), .endAhead] (hl _ (by simp)) hc
          have nxt := fun c hc => ih s lb cur f c t (hl _ (by simp)) hc
          rw [eval_ahead]
          cases ho : eval C n s lb cur f c [.re (.seq m), .endAhead] with
          | ok c' =>
            dsimp only
            split
            · exact nxt _ (h1.2 c' ho)
            · exact .fail
          | fail =>
            dsimp only
            split
            · exact .fail
            · exact nxt _ hc
          | timeout => exact .timeout
          | ub => exact .ub
          | ill => exact absurd ho h1.1
        | behind pos m =>
          simp only [uses, Option.some.injEq] at hu
          subst hu
          have h1 := ih s.reverse true (s.length - cur) f c [.re (.seq m), .endBehind] (hl _ (by simp)) hc
          have nxt := fun c hc => ih s lb cur f c t (hl _ (by simp)) hc
          rw [eval_behind]
          cases ho : eval C n s.reverse true (s.length - cur) f c [.re (.seq m), .endBehind] with
          | ok c' =>
            dsimp only
            split
            · exact nxt _ (h1.2 c' ho)
            · exact .fail
          | fail =>
            dsimp only
            split
            · exact .fail
            · exact nxt _ hc
          | timeout => exact .timeout
          | ub => exact .ub
          | ill => exact absurd ho h1.1
        | atomic m =>
          simp only [uses, Option.some.injEq] at hu
          subst hu
          rw [eval_atomic]
          exact ih _ _ _ _ _ _ (hl _ (by simp)) hc
        | mode md => rw [eval_mode]; exact next rfl _ _ _ hc
        | boundary cl => exact test rfl rfl
        | notBoundary cl => exact test rfl rfl
        | sBegin => exact test rfl rfl
        | sEnd => exact test rfl rfl
        | sEndLine => exact test rfl rfl
        | lBegin => exact test rfl rfl
        | lEnd => exact test rfl rfl

end Ctre
