import Verif.Model.Depth
import Verif.Spec.Depth
import Verif.Lemmas.Terminates
import Verif.Lemmas.Steps

/-
Upper bounds for the nesting of calls.
-/
namespace Ctre

section
variable {s : List Ch} {body tail : Nat → Caps → Out} {deep deepT : Nat → Caps → Nat} {e : Nat → Nat} {M : Nat}

theorem mandDepth_le (hs : StepOn s body) (he : ∀ p q, p ≤ q → e q ≤ e p) (hW : ∀ p c, p ≤ s.length → deep p c ≤ M + e p) :
    ∀ a p c, p ≤ s.length → mandDepth body deep a p c ≤ M + e p
  | 0, _, _, _ => Nat.zero_le _
  | a + 1, p, c, hp => by
    have h1 := hW p c hp
    rw [mandDepth]
    cases hq : step body p c with
    | stop o => simp only; omega
    | go q d =>
      have h2 := hs p c q d hp hq
      have h3 := mandDepth_le hs he hW a q d h2.2
      have h4 := he p q h2.1
      simp only; omega

theorem possDepth_le (hs : StepOn s body) (he : ∀ p q, p ≤ q → e q ≤ e p) (hW : ∀ p c, p ≤ s.length → deep p c ≤ M + e p)
    (b : Nat) : ∀ m i p c, p ≤ s.length → possDepth body deep b m i p c ≤ M + e p
  | 0, _, _, _, _ => Nat.zero_le _
  | m + 1, i, p, c, hp => by
    have h1 := hW p c hp
    rw [possDepth]
    split
    · cases hq : step body p c with
      | stop o => simp only; omega
      | go q d =>
        have h2 := hs p c q d hp hq
        have h3 := possDepth_le hs he hW b m (i + 1) q d h2.2
        have h4 := he p q h2.1
        simp only; omega
    · omega

theorem lazyDepth_le (hs : StepOn s body) (he : ∀ p q, p ≤ q → e q ≤ e p) (hW : ∀ p c, p ≤ s.length → deep p c ≤ M + e p)
    (hT : ∀ p c, p ≤ s.length → deepT p c ≤ M + e p)
    (b : Nat) : ∀ m i p c, p ≤ s.length → lazyDepth body tail deep deepT b m i p c ≤ M + e p
  | 0, _, _, _, _ => Nat.zero_le _
  | m + 1, i, p, c, hp => by
    have h1 := hW p c hp
    rw [lazyDepth]
    split
    · cases hq : step body p c with
      | stop o => simp only; omega
      | go q d =>
        have h2 := hs p c q d hp hq
        have h3 := lazyDepth_le hs he hW hT b m (i + 1) q d h2.2
        have h4 := he p q h2.1
        have h5 := hT q d h2.2
        have h6 := ifFail_le (tail q d) (lazyDepth body tail deep deepT b m (i + 1) q d)
        simp only; omega
    · exact hT p c hp

/-- Limited number of iterations. -/
theorem greedyDepth_le (hs : StepOn s body) (he : ∀ p q, p ≤ q → e q ≤ e p) (hW : ∀ p c, p ≤ s.length → deep p c ≤ M + e p)
    (hT : ∀ p c, p ≤ s.length → deepT p c ≤ M + e p)
    {b : Nat} (hb : b ≠ 0) : ∀ m i p c, p ≤ s.length → greedyDepth body tail deep deepT b m i p c ≤ 1 + (b - i) + M + e p
  | 0, _, _, _, _ => Nat.zero_le _
  | m + 1, i, p, c, hp => by
    have h1 := hW p c hp
    have h0 := hT p c hp
    rw [greedyDepth]
    split
    · rename_i hl
      have hl : i < b := by simpa [lessInf, hb] using hl
      cases hq : step body p c with
      | stop o =>
        have := ifFail_le o (deepT p c)
        simp only; omega
      | go q d =>
        have h2 := hs p c q d hp hq
        have h3 := greedyDepth_le hs he hW hT hb m (i + 1) q d h2.2
        have h4 := he p q h2.1
        have h6 := ifFail_le (greedyRec body tail b m (i + 1) q d) (deepT p c)
        simp only; omega
    · omega

/-- Every iteration uses up a part of the subject. -/
theorem greedyDepth_le_rest (hs : StepUp s body) (he : ∀ p q, p < q → q ≤ s.length → e q + 1 ≤ e p)
    (hW : ∀ p c, p ≤ s.length → deep p c ≤ M + e p) (hT : ∀ p c, p ≤ s.length → deepT p c ≤ M + e p)
    {b : Nat} : ∀ m i p c, p ≤ s.length → greedyDepth body tail deep deepT b m i p c ≤ 1 + M + e p
  | 0, _, _, _, _ => Nat.zero_le _
  | m + 1, i, p, c, hp => by
    have h1 := hW p c hp
    have h0 := hT p c hp
    rw [greedyDepth]
    split
    · cases hq : step body p c with
      | stop o =>
        have := ifFail_le o (deepT p c)
        simp only; omega
      | go q d =>
        have h2 := hs p c q d hp hq
        have h3 := greedyDepth_le_rest hs he hW hT (b := b) m (i + 1) q d h2.2
        have h4 := he p q h2.1 h2.2
        have h6 := ifFail_le (greedyRec body tail b m (i + 1) q d) (deepT p c)
        simp only; omega
    · omega
end

/-! ### Patterns -/

mutual
/-- `progressive` (`R`) or `shallow` (not `R`). -/
def Re.calm (R : Bool) (C : Cfg) (t : Stack) : Re → Bool
  | .sel l => calmSel R C t l
  | .seq l => calmSeq R C t l
  | .rep k _ b m =>
    (decide (b ≠ 0) || (if R then progress m else decide (k ≠ .greedy) || !givesBack C m t)) && calmItems R C [.endCycle] m
  | .cap id _ m => calmSeq R C (.numMark id :: t) m
  | .ahead _ m => calmSeq R C [.endAhead] m
  | .atomic m => calmItems R C [.endCycle] m
  | _ => true

def calmSel (R : Bool) (C : Cfg) (t : Stack) : List Re → Bool
  | [] => true
  | r :: l => r.calm R C t && calmSel R C t l

def calmSeq (R : Bool) (C : Cfg) (t : Stack) : List Re → Bool
  | [] => true
  | r :: m => r.calm R C (if m.isEmpty then t else .re (.seq m) :: t) && calmSeq R C t m

def calmItems (R : Bool) (C : Cfg) (t : Stack) : List Re → Bool
  | [] => true
  | r :: m => r.calm R C (items m t) && calmItems R C t m
end

mutual
theorem calm_shallow (C : Cfg) : ∀ (r : Re) t, r.calm false C t = r.shallow C t
  | .sel l, t => by simp only [Re.calm, Re.shallow]; exact calmSel_shallow C l t
  | .seq l, t => by simp only [Re.calm, Re.shallow]; exact calmSeq_shallow C l t
  | .rep k a b m, t => by
    simp only [Re.calm, Re.shallow, calmItems_shallow C m [.endCycle], Bool.false_eq_true, if_false, Bool.or_assoc]
  | .cap id _ m, t => by simp only [Re.calm, Re.shallow]; exact calmSeq_shallow C m _
  | .ahead _ m, t => by simp only [Re.calm, Re.shallow]; exact calmSeq_shallow C m _
  | .atomic m, t => by simp only [Re.calm, Re.shallow]; exact calmItems_shallow C m _
  | .cc _, _ | .any, _ | .str _, _ | .empty, _ | .bref _, _ | .brefName _, _ | .behind _ _, _ | .boundary _, _
  | .notBoundary _, _ | .sBegin, _ | .sEnd, _ | .sEndLine, _ | .lBegin, _ | .lEnd, _ | .mode _, _ | .reject _, _ => rfl
theorem calmSel_shallow (C : Cfg) : ∀ (l : List Re) t, calmSel false C t l = shallowSel C t l
  | [], _ => rfl
  | r :: l, t => by simp only [calmSel, shallowSel, calm_shallow C r t, calmSel_shallow C l t]
theorem calmSeq_shallow (C : Cfg) : ∀ (l : List Re) t, calmSeq false C t l = shallowSeq C t l
  | [], _ => rfl
  | r :: l, t => by simp only [calmSeq, shallowSeq, calm_shallow C r _, calmSeq_shallow C l t]
theorem calmItems_shallow (C : Cfg) : ∀ (l : List Re) t, calmItems false C t l = shallowItems C t l
  | [], _ => rfl
  | r :: l, t => by simp only [calmItems, shallowItems, calm_shallow C r _, calmItems_shallow C l t]
end

mutual
theorem calm_progressive (C : Cfg) : ∀ (r : Re) t, r.progressive = true → r.calm true C t = true
  | .sel l, t, h => by simp only [Re.calm, Re.progressive] at *; exact calmSel_progressive C l t h
  | .seq l, t, h => by simp only [Re.calm, Re.progressive] at *; exact calmSeq_progressive C l t h
  | .rep k a b m, t, h => by
    simp only [Re.progressive, Bool.and_eq_true] at h
    simp only [Re.calm, calmItems_progressive C m [.endCycle] h.2, if_true, Bool.and_true, progress]
    rw [← Bool.or_assoc]; exact h.1
  | .cap id _ m, t, h => by simp only [Re.calm, Re.progressive] at *; exact calmSeq_progressive C m _ h
  | .ahead _ m, t, h => by simp only [Re.calm, Re.progressive] at *; exact calmSeq_progressive C m _ h
  | .atomic m, t, h => by simp only [Re.calm, Re.progressive] at *; exact calmItems_progressive C m _ h
  | .cc _, _, _ | .any, _, _ | .str _, _, _ | .empty, _, _ | .bref _, _, _ | .brefName _, _, _ | .behind _ _, _, _
  | .boundary _, _, _ | .notBoundary _, _, _ | .sBegin, _, _ | .sEnd, _, _ | .sEndLine, _, _ | .lBegin, _, _ | .lEnd, _, _
  | .mode _, _, _ | .reject _, _, _ => rfl
theorem calmSel_progressive (C : Cfg) : ∀ (l : List Re) t, progressiveAll l = true → calmSel true C t l = true
  | [], _, _ => rfl
  | r :: l, t, h => by
    simp only [progressiveAll, Bool.and_eq_true] at h
    simp only [calmSel, calm_progressive C r t h.1, calmSel_progressive C l t h.2, Bool.and_self]
theorem calmSeq_progressive (C : Cfg) : ∀ (l : List Re) t, progressiveAll l = true → calmSeq true C t l = true
  | [], _, _ => rfl
  | r :: l, t, h => by
    simp only [progressiveAll, Bool.and_eq_true] at h
    simp only [calmSeq, calm_progressive C r _ h.1, calmSeq_progressive C l t h.2, Bool.and_self]
theorem calmItems_progressive (C : Cfg) : ∀ (l : List Re) t, progressiveAll l = true → calmItems true C t l = true
  | [], _, _ => rfl
  | r :: l, t, h => by
    simp only [progressiveAll, Bool.and_eq_true] at h
    simp only [calmItems, calm_progressive C r _ h.1, calmItems_progressive C l t h.2, Bool.and_self]
end

mutual
theorem shallow_ungreedy (C : Cfg) : ∀ (r : Re) t, r.ungreedy = true → r.shallow C t = true
  | .sel l, t, h => by simp only [Re.shallow, Re.ungreedy] at *; exact shallowSel_ungreedy C l t h
  | .seq l, t, h => by simp only [Re.shallow, Re.ungreedy] at *; exact shallowSeq_ungreedy C l t h
  | .rep k a b m, t, h => by
    simp only [Re.ungreedy, Bool.and_eq_true] at h
    simp only [Re.shallow, shallowItems_ungreedy C m [.endCycle] h.2, h.1, Bool.true_or, Bool.and_true]
  | .cap id _ m, t, h => by simp only [Re.shallow, Re.ungreedy] at *; exact shallowSeq_ungreedy C m _ h
  | .ahead _ m, t, h => by simp only [Re.shallow, Re.ungreedy] at *; exact shallowSeq_ungreedy C m _ h
  | .atomic m, t, h => by simp only [Re.shallow, Re.ungreedy] at *; exact shallowItems_ungreedy C m _ h
  | .cc _, _, _ | .any, _, _ | .str _, _, _ | .empty, _, _ | .bref _, _, _ | .brefName _, _, _ | .behind _ _, _, _
  | .boundary _, _, _ | .notBoundary _, _, _ | .sBegin, _, _ | .sEnd, _, _ | .sEndLine, _, _ | .lBegin, _, _ | .lEnd, _, _
  | .mode _, _, _ | .reject _, _, _ => rfl
theorem shallowSel_ungreedy (C : Cfg) : ∀ (l : List Re) t, ungreedyAll l = true → shallowSel C t l = true
  | [], _, _ => rfl
  | r :: l, t, h => by
    simp only [ungreedyAll, Bool.and_eq_true] at h
    simp only [shallowSel, shallow_ungreedy C r t h.1, shallowSel_ungreedy C l t h.2, Bool.and_self]
theorem shallowSeq_ungreedy (C : Cfg) : ∀ (l : List Re) t, ungreedyAll l = true → shallowSeq C t l = true
  | [], _, _ => rfl
  | r :: l, t, h => by
    simp only [ungreedyAll, Bool.and_eq_true] at h
    simp only [shallowSeq, shallow_ungreedy C r _ h.1, shallowSeq_ungreedy C l t h.2, Bool.and_self]
theorem shallowItems_ungreedy (C : Cfg) : ∀ (l : List Re) t, ungreedyAll l = true → shallowItems C t l = true
  | [], _, _ => rfl
  | r :: l, t, h => by
    simp only [ungreedyAll, Bool.and_eq_true] at h
    simp only [shallowItems, shallow_ungreedy C r _ h.1, shallowItems_ungreedy C l t h.2, Bool.and_self]
end

/-- The same for a stack. -/
def calmSt (R : Bool) (C : Cfg) : Stack → Bool
  | [] => true
  | .re r :: t => r.calm R C t && calmSt R C t
  | _ :: t => calmSt R C t

theorem calmSt_items (R : Bool) (C : Cfg) (t : Stack) : ∀ m, calmSt R C (items m t) = (calmItems R C t m && calmSt R C t)
  | [] => by simp [items, calmItems]
  | r :: m => by
    have := calmSt_items R C t m
    simp only [items, List.map_cons, List.cons_append, calmSt, calmItems] at *
    rw [this, Bool.and_assoc]

/-- What the subject adds to the depth. -/
def extra (R lb : Bool) (s : List Ch) (p : Nat) : Nat := if R && !lb then s.length - p else 0

theorem extra_anti (R lb : Bool) (s : List Ch) {p q : Nat} (h : p ≤ q) : extra R lb s q ≤ extra R lb s p := by
  unfold extra; split <;> omega

theorem depth_le (R : Bool) (C : Cfg) : ∀ n s lb cur f c st, cur ≤ s.length → (lb = true ∨ calmSt R C st = true) →
    depth C n s lb cur f c st ≤ weightSt st + extra R lb s cur := by
  intro n
  induction n with
  | zero => intro s lb cur f c st _ _; simp [depth]
  | succ n ih =>
    intro s lb cur f c st hcur hst
    have hw0 := weightSt_pos st
    rcases st with _ | ⟨it, t⟩
    · rw [depth]; omega
    · have hloop : ∀ {k a b m}, (lb = true ∨ calmSt R C (.re (.rep k a b m) :: t) = true) → lb = false →
          (∀ p c, p ≤ s.length → depth C n s lb p f.notEmpty c (items m [.endCycle]) ≤
            max (weightAll m + 2) (weightSt t) + extra R lb s p) := by
        intro k a b m hpr hlb p c hp
        have hpr := hpr.resolve_left (by simp [hlb])
        simp only [calmSt, Re.calm, Bool.and_eq_true] at hpr
        have h1 := ih s lb p f.notEmpty c (items m [.endCycle]) hp (.inr (by
          rw [calmSt_items, hpr.1.2]; rfl))
        have h2 := weightSt_items m [.endCycle]
        simp only [weightSt] at h2
        omega
      cases it with
      | accept => rw [depth]; omega
      | endAhead => rw [depth]; omega
      | endBehind => rw [depth]; omega
      | endCycle => rw [depth]; omega
      | startMark =>
        rw [depth]
        split
        · omega
        · have := ih s lb cur f (c.setStart cur) t hcur hst; simp only [weightSt]; omega
      | endMark =>
        rw [depth]
        split
        · omega
        · have := ih s lb cur f (c.setEnd cur) t hcur hst; simp only [weightSt]; omega
      | numMark id =>
        rw [depth]
        split
        · omega
        · split
          · omega
          · rename_i c' _; have := ih s lb cur f c' t hcur hst; simp only [weightSt]; omega
      | re r =>
        have hw1 : 1 ≤ r.weight := r.weight_pos
        have hpt : lb = true ∨ calmSt R C t = true := by
          rcases hst with h | h
          · exact .inl h
          · simp only [calmSt, Bool.and_eq_true] at h; exact .inr h.2
        have ht : ∀ p f c, cur ≤ p → p ≤ s.length → depth C n s lb p f c t ≤ weightSt t + extra R lb s cur :=
          fun p f c h hp => Nat.le_trans (ih _ _ _ _ _ _ hp hpt) (Nat.add_le_add_left (extra_anti R lb s h) _)
        have htT : ∀ W p f c, p ≤ s.length → depth C n s lb p f c t ≤ max W (weightSt t) + extra R lb s p :=
          fun W p f c hp => Nat.le_trans (ih _ _ _ _ _ _ hp hpt) (by omega)
        cases r with
        | cc cl =>
          rw [depth]
          simp only [weightSt, Re.weight]
          split
          · omega
          · split
            · omega
            · split
              · have := ht (cur + 1) (f.consumed true) c (by omega) (by omega); omega
              · omega
        | any =>
          rw [depth]
          simp only [weightSt, Re.weight]
          split
          · omega
          · have := ht (cur + 1) (f.consumed true) c (by omega) (by omega)
            split
            · split
              · omega
              · split <;> omega
            · omega
        | str cs =>
          rw [depth]
          simp only [weightSt, Re.weight]
          split
          · omega
          · omega
          · rename_i p hq
            have := ht p (f.consumed (decide (0 < cs.length))) c (by have := matchString_yes hq; omega) (matchString_cur hcur hq)
            omega
        | sel l =>
          cases l with
          | nil => rw [depth]; omega
          | cons r opts =>
            rw [depth]
            simp only [calmSt, Re.calm, calmSel, Bool.and_eq_true] at hst
            have h1 := ih s lb cur f c (.re r :: t) hcur (by simp only [calmSt, Bool.and_eq_true]; exact hst.imp id fun h => ⟨h.1.1, h.2⟩)
            have h2 := ih s lb cur f c (.re (.sel opts) :: t) hcur (by
              simp only [calmSt, Re.calm, Bool.and_eq_true]; exact hst.imp id fun h => ⟨h.1.2, h.2⟩)
            have h3 := ifFail_le (eval C n s lb cur f c (.re r :: t)) (depth C n s lb cur f c (.re (.sel opts) :: t))
            simp only [weightSt, Re.weight, weightAll] at *
            omega
        | seq l =>
          rcases l with _ | ⟨r, _ | ⟨r', m⟩⟩
          · rw [depth]; omega
          · rw [depth]
            simp only [calmSt, Re.calm, calmSeq, List.isEmpty_nil, if_true, Bool.and_eq_true] at hst
            have h1 := ih s lb cur f c (.re r :: t) hcur (by simp only [calmSt, Bool.and_eq_true]; exact hst.imp id fun h => ⟨h.1.1, h.2⟩)
            simp only [weightSt, Re.weight, weightAll] at *
            omega
          · rw [depth]
            · simp only [calmSt, Re.calm, calmSeq, List.isEmpty_cons, Bool.false_eq_true, if_false, Bool.and_eq_true] at hst
              have h1 := ih s lb cur f c (.re r :: .re (.seq (r' :: m)) :: t) hcur (by
                simp only [calmSt, Re.calm, calmSeq, Bool.and_eq_true]; exact hst.imp id fun h => ⟨h.1.1, h.1.2, h.2⟩)
              simp only [weightSt, Re.weight, weightAll] at *
              omega
            all_goals simp
        | empty =>
          rw [depth]
          have := ht cur f c (Nat.le_refl _) hcur
          simp only [weightSt, Re.weight]; omega
        | rep k a b m =>
          have hwt : 3 + b + weightAll m + weightSt t ≤ weightSt (.re (.rep k a b m) :: t) := by
            cases k <;> simp only [weightSt, Re.weight] <;> omega
          have hpos := weightSt_pos t
          cases k with
          | lazy =>
            rw [depth]
            split
            · omega
            · split
              · omega
              · rename_i hlb
                have hB := hloop hst (by simpa using hlb)
                have hs := stepOn_eval C n s lb f.notEmpty m
                have h1 := mandDepth_le hs (fun p q h => extra_anti R lb s h) hB a cur c hcur
                dsimp only
                cases hq : mandLoop (fun p c' => eval C n s lb p f.notEmpty c' (items m [.endCycle])) a cur c with
                | stop o => simp only; omega
                | go p d =>
                  have h2 := mandLoop_on hs _ _ _ _ _ hcur hq
                  have h3 := lazyDepth_le (tail := fun p c' => eval C n s lb p (f.consumed true) c' t)
                    hs (fun p q h => extra_anti R lb s h) hB (fun p c hp => htT _ p (f.consumed true) c hp) b n a p d h2.2
                  have h4 := ht p (f.consumed (decide (cur ≠ p))) d h2.1 h2.2
                  have h5 := extra_anti R lb s h2.1
                  have h6 := ifFail_le (eval C n s lb p (f.consumed (decide (cur ≠ p))) d t)
                    (lazyDepth (fun p c' => eval C n s lb p f.notEmpty c' (items m [.endCycle]))
                      (fun p c' => eval C n s lb p (f.consumed true) c' t)
                      (fun p c' => depth C n s lb p f.notEmpty c' (items m [.endCycle]))
                      (fun p c' => depth C n s lb p (f.consumed true) c' t) b n a p d)
                  simp only
                  omega
          | poss =>
            rw [depth]
            split
            · omega
            · split
              · omega
              · rename_i hlb
                have hB := hloop hst (by simpa using hlb)
                have hs := stepOn_eval C n s lb f.notEmpty m
                have h1 := possDepth_le hs (fun p q h => extra_anti R lb s h) hB b n 0 cur c hcur
                dsimp only
                cases hq : possLoop (fun p c' => eval C n s lb p f.notEmpty c' (items m [.endCycle])) a b n 0 cur c with
                | stop o => simp only; omega
                | go p d =>
                  have h2 := possLoop_on hs _ _ _ _ _ _ hcur hq
                  have h4 := ht p (f.consumed (decide (cur ≠ p))) d h2.1 h2.2
                  simp only
                  omega
          | greedy =>
            rw [depth]
            split
            · omega
            · split
              · omega
              · rename_i hlb
                have hlb : lb = false := by simpa using hlb
                have hB := hloop hst hlb
                have hs := stepOn_eval C n s lb f.notEmpty m
                have hst' := hst.resolve_left (by simp [hlb])
                simp only [calmSt, Re.calm, Bool.and_eq_true] at hst'
                have hnone : b = 0 → R = false → (if C.greedyOpt = true then loopCollides m t else some true) ≠ some true := by
                  intro h1 h2
                  have := hst'.1.1
                  simp only [h1, h2, Bool.false_eq_true, if_false, givesBack] at this
                  split
                  · rename_i h3; simpa [h3] using this
                  · rename_i h3; simp [h3] at this
                generalize (if C.greedyOpt = true then loopCollides m t else some true) = g at hnone
                rcases g with _ | _ | _
                · simp only; omega
                · have h1 := ih s lb cur f c (.re (.rep .poss a b m) :: t) hcur (.inr (by
                    simp only [calmSt, Re.calm, Bool.and_eq_true]
                    refine ⟨⟨?_, hst'.1.2⟩, hst'.2⟩
                    have := hst'.1.1
                    cases R
                    · simp
                    · simpa using this))
                  simp only [weightSt, Re.weight] at *
                  omega
                · have h1 := mandDepth_le hs (fun p q h => extra_anti R lb s h) hB a cur c hcur
                  simp only
                  cases hq : mandLoop (fun p c' => eval C n s lb p f.notEmpty c' (items m [.endCycle])) a cur c with
                  | stop o => simp only; omega
                  | go p d =>
                    have h2 := mandLoop_on hs _ _ _ _ _ hcur hq
                    have h5 := extra_anti R lb s h2.1
                    simp only
                    by_cases hb : b = 0
                    · cases hR : R with
                      | false => exact (hnone hb hR rfl).elim
                      | true =>
                        subst hR
                        have hm : progress m = true := by
                          have := hst'.1.1
                          simpa [hb] using this
                        have hup : StepUp s (fun p c' => eval C n s lb p f.notEmpty c' (items m [.endCycle])) := by
                          intro p c p' c' hp h
                          unfold step at h
                          split at h
                          · rename_i r hr
                            obtain ⟨e, he, h3, h4⟩ := eval_moves C n s lb p f.notEmpty c _ hp (endsPos_items (by simp [endsPos])) (moves_items hm) r hr
                            rw [he] at h
                            simp only [Loop.go.injEq] at h
                            omega
                          · simp at h
                        have h3 := greedyDepth_le_rest (tail := fun p c' => eval C n s lb p (f.consumed true) c' t) (b := b)
                          hup (fun p q h h' => by simp only [extra, hlb]; simp; omega) hB (fun p c hp => htT _ p (f.consumed true) c hp) n a p d h2.2
                        omega
                    · have h3 := greedyDepth_le (tail := fun p c' => eval C n s lb p (f.consumed true) c' t)
                        hs (fun p q h => extra_anti R lb s h) hB (fun p c hp => htT _ p (f.consumed true) c hp) hb n a p d h2.2
                      omega
        | cap id name m =>
          rw [depth]
          split
          · omega
          · split
            · omega
            · rename_i c' _
              have h1 := ih s lb cur f c' (.re (.seq m) :: .numMark id :: t) hcur (by simpa only [calmSt, Re.calm] using hst)
              simp only [weightSt, Re.weight] at *
              omega
        | bref id =>
          rw [depth]
          simp only [weightSt, Re.weight]
          split
          · omega
          · split
            · rename_i p ne hq
              have h1 := brefCmp_pos hcur hq
              have := ht p (f.consumed ne) c h1.1 h1.2
              omega
            · omega
        | brefName id =>
          rw [depth]
          simp only [weightSt, Re.weight]
          split
          · omega
          · split
            · rename_i p ne hq
              have h1 := brefCmp_pos hcur hq
              have := ht p (f.consumed ne) c h1.1 h1.2
              omega
            · omega
        | ahead pos m =>
          rw [depth]
          have hpos := weightSt_pos t
          have h1 := ih s lb cur f c [.re (.seq m), .endAhead] hcur (by
            simp only [calmSt, Re.calm, Bool.and_eq_true] at hst ⊢
            exact hst.imp id fun h => ⟨h.1, trivial⟩)
          have h2 := ht cur f c (Nat.le_refl _) hcur
          simp only [weightSt, Re.weight] at *
          split
          · rename_i c' _
            have h3 := ht cur f c'.unmatch (Nat.le_refl _) hcur
            split <;> omega
          · split <;> omega
          · omega
        | behind pos m =>
          rw [depth]
          have hpos := weightSt_pos t
          have h1 := ih s.reverse true (s.length - cur) f c [.re (.seq m), .endBehind] (by simp) (.inl rfl)
          have h2 := ht cur f c (Nat.le_refl _) hcur
          simp only [weightSt, Re.weight, extra, Bool.not_true, Bool.and_false, Bool.false_eq_true, if_false] at h1
          simp only [weightSt, Re.weight] at *
          split
          · rename_i c' _
            have h3 := ht cur f c'.unmatch (Nat.le_refl _) hcur
            split <;> omega
          · split <;> omega
          · omega
        | atomic m =>
          rw [depth]
          have h1 := ih s lb cur f c (.re (.rep .poss 1 1 m) :: t) hcur (by
            simp only [calmSt, Re.calm, Bool.and_eq_true] at hst ⊢
            exact hst.imp id fun h => ⟨⟨by simp, h.1⟩, h.2⟩)
          simp only [weightSt, Re.weight] at *
          omega
        | mode md =>
          rw [depth]
          have := ht cur (f.add md) c (Nat.le_refl _) hcur
          simp only [weightSt, Re.weight]; omega
        | reject => rw [depth]; omega
        | boundary _ | notBoundary _ | sBegin | sEnd | sEndLine | lBegin | lEnd =>
          have := ht cur f c (Nat.le_refl _) hcur
          unfold depth
          simp only [weightSt, Re.weight]
          split <;> omega

end Ctre
