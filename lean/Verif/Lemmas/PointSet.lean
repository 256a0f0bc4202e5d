import Verif.Model.PointSet

/-
The array of intervals holds what the list of intervals holds, sorted, and is large enough.
-/
namespace Ctre

/-- Sorted by the lower ends. -/
abbrev Ascending (l : List (Int × Int)) : Prop := l.Pairwise fun a b => a.1 ≤ b.1

theorem store_eq {pts : List (Int × Int)} {i : Nat} (h : i < pts.length) (p : Int × Int) : store pts i p = some (pts.set i p) := by
  simp [store, h]

/-- `lower_bound`: everything before the result is less, everything from the result on is not. -/
theorem lbLoop_spec {pts : List (Int × Int)} {low : Int} {n : Nat} (hn : n ≤ pts.length)
    (hs : Ascending (pts.take n)) : ∀ (count first it : Nat), first + count ≤ n → (count = 0 → it = first) →
    (∀ i p, i < first → pts[i]? = some p → p.1 < low) → (∀ i p, first + count ≤ i → i < n → pts[i]? = some p → ¬ p.1 < low) →
    ∃ k, lbLoop pts low first it count = some k ∧ k ≤ n ∧ (∀ i p, i < k → pts[i]? = some p → p.1 < low) ∧
      ∀ i p, k ≤ i → i < n → pts[i]? = some p → ¬ p.1 < low := by
  intro count
  induction count using Nat.strongRecOn with
  | _ count ih =>
    intro first it h1 h2 h3 h4
    unfold lbLoop
    by_cases h0 : count = 0
    · subst h0
      simp only [↓reduceDIte]
      have := h2 rfl
      subst this
      exact ⟨it, rfl, h1, h3, h4⟩
    · simp only [h0, ↓reduceDIte]
      have hlt : first + count / 2 < n := by omega
      have hle : ∀ i j p q, i ≤ j → j < n → pts[i]? = some p → pts[j]? = some q → p.1 ≤ q.1 := by
        intro i j p q hij hj hp hq
        rcases Nat.lt_or_ge i j with h | h
        · unfold Ascending at hs
          rw [List.pairwise_iff_getElem] at hs
          have := hs i j (by simp; omega) (by simp; omega) h
          rw [List.getElem?_eq_some_iff] at hp hq
          obtain ⟨_, rfl⟩ := hp
          obtain ⟨_, rfl⟩ := hq
          simpa using this
        · have : i = j := by omega
          subst this
          rw [hp] at hq
          simp only [Option.some.injEq] at hq
          rw [hq]; exact Int.le_refl _
      obtain ⟨m, hm⟩ : ∃ m, pts[first + count / 2]? = some m := ⟨_, List.getElem?_eq_getElem (by omega)⟩
      rw [hm]
      dsimp only
      split
      · rename_i hlow
        refine ih _ (by omega) _ _ (by omega) (fun _ => rfl) ?_ ?_
        · intro i p hi hp
          have := hle i _ p m (by omega) hlt hp hm
          omega
        · intro i p hi
          exact h4 i p (by omega)
      · rename_i hlow
        refine ih _ (by omega) _ _ (by omega) (by omega) h3 ?_
        intro i p hi hi' hp
        have := hle _ i m p hi hi' hm hp
        omega

theorem shiftLoop_spec : ∀ (B : List (Int × Int)) (A D : List (Int × Int)) (x obj : Int × Int),
    shiftLoop (A ++ (B ++ x :: D)) A.length obj B.length = some (A ++ obj :: (B ++ D))
  | [], A, D, x, obj => by
    simp only [List.length_nil, List.nil_append, shiftLoop]
    rw [store_eq (by simp)]
    simp
  | b :: B, A, D, x, obj => by
    simp only [List.length_cons, shiftLoop, List.cons_append]
    rw [show (A ++ b :: (B ++ x :: D))[A.length]? = some b by simp]
    dsimp only
    rw [store_eq (by simp)]
    dsimp only
    have := shiftLoop_spec B (A ++ [obj]) D x b
    simp only [List.length_append, List.length_cons, List.length_nil, List.append_assoc, List.cons_append, List.nil_append] at this
    rw [show (A ++ b :: (B ++ x :: D)).set A.length obj = A ++ obj :: (B ++ x :: D) by simp]
    exact this

/-- The array holds the intervals of the list. -/
structure Stores (cap : Nat) (s : PSet) (ps : List (Int × Int)) : Prop where
  length : s.points.length = cap + 1
  used : s.used ≤ cap + 1
  perm : (s.points.take s.used).Perm ps
  sorted : Ascending (s.points.take s.used)

theorem Stores.used_eq {cap : Nat} {s : PSet} {ps : List (Int × Int)} (h : Stores cap s ps) : s.used = ps.length := by
  have h1 := h.perm.length_eq
  rw [List.length_take] at h1
  have h2 := h.length
  have h3 := h.used
  omega

theorem insert_holds {cap : Nat} {s : PSet} {ps : List (Int × Int)} (h : Stores cap s ps) (hc : ps.length ≤ cap) (p : Int × Int) :
    ∃ s', s.insert p = .ok s' ∧ Stores cap s' (ps ++ [p]) := by
  have hu := h.used_eq
  have hl := h.length
  obtain ⟨k, hk, hkn, h1, h2⟩ := lbLoop_spec (low := p.1) (n := s.used) (by omega) h.sorted s.used 0 0 (by omega) (fun _ => rfl)
    (by intro i p hi; omega) (by intro i p hi hi'; omega)
  have key : ∃ x D, s.points = s.points.take k ++ ((s.points.take s.used).drop k ++ x :: D) ∧
      (if k = s.used then store s.points k p else shiftLoop s.points k p (s.used - k)) =
        some (s.points.take k ++ p :: ((s.points.take s.used).drop k ++ D)) := by
    obtain ⟨x, hx⟩ : ∃ x, s.points[s.used]? = some x := ⟨_, List.getElem?_eq_getElem (by omega)⟩
    have e1 : s.points.drop s.used = x :: s.points.drop (s.used + 1) := by
      rw [List.getElem?_eq_some_iff] at hx
      obtain ⟨_, rfl⟩ := hx
      rw [List.drop_eq_getElem_cons]
    have e2 : s.points = s.points.take k ++ ((s.points.take s.used).drop k ++ x :: s.points.drop (s.used + 1)) := by
      rw [← e1]
      have : (s.points.take s.used).take k = s.points.take k := by rw [List.take_take]; congr 1; omega
      rw [← List.append_assoc, ← this, List.take_append_drop, List.take_append_drop]
    refine ⟨x, _, e2, ?_⟩
    have lA : (s.points.take k).length = k := by rw [List.length_take]; omega
    have lB : ((s.points.take s.used).drop k).length = s.used - k := by rw [List.length_drop, List.length_take]; omega
    split
    · rename_i hk'
      rw [store_eq (by omega)]
      have e3 : (s.points.take s.used).drop k = [] := by rw [List.drop_eq_nil_iff, List.length_take]; omega
      rw [e3] at e2 ⊢
      simp only [List.nil_append] at e2 ⊢
      generalize hA : s.points.take k = A at e2 lA ⊢
      generalize s.points.drop (s.used + 1) = D at e2 ⊢
      rw [e2]
      simp [← lA]
    · have := shiftLoop_spec ((s.points.take s.used).drop k) (s.points.take k) (s.points.drop (s.used + 1)) x p
      rw [← e2, lA, lB] at this
      exact this
  obtain ⟨x, D, e1, e2⟩ := key
  refine ⟨⟨s.points.take k ++ p :: ((s.points.take s.used).drop k ++ D), s.used + 1⟩, ?_, ?_⟩
  · unfold PSet.insert
    rw [hk]
    dsimp only
    rw [e2]
  · have lA : (s.points.take k).length = k := by rw [List.length_take]; omega
    have lB : ((s.points.take s.used).drop k).length = s.used - k := by rw [List.length_drop, List.length_take]; omega
    have e3 : (s.points.take k ++ p :: ((s.points.take s.used).drop k ++ D)).take (s.used + 1) =
        s.points.take k ++ p :: (s.points.take s.used).drop k := by
      have : s.points.take k ++ p :: ((s.points.take s.used).drop k ++ D) =
        (s.points.take k ++ p :: (s.points.take s.used).drop k) ++ D := by simp
      rw [this, List.take_append_of_le_length (by simp only [List.length_append, List.length_cons, lA, lB]; omega)]
      rw [List.take_of_length_le (by simp only [List.length_append, List.length_cons, lA, lB]; omega)]
    have e4 : s.points.take k ++ (s.points.take s.used).drop k = s.points.take s.used := by
      have : (s.points.take s.used).take k = s.points.take k := by rw [List.take_take]; congr 1; omega
      rw [← this, List.take_append_drop]
    refine ⟨?_, ?_, ?_, ?_⟩
    · have := congrArg List.length e1
      simp only [List.length_append, List.length_cons] at this ⊢
      omega
    · show s.used + 1 ≤ cap + 1
      omega
    · show List.Perm (List.take (s.used + 1) _) _
      rw [e3]
      refine (List.perm_middle).trans ?_
      rw [e4]
      exact (h.perm.cons p).trans (List.perm_append_singleton p ps).symm
    · show Ascending (List.take (s.used + 1) _)
      rw [e3]
      have hs := h.sorted
      rw [← e4] at hs
      rw [Ascending, List.pairwise_append] at hs ⊢
      obtain ⟨s1, s2, s3⟩ := hs
      refine ⟨s1, List.pairwise_cons.2 ⟨?_, s2⟩, ?_⟩
      · intro q hq
        obtain ⟨i, hi, rfl⟩ := List.mem_iff_getElem.1 hq
        have := h2 (k + i) _ (by omega) (by rw [lB] at hi; omega) (List.getElem?_eq_getElem (by rw [lB] at hi; omega))
        simp only [List.getElem_drop, List.getElem_take]
        omega
      · intro a ha b hb
        rcases List.mem_cons.1 hb with rfl | hb
        · obtain ⟨i, hi, rfl⟩ := List.mem_iff_getElem.1 ha
          rw [lA] at hi
          have := h1 i _ hi (List.getElem?_eq_getElem (by omega))
          simp only [List.getElem_take]
          omega
        · exact s3 a ha b hb

theorem insertAll_holds {cap : Nat} : ∀ {l : List (Int × Int)} {s : PSet} {ps : List (Int × Int)}, Stores cap s ps →
    ps.length + l.length ≤ cap → ∃ s', s.insertAll l = .ok s' ∧ Stores cap s' (ps ++ l)
  | [], s, ps, h, hc => ⟨s, rfl, by simpa using h⟩
  | p :: l, s, ps, h, hc => by
    simp only [List.length_cons] at hc
    obtain ⟨s1, e1, h1⟩ := insert_holds h (by omega) p
    obtain ⟨s2, e2, h2⟩ := insertAll_holds (l := l) h1 (by simp; omega)
    refine ⟨s2, ?_, by simpa using h2⟩
    simp only [PSet.insertAll, e1, SetOut.andThen, e2]

theorem fill_holds {cap : Nat} {s : PSet} {ps : List (Int × Int)} (h : Stores cap s ps) :
    ∃ s', s.fill = .ok s' ∧ Stores cap s' [(i64min, i64max)] := by
  have hl := h.length
  unfold PSet.fill
  rw [store_eq (by omega)]
  refine ⟨_, rfl, ?_⟩
  have : (s.points.set 0 (i64min, i64max)).take 1 = [(i64min, i64max)] := by
    match hp : s.points, hl with
    | [], hl => simp at hl
    | a :: l, _ => simp
  refine ⟨by simp [hl], by simp, ?_, ?_⟩
  · show List.Perm (List.take 1 _) _
    rw [this]
  · show Ascending (List.take 1 _)
    rw [this]
    simp [Ascending]

/-! ### Numbers of intervals -/

theorem negEnum_size : ∀ (cs : List Nat) (start : Int), (negEnum cs start).1.length ≤ cs.length
  | [], _ => by simp [negEnum]
  | c :: cs, start => by
    have := negEnum_size cs (negRange c c start).2
    simp only [negEnum, List.length_append, List.length_cons]
    have : (negRange c c start).1.length ≤ 1 := by unfold negRange; split <;> simp
    omega

mutual
theorem negHelper_size : ∀ (c : CC) (start : Int) (x : List (Int × Int) × Int), negHelper c start = some x → x.1.length ≤ sizeCC c
  | .chr c, start, x, h => by
    simp only [negHelper, Option.some.injEq] at h; subst h
    unfold negRange; simp only [sizeCC]; split <;> simp
  | .range a b, start, x, h => by
    simp only [negHelper, Option.some.injEq] at h; subst h
    unfold negRange; simp only [sizeCC]; split <;> simp
  | .enum cs, start, x, h => by
    simp only [negHelper, Option.some.injEq] at h; subst h
    simp only [sizeCC]; exact negEnum_size cs start
  | .set l, start, x, h => by
    simp only [negHelper] at h; simp only [sizeCC]; exact negList_size l start x h
  | .prop _, start, x, h => by
    simp only [negHelper, Option.some.injEq] at h; subst h; simp
  | .negSet _, start, x, h => by simp [negHelper] at h
  | .negate _, start, x, h => by simp [negHelper] at h

theorem negList_size : ∀ (l : List CC) (start : Int) (x : List (Int × Int) × Int), negList l start = some x →
    x.1.length ≤ sizeList l
  | [], start, x, h => by simp only [negList, Option.some.injEq] at h; subst h; simp
  | c :: l, start, x, h => by
    simp only [negList] at h
    split at h
    · simp at h
    · rename_i ps st' h1
      split at h
      · simp at h
      · rename_i ps' st'' h2
        simp only [Option.some.injEq] at h; subst h
        have := negHelper_size c start _ h1
        have := negList_size l st' _ h2
        simp only [sizeList, List.length_append] at *
        omega
end

theorem negSetIntervals_size {l : List CC} {ivs : List (Int × Int)} (h : negSetIntervals l = some ivs) :
    ivs.length ≤ 1 + sizeList l := by
  unfold negSetIntervals at h
  split at h
  · simp at h
  · rename_i ps st h1
    have := negList_size l _ _ h1
    simp only [Option.some.injEq] at h
    subst h
    split
    · simp only [List.length_append, List.length_cons, List.length_nil] at *; omega
    · simp only at *; omega

mutual
theorem populateCC_holds {cap : Nat} : ∀ (c : CC) {s : PSet} {ps : List (Int × Int)}, Stores cap s ps →
    ps.length + sizeCC c ≤ cap →
    (populateCC ps c = none ∧ s.populateCC c = .ill) ∨
      ∃ ps' s', populateCC ps c = some ps' ∧ s.populateCC c = .ok s' ∧ Stores cap s' ps' ∧ ps'.length ≤ ps.length + sizeCC c
  | .chr c, s, ps, h, hc => by
    obtain ⟨s', e, h'⟩ := insert_holds h (by simp only [sizeCC] at hc; omega) ((c : Int), (c : Int))
    exact .inr ⟨_, s', rfl, by simpa only [PSet.populateCC] using e, h', by simp [sizeCC]⟩
  | .range a b, s, ps, h, hc => by
    obtain ⟨s', e, h'⟩ := insert_holds h (by simp only [sizeCC] at hc; omega) ((a : Int), (b : Int))
    exact .inr ⟨_, s', rfl, by simpa only [PSet.populateCC] using e, h', by simp [sizeCC]⟩
  | .enum cs, s, ps, h, hc => by
    obtain ⟨s', e, h'⟩ := insertAll_holds (l := cs.map fun c : Nat => ((c : Int), (c : Int))) h (by simpa [sizeCC] using hc)
    exact .inr ⟨_, s', rfl, by simpa only [PSet.populateCC] using e, h', by simp [sizeCC]⟩
  | .set l, s, ps, h, hc => by
    simp only [populateCC, PSet.populateCC, sizeCC] at hc ⊢
    exact populateList_holds l h hc
  | .negSet l, s, ps, h, hc => by
    simp only [populateCC, PSet.populateCC, sizeCC] at hc ⊢
    cases hi : negSetIntervals l with
    | none => exact .inl ⟨rfl, rfl⟩
    | some ivs =>
      have := negSetIntervals_size hi
      obtain ⟨s', e, h'⟩ := insertAll_holds (l := ivs) h (by omega)
      exact .inr ⟨_, s', rfl, e, h', by simp; omega⟩
  | .negate _, s, ps, h, hc => by
    obtain ⟨s', e, h'⟩ := fill_holds h
    exact .inr ⟨_, s', rfl, by simpa only [PSet.populateCC] using e, h', by simp [sizeCC]⟩
  | .prop _, s, ps, h, hc => by
    obtain ⟨s', e, h'⟩ := fill_holds h
    exact .inr ⟨_, s', rfl, by simpa only [PSet.populateCC] using e, h', by simp [sizeCC]⟩

theorem populateList_holds {cap : Nat} : ∀ (l : List CC) {s : PSet} {ps : List (Int × Int)}, Stores cap s ps →
    ps.length + sizeList l ≤ cap →
    (populateList ps l = none ∧ s.populateList l = .ill) ∨
      ∃ ps' s', populateList ps l = some ps' ∧ s.populateList l = .ok s' ∧ Stores cap s' ps' ∧ ps'.length ≤ ps.length + sizeList l
  | [], s, ps, h, hc => .inr ⟨ps, s, rfl, by simp only [PSet.populateList], h, by simp⟩
  | c :: l, s, ps, h, hc => by
    simp only [sizeList] at hc
    simp only [populateList, PSet.populateList, sizeList]
    rcases populateCC_holds c h (by omega) with ⟨h1, h2⟩ | ⟨ps', s', h1, h2, h3, h4⟩
    · rw [h1, h2]; exact .inl ⟨rfl, rfl⟩
    · rw [h1, h2]
      simp only [SetOut.andThen]
      rcases populateList_holds l h3 (by omega) with ⟨e1, e2⟩ | ⟨ps'', s'', e1, e2, e3, e4⟩
      · exact .inl ⟨e1, e2⟩
      · exact .inr ⟨ps'', s'', e1, e2, e3, by omega⟩
end

theorem populate_holds {cap : Nat} : ∀ (l : List FC) {s : PSet} {ps : List (Int × Int)}, Stores cap s ps →
    ps.length + sizeFirst l ≤ cap →
    (populate ps l = none ∧ s.populate l = .ill) ∨
      ∃ ps' s', populate ps l = some ps' ∧ s.populate l = .ok s' ∧ Stores cap s' ps' ∧ ps'.length ≤ ps.length + sizeFirst l
  | [], s, ps, h, hc => .inr ⟨ps, s, rfl, rfl, h, by simp⟩
  | c :: l, s, ps, h, hc => by
    simp only [sizeFirst] at hc
    simp only [populate, PSet.populate, sizeFirst]
    have one : (populateFC ps c = none ∧ s.populateFC c = .ill) ∨
      ∃ ps' s', populateFC ps c = some ps' ∧ s.populateFC c = .ok s' ∧ Stores cap s' ps' ∧ ps'.length ≤ ps.length + sizeFC c := by
      cases c with
      | anything =>
        obtain ⟨s', e, h'⟩ := fill_holds h
        exact .inr ⟨_, s', rfl, e, h', by simp [sizeFC]⟩
      | cc c => exact populateCC_holds c h (by simp only [sizeFC] at hc; omega)
    rcases one with ⟨h1, h2⟩ | ⟨ps', s', h1, h2, h3, h4⟩
    · rw [h1, h2]; exact .inl ⟨rfl, rfl⟩
    · rw [h1, h2]
      simp only [SetOut.andThen]
      rcases populate_holds l h3 (by omega) with ⟨e1, e2⟩ | ⟨ps'', s'', e1, e2, e3, e4⟩
      · exact .inl ⟨e1, e2⟩
      · exact .inr ⟨ps'', s'', e1, e2, e3, by omega⟩

theorem empty_holds (cap : Nat) : Stores cap (PSet.empty cap) [] :=
  ⟨by simp [PSet.empty], by simp [PSet.empty], by simp [PSet.empty], by simp [PSet.empty, Ascending]⟩

/-! ### Looking up -/

/-- The condition for one interval. -/
def touches (low high : Int) (r : Int × Int) : Bool :=
  (decide (r.1 ≤ low) && decide (low ≤ r.2)) || (decide (r.1 ≤ high) && decide (high ≤ r.2)) ||
    (decide (low ≤ r.1) && decide (r.1 ≤ high)) || (decide (low ≤ r.2) && decide (r.2 ≤ high))

theorem checkLoop_eq {s : PSet} {low high : Int} : ∀ (n i : Nat), i + n ≤ s.points.length →
    s.checkLoop low high i n = .ok (((s.points.drop i).take n).any (touches low high))
  | 0, i, _ => by simp [PSet.checkLoop]
  | n + 1, i, h => by
    have ih := checkLoop_eq (s := s) (low := low) (high := high) n (i + 1) (by omega)
    have hi : i < s.points.length := by omega
    simp only [PSet.checkLoop]
    rw [List.getElem?_eq_getElem hi]
    dsimp only
    rw [ih, List.drop_eq_getElem_cons hi, List.take_succ_cons, List.any_cons]
    generalize s.points[i] = r
    by_cases h1 : r.1 ≤ low ∧ low ≤ r.2
    · rw [if_pos h1]; simp [touches, h1]
    · rw [if_neg h1]
      by_cases h2 : r.1 ≤ high ∧ high ≤ r.2
      · rw [if_pos h2]; simp [touches, h2]
      · rw [if_neg h2]
        by_cases h3 : low ≤ r.1 ∧ r.1 ≤ high
        · rw [if_pos h3]; simp [touches, h3]
        · rw [if_neg h3]
          by_cases h4 : low ≤ r.2 ∧ r.2 ≤ high
          · rw [if_pos h4]; simp [touches, h4]
          · rw [if_neg h4]
            have : touches low high r = false := by
              simp only [touches, Bool.or_eq_false_iff, Bool.and_eq_false_iff, decide_eq_false_iff_not]
              omega
            rw [this, Bool.false_or]

theorem checkIv_holds {cap : Nat} {s : PSet} {ps : List (Int × Int)} (h : Stores cap s ps) (low high : Int) :
    s.checkIv low high = .ok (checkIv ps low high) := by
  have h1 := h.length
  have h2 := h.used
  unfold PSet.checkIv
  rw [checkLoop_eq _ _ (by omega), List.drop_zero]
  congr 1
  show _ = ps.any (touches low high)
  rw [Bool.eq_iff_iff, List.any_eq_true, List.any_eq_true]
  constructor
  · rintro ⟨x, hx, hx'⟩; exact ⟨x, h.perm.mem_iff.1 hx, hx'⟩
  · rintro ⟨x, hx, hx'⟩; exact ⟨x, h.perm.mem_iff.2 hx, hx'⟩

/-- The value of an operation, if it compiles. -/
def SetOut.ofOption {α : Type} : Option α → SetOut α
  | none => .ill
  | some a => .ok a

theorem or_ok (a b : Bool) : SetOut.or (.ok a) (.ok b) = .ok (a || b) := by cases a <;> cases b <;> rfl

theorem checkAll_holds {cap : Nat} {s : PSet} {ps : List (Int × Int)} (h : Stores cap s ps) : ∀ l : List (Int × Int),
    s.checkAll l = .ok (l.any fun r => checkIv ps r.1 r.2)
  | [] => by simp [PSet.checkAll]
  | p :: l => by simp only [PSet.checkAll, checkIv_holds h, checkAll_holds h l, or_ok, List.any_cons]

mutual
theorem checkCC_holds {cap : Nat} {s : PSet} {ps : List (Int × Int)} (h : Stores cap s ps) : ∀ c : CC,
    s.checkCC c = .ofOption (checkCC ps c)
  | .chr c => by simp only [PSet.checkCC, checkIv_holds h, checkCC, SetOut.ofOption]
  | .range a b => by simp only [PSet.checkCC, checkIv_holds h, checkCC, SetOut.ofOption]
  | .enum cs => by
    simp only [PSet.checkCC, checkAll_holds h, checkCC, SetOut.ofOption, List.any_map]; rfl
  | .set l => by simp only [PSet.checkCC, checkCC]; exact checkList_holds h l
  | .negSet l => by
    simp only [PSet.checkCC, checkCC]
    cases hi : negSetIntervals l with
    | none => rfl
    | some ivs => simp only [checkAll_holds h, Option.map_some, SetOut.ofOption]
  | .negate _ => rfl
  | .prop _ => by simp only [PSet.checkCC, checkCC, SetOut.ofOption, h.used_eq]

theorem checkList_holds {cap : Nat} {s : PSet} {ps : List (Int × Int)} (h : Stores cap s ps) : ∀ l : List CC,
    s.checkList l = .ofOption (checkList ps l)
  | [] => rfl
  | c :: l => by
    have h1 := checkCC_holds h c
    have h2 := checkList_holds h l
    simp only [PSet.checkList, checkList, h1, h2]
    cases checkCC ps c <;> cases checkList ps l <;> first | rfl | exact or_ok _ _
end

theorem check_holds {cap : Nat} {s : PSet} {ps : List (Int × Int)} (h : Stores cap s ps) : ∀ l : List FC,
    s.check l = .ofOption (check ps l)
  | [] => rfl
  | c :: l => by
    have h1 : s.checkFC c = .ofOption (checkFC ps c) := by
      cases c with
      | anything => simp only [PSet.checkFC, checkFC, SetOut.ofOption, h.used_eq]
      | cc c => exact checkCC_holds h c
    have h2 := check_holds h l
    simp only [PSet.check, check, h1, h2]
    cases checkFC ps c <;> cases check ps l <;> first | rfl | exact or_ok _ _

theorem collidesArray_eq (rhs lhs : List FC) : collidesArray rhs lhs = .ofOption (collides rhs lhs) := by
  unfold collidesArray collides
  rcases populate_holds rhs (empty_holds (sizeFirst rhs)) (by simp) with ⟨h1, h2⟩ | ⟨ps, s, h1, h2, h3, -⟩
  · rw [h1, h2]; rfl
  · rw [h1, h2]
    simp only [SetOut.andThen]
    exact check_holds h3 lhs

end Ctre
