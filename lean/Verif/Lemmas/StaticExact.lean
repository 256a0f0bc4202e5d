import Verif.Lemmas.Static

/-
Exactly which patterns compile.
-/
namespace Ctre

/-! ### The analysis of first characters -/

mutual
theorem firstRe_isSome : ∀ (r : Re) {k : List FC → Option (List FC)} {T : Bool}, (∀ l, (k l).isSome = T) → ∀ l,
    (firstRe k l r).isSome = r.seen T
  | .str [], k, T, hk, l => by simpa only [firstRe, Re.seen] using hk l
  | .sel m, k, T, hk, l => by simpa only [firstRe, Re.seen] using firstSel_isSome m hk l
  | .seq m, k, T, hk, l => by simpa only [firstRe, Re.seen] using firstSeq_isSome m hk l
  | .rep kd a b m, k, T, hk, l => by
    have h0 := firstSeq_isSome m hk l
    simp only [firstRe, Re.seen]
    by_cases ha : a = 0
    · simp only [ha, if_true]
      by_cases hb : b = 1 ∧ kd ≠ .poss
      · rw [if_pos hb]
        cases h1 : firstSeq k l m with
        | none =>
          rw [h1] at h0
          simp only [Option.isSome_none] at h0 ⊢
          simp [← h0]
        | some l' =>
          rw [h1] at h0
          simp only [Option.isSome_some] at h0
          simp only [hk l', ← h0]
          simp
      · rw [if_neg hb]
        have h2 := hk l
        cases h1 : k l with
        | none => rw [h1] at h2; simp only [Option.isSome_none] at h2; simp [← h2]
        | some l' => rw [h1] at h2; simp only [Option.isSome_some] at h2; simp [firstSeq_isSome m hk l', ← h2]
    · simp [ha, h0]
  | .cap _ _ m, k, T, hk, l => by simpa only [firstRe, Re.seen] using firstSeq_isSome m hk l
  | .atomic m, k, T, hk, l => by simpa only [firstRe, Re.seen] using firstSeq_isSome m hk l
  | .empty, k, T, hk, l | .boundary _, k, T, hk, l | .sBegin, k, T, hk, l | .lBegin, k, T, hk, l => by
    simpa only [firstRe, Re.seen] using hk l
  | .cc _, k, T, hk, l | .any, k, T, hk, l | .str (_ :: _), k, T, hk, l | .bref _, k, T, hk, l | .brefName _, k, T, hk, l
  | .ahead _ _, k, T, hk, l | .behind _ _, k, T, hk, l | .notBoundary _, k, T, hk, l | .sEnd, k, T, hk, l
  | .sEndLine, k, T, hk, l | .lEnd, k, T, hk, l | .mode _, k, T, hk, l | .reject _, k, T, hk, l => by
    simp [firstRe, Re.seen]

theorem firstSeq_isSome : ∀ (m : List Re) {k : List FC → Option (List FC)} {T : Bool}, (∀ l, (k l).isSome = T) → ∀ l,
    (firstSeq k l m).isSome = seenSeq T m
  | [], k, T, hk, l => by simpa only [firstSeq, seenSeq] using hk l
  | r :: m, k, T, hk, l => by
    simpa only [firstSeq, seenSeq] using firstRe_isSome r (firstSeq_isSome m hk) l

theorem firstSel_isSome : ∀ (m : List Re) {k : List FC → Option (List FC)} {T : Bool}, (∀ l, (k l).isSome = T) → ∀ l,
    (firstSel k l m).isSome = seenEach T m
  | [], k, T, hk, l => by simp [firstSel, seenEach]
  | r :: m, k, T, hk, l => by
    have h1 := firstRe_isSome r hk l
    simp only [firstSel, seenEach]
    cases h2 : firstRe k l r with
    | none => rw [h2] at h1; simp only [Option.isSome_none] at h1; simp [← h1]
    | some l' => rw [h2] at h1; simp only [Option.isSome_some] at h1; simp [← h1, firstSel_isSome m hk l']
end

/-- `Re.seen` for a stack. -/
def seenSt : Stack → Bool
  | .startMark :: _ | .endBehind :: _ => false
  | .numMark _ :: t => seenSt t
  | .re r :: t => r.seen (seenSt t)
  | _ => true

theorem first_isSome : ∀ (t : Stack) (l : List FC), (first t l).isSome = seenSt t
  | [], l | .accept :: _, l | .endMark :: _, l | .endCycle :: _, l | .endAhead :: _, l | .startMark :: _, l
  | .endBehind :: _, l => by simp [first, seenSt]
  | .numMark _ :: t, l => by simpa only [first, seenSt] using first_isSome t l
  | .re r :: t, l => by simpa only [first, seenSt] using firstRe_isSome r (first_isSome t) l

theorem seenSt_items : ∀ (m : List Re) (t : Stack), seenSt (items m t) = seenSeq (seenSt t) m
  | [], t => rfl
  | r :: m, t => by
    have := seenSt_items m t
    simp only [items, List.map_cons, List.cons_append, seenSt, seenSeq] at *
    rw [this]

/-- Whatever the result of the analysis is, it has no class that cannot be handled. -/
def GFits (k : List FC → Option (List FC)) : Prop := ∀ l, Fits l → ∀ x, k l = some x → Fits x

mutual
theorem firstRe_plain : ∀ (r : Re) {k : List FC → Option (List FC)}, r.flatClasses = true → GFits k → GFits (fun l => firstRe k l r)
  | .cc c, k, h, hk, l, hl, x, hx => by
    simp only [firstRe, Option.some.injEq] at hx; subst hx; exact firstCC_fits hl h
  | .str [], k, h, hk, l, hl, x, hx => by simp only [firstRe] at hx; exact hk l hl x hx
  | .str (c :: cs), k, h, hk, l, hl, x, hx => by
    simp only [firstRe, Option.some.injEq] at hx; subst hx; exact fits_append hl (fits_one rfl)
  | .sel m, k, h, hk, l, hl, x, hx => by
    simp only [firstRe] at hx; simp only [Re.flatClasses] at h; exact firstSel_plain m h hk l hl x hx
  | .seq m, k, h, hk, l, hl, x, hx => by
    simp only [firstRe] at hx; simp only [Re.flatClasses] at h; exact firstSeq_plain m h hk l hl x hx
  | .cap _ _ m, k, h, hk, l, hl, x, hx => by
    simp only [firstRe] at hx; simp only [Re.flatClasses] at h; exact firstSeq_plain m h hk l hl x hx
  | .atomic m, k, h, hk, l, hl, x, hx => by
    simp only [firstRe] at hx; simp only [Re.flatClasses] at h; exact firstSeq_plain m h hk l hl x hx
  | .rep kd a b m, k, h, hk, l, hl, x, hx => by
    simp only [Re.flatClasses] at h
    simp only [firstRe] at hx
    split at hx
    · split at hx
      · split at hx
        · rename_i l' h1
          exact hk l' (firstSeq_plain m h hk l hl l' h1) x hx
        · simp at hx
      · split at hx
        · rename_i l' h1
          exact firstSeq_plain m h hk l' (hk l hl l' h1) x hx
        · simp at hx
    · exact firstSeq_plain m h hk l hl x hx
  | .empty, k, h, hk, l, hl, x, hx | .boundary _, k, h, hk, l, hl, x, hx | .sBegin, k, h, hk, l, hl, x, hx
  | .lBegin, k, h, hk, l, hl, x, hx => by simp only [firstRe] at hx; exact hk l hl x hx
  | .any, k, h, hk, l, hl, x, hx | .bref _, k, h, hk, l, hl, x, hx | .brefName _, k, h, hk, l, hl, x, hx
  | .ahead _ _, k, h, hk, l, hl, x, hx | .behind _ _, k, h, hk, l, hl, x, hx => by
    simp only [firstRe, Option.some.injEq] at hx; subst hx; exact fits_anything
  | .sEnd, k, h, hk, l, hl, x, hx | .sEndLine, k, h, hk, l, hl, x, hx | .lEnd, k, h, hk, l, hl, x, hx => by
    simp only [firstRe, Option.some.injEq] at hx; subst hx; exact hl
  | .notBoundary _, k, h, hk, l, hl, x, hx | .mode _, k, h, hk, l, hl, x, hx | .reject _, k, h, hk, l, hl, x, hx => by
    simp [firstRe] at hx

theorem firstSeq_plain : ∀ (m : List Re) {k : List FC → Option (List FC)}, flatClassesAll m = true → GFits k →
    GFits (fun l => firstSeq k l m)
  | [], k, h, hk, l, hl, x, hx => by simp only [firstSeq] at hx; exact hk l hl x hx
  | r :: m, k, h, hk, l, hl, x, hx => by
    simp only [flatClassesAll, Bool.and_eq_true] at h
    simp only [firstSeq] at hx
    exact firstRe_plain r h.1 (firstSeq_plain m h.2 hk) l hl x hx

theorem firstSel_plain : ∀ (m : List Re) {k : List FC → Option (List FC)}, flatClassesAll m = true → GFits k →
    GFits (fun l => firstSel k l m)
  | [], k, h, hk, l, hl, x, hx => by simp only [firstSel, Option.some.injEq] at hx; subst hx; exact hl
  | r :: m, k, h, hk, l, hl, x, hx => by
    simp only [flatClassesAll, Bool.and_eq_true] at h
    simp only [firstSel] at hx
    split at hx
    · rename_i l' h1
      exact firstSel_plain m h.2 hk l' (firstRe_plain r h.1 hk l hl l' h1) x hx
    · simp at hx
end

/-- `Re.flatClasses` for a stack. -/
def flatSt : Stack → Bool
  | [] => true
  | .re r :: t => r.flatClasses && flatSt t
  | _ :: t => flatSt t

theorem first_plain : ∀ (t : Stack), flatSt t = true → GFits (first t)
  | [], _, l, hl, x, hx | .accept :: _, _, l, hl, x, hx | .endMark :: _, _, l, hl, x, hx | .endCycle :: _, _, l, hl, x, hx
  | .endAhead :: _, _, l, hl, x, hx => by simp only [first, Option.some.injEq] at hx; subst hx; exact hl
  | .startMark :: _, _, l, hl, x, hx | .endBehind :: _, _, l, hl, x, hx => by simp [first] at hx
  | .numMark _ :: t, h, l, hl, x, hx => by
    simp only [first] at hx; simp only [flatSt] at h; exact first_plain t h l hl x hx
  | .re r :: t, h, l, hl, x, hx => by
    simp only [flatSt, Bool.and_eq_true] at h
    simp only [first] at hx
    exact firstRe_plain r h.1 (first_plain t h.2) l hl x hx

theorem flatSt_items : ∀ (m : List Re) (t : Stack), flatSt (items m t) = (flatClassesAll m && flatSt t)
  | [], t => by simp [items, flatClassesAll]
  | r :: m, t => by
    have := flatSt_items m t
    simp only [items, List.map_cons, List.cons_append, flatSt, flatClassesAll] at *
    rw [this, Bool.and_assoc]

theorem loopCollides_seen {m : List Re} {t : Stack} (h : loopCollides m t ≠ none) : seenSeq true m = true ∧ seenSt t = true := by
  have h1 := first_isSome (items m []) []
  have h2 := first_isSome t []
  rw [seenSt_items] at h1
  unfold loopCollides at h
  split at h
  · rename_i h3 h4
    rw [h3] at h1
    rw [h4] at h2
    exact ⟨h1.symm, h2.symm⟩
  · exact absurd rfl h

theorem loopCollides_plain {m : List Re} {t : Stack} (hm : flatClassesAll m = true) (ht : flatSt t = true)
    (h1 : seenSeq true m = true) (h2 : seenSt t = true) : loopCollides m t ≠ none := by
  have h3 := first_isSome (items m []) []
  have h4 := first_isSome t []
  rw [seenSt_items] at h3
  have h3 : (first (items m []) []).isSome = true := h3.trans h1
  rw [h2] at h4
  obtain ⟨a, ha⟩ := Option.isSome_iff_exists.1 h3
  obtain ⟨b, hb⟩ := Option.isSome_iff_exists.1 h4
  have fa := first_plain (items m []) (by rw [flatSt_items, hm]; rfl) [] (by intro x hx; simp at hx) a ha
  have fb := first_plain t ht [] (by intro x hx; simp at hx) b hb
  unfold loopCollides
  rw [ha, hb]
  show collides a b ≠ none
  unfold collides
  have h5 := populate_some a [] fa
  cases h6 : populate [] a with
  | none => simp [h6] at h5
  | some ps =>
    have h7 := check_some b ps fb
    intro h8
    simp [h8] at h7

/-! ### What compiles -/

theorem Compiled.none {C : Cfg} {K : Known} {lb : Bool} {st : Stack} (h : Compiled C K (lb, st)) :
    uses C K lb st ≠ Option.none := by
  obtain ⟨l, hl, _⟩ := h.inv
  rw [hl]; simp

theorem Compiled.all {C : Cfg} {K : Known} {lb : Bool} {st : Stack} {l : List (Bool × Stack)} (h : Compiled C K (lb, st))
    (hl : uses C K lb st = some l) : ∀ y ∈ l, Compiled C K y := by
  obtain ⟨l', hl', h⟩ := h.inv
  rw [hl, Option.some.injEq] at hl'
  exact hl' ▸ h

theorem uses_rep {C : Cfg} {K : Known} {lb : Bool} {k : RepKind} {a b : Nat} {m : List Re} {t : Stack} (hi : inverted a b = false) :
    uses C K lb (.re (.rep k a b m) :: t) = if lb then none else
      match k with
      | .greedy =>
        match (if C.greedyOpt then loopCollides m t else some true) with
        | none => none
        | some false => some [(lb, .re (.rep .poss a b m) :: t)]
        | some true => some [(lb, items m [.endCycle]), (lb, t)]
      | _ => some [(lb, items m [.endCycle]), (lb, t)] := by
  have : ¬ (b ≠ 0 ∧ a > b) := by simpa [inverted] using hi
  cases k <;> simp only [uses, if_neg this] <;> rfl

theorem uses_inverted {C : Cfg} {K : Known} {lb : Bool} {k : RepKind} {a b : Nat} {m : List Re} {t : Stack}
    (hi : inverted a b = true) : uses C K lb (.re (.rep k a b m) :: t) = some [] := by
  have : b ≠ 0 ∧ a > b := by simpa [inverted] using hi
  simp only [uses, if_pos this]

/-- What a repetition that compiles needs. -/
theorem Compiled.rep {C : Cfg} {K : Known} {lb : Bool} {k : RepKind} {a b : Nat} {m : List Re} {t : Stack}
    (hi : inverted a b = false) (h : Compiled C K (lb, .re (.rep k a b m) :: t)) :
    lb = false ∧ (k = .greedy → C.greedyOpt = true → loopCollides m t ≠ Option.none) ∧
      Compiled C K (lb, items m [.endCycle]) ∧ Compiled C K (lb, t) := by
  cases lb with
  | true => exact absurd (by rw [uses_rep hi]; rfl) h.none
  | false =>
    have poss : ∀ k, k ≠ .greedy → Compiled C K (false, .re (.rep k a b m) :: t) →
        Compiled C K (false, items m [.endCycle]) ∧ Compiled C K (false, t) := by
      intro k hk h
      have := h.all (l := [(false, items m [.endCycle]), (false, t)]) (by rw [uses_rep hi]; cases k <;> simp at hk ⊢)
      exact ⟨this _ (by simp), this _ (by simp)⟩
    refine ⟨rfl, ?_, ?_⟩
    · rintro rfl hg hn
      exact h.none (by rw [uses_rep hi]; simp [hg, hn])
    · cases k with
      | greedy =>
        have hu := uses_rep (C := C) (K := K) (lb := false) (k := .greedy) (m := m) (t := t) hi
        simp only [Bool.false_eq_true, if_false] at hu
        split at hu
        · exact absurd hu h.none
        · exact poss .poss (by simp) (h.all hu _ (by simp))
        · exact ⟨h.all hu _ (by simp), h.all hu _ (by simp)⟩
      | _ => exact poss _ (by simp) h

theorem Compiled.rep_of {C : Cfg} {K : Known} {k : RepKind} {a b : Nat} {m : List Re} {t : Stack}
    (hi : inverted a b = false) (h1 : k = .greedy → C.greedyOpt = true → loopCollides m t ≠ Option.none)
    (h2 : Compiled C K (false, items m [.endCycle])) (h3 : Compiled C K (false, t)) :
    Compiled C K (false, .re (.rep k a b m) :: t) := by
  have two : ∀ y ∈ [(false, items m [.endCycle]), (false, t)], Compiled C K y := by
    intro y hy
    simp only [List.mem_cons, List.not_mem_nil, or_false] at hy
    rcases hy with rfl | rfl
    · exact h2
    · exact h3
  have poss : ∀ k, k ≠ .greedy → Compiled C K (false, .re (.rep k a b m) :: t) := by
    intro k hk
    exact .of ⟨[(false, items m [.endCycle]), (false, t)], by rw [uses_rep hi]; cases k <;> simp at hk ⊢, two⟩
  cases k with
  | greedy =>
    have hu := uses_rep (C := C) (K := K) (lb := false) (k := .greedy) (m := m) (t := t) hi
    simp only [Bool.false_eq_true, if_false] at hu
    split at hu
    · rename_i hn
      split at hn
      · rename_i hg; exact absurd hn (h1 rfl hg)
      · simp at hn
    · exact .of ⟨_, hu, by intro y hy; simp only [List.mem_singleton] at hy; subst hy; exact poss .poss (by simp)⟩
    · exact .of ⟨_, hu, two⟩
  | _ => exact poss _ (by simp)

theorem compiled_endCycle {C : Cfg} {K : Known} : Compiled C K (false, [.endCycle]) :=
  .of ⟨[], rfl, by simp⟩

theorem compiled_endAhead {C : Cfg} {K : Known} {lb : Bool} : Compiled C K (lb, [.endAhead]) :=
  .of ⟨[], rfl, by simp⟩

theorem compiled_endBehind {C : Cfg} {K : Known} {lb : Bool} : Compiled C K (lb, [.endBehind]) :=
  .of ⟨[], rfl, by simp⟩

mutual
theorem compiled_re {C : Cfg} {K : Known} : ∀ (r : Re) (lb : Bool) (t : Stack), Compiled C K (lb, .re r :: t) →
    r.lawful K.hasId K.hasName lb = true ∧ (C.greedyOpt = true → lb = false → r.analysed (seenSt t) = true) ∧
      (r.opens = true → Compiled C K (lb, t))
  | .sel l, lb, t, h => by simp only [Re.lawful, Re.analysed, Re.opens]; exact compiled_sel l lb t h
  | .seq [], lb, t, h => by simp [Re.lawful, Re.analysed, Re.opens, lawfulSeq, analysedSeq]
  | .seq (r :: l), lb, t, h => by
    have := compiled_seq (r :: l) lb t (by simp) h
    simpa only [Re.lawful, Re.analysed, Re.opens, List.isEmpty_cons, Bool.not_false, Bool.true_and] using this
  | .rep k a b m, lb, t, h => by
    simp only [Re.lawful, Re.analysed, Re.opens]
    cases hi : inverted a b with
    | true => simp
    | false =>
      obtain ⟨rfl, h1, h2, h3⟩ := h.rep hi
      obtain ⟨h4, h5, -⟩ := compiled_items m false [.endCycle] h2
      refine ⟨by simp [h4], fun hg _ => ?_, fun _ => h3⟩
      have h5 : analysedSeq true m = true := h5 hg rfl
      simp only [Bool.false_or, h5, Bool.and_true]
      by_cases hk : k = .greedy
      · obtain ⟨h6, h7⟩ := loopCollides_seen (h1 hk hg)
        simp [h6, h7]
      · simp [hk]
  | .cap id n m, lb, t, h => by
    have h0 := h.none
    cases lb with
    | true => simp [uses] at h0
    | false =>
      cases hid : K.hasId id with
      | false => simp [uses, hid] at h0
      | true =>
        have h1 := h.all (l := [(false, .re (.seq m) :: .numMark id :: t)]) (by simp [uses, hid]) _ (List.mem_singleton.2 rfl)
        have next : Compiled C K (false, .numMark id :: t) → Compiled C K (false, t) := fun h =>
          h.all (l := [(false, t)]) (by simp [uses, hid]) _ (by simp)
        cases m with
        | nil => simp [Re.lawful, Re.analysed, Re.opens, lawfulSeq, analysedSeq, hid]
        | cons r l =>
          obtain ⟨h2, h3, h4⟩ := compiled_seq (r :: l) false (.numMark id :: t) (by simp) h1
          simp only [Re.lawful, Re.analysed, Re.opens, hid, h2, List.isEmpty_cons]
          exact ⟨rfl, fun hg _ => h3 hg rfl, fun ho => next (h4 (by simpa using ho))⟩
  | .ahead p m, lb, t, h => by
    have h1 := h.all (l := [(lb, [.re (.seq m), .endAhead]), (lb, t)]) rfl
    have h2 := h1 _ (by simp : (lb, [.re (.seq m), .endAhead]) ∈ _)
    refine ⟨?_, ?_, fun _ => h1 _ (by simp)⟩
    · cases m with
      | nil => simp [Re.lawful, lawfulSeq]
      | cons r l => exact (compiled_seq (r :: l) lb [.endAhead] (by simp) h2).1
    · intro hg hb
      cases m with
      | nil => simp [Re.analysed, analysedSeq]
      | cons r l => exact (compiled_seq (r :: l) lb [.endAhead] (by simp) h2).2.1 hg hb
  | .behind p m, lb, t, h => by
    have h1 := h.all (l := [(true, [.re (.seq m), .endBehind]), (lb, t)]) rfl
    have h2 := h1 _ (by simp : (true, [.re (.seq m), .endBehind]) ∈ _)
    refine ⟨?_, by simp [Re.analysed], fun _ => h1 _ (by simp)⟩
    cases m with
    | nil => simp [Re.lawful, lawfulSeq]
    | cons r l => exact (compiled_seq (r :: l) true [.endBehind] (by simp) h2).1
  | .atomic m, lb, t, h => by
    have h1 := h.all (l := [(lb, .re (.rep .poss 1 1 m) :: t)]) rfl _ (List.mem_singleton.2 rfl)
    obtain ⟨rfl, -, h2, h3⟩ := h1.rep rfl
    obtain ⟨h4, h5, -⟩ := compiled_items m false [.endCycle] h2
    exact ⟨by simp [Re.lawful, h4], fun hg hb => h5 hg hb, fun _ => h3⟩
  | .bref id, lb, t, h => by
    have h0 := h.none
    cases lb with
    | true => simp [uses] at h0
    | false =>
      cases hid : K.hasId id with
      | false => simp [uses, hid] at h0
      | true =>
        exact ⟨by simp [Re.lawful, hid], by simp [Re.analysed],
          fun _ => h.all (l := [(false, t)]) (by simp [uses, hid]) _ (by simp)⟩
  | .brefName nm, lb, t, h => by
    have h0 := h.none
    cases lb with
    | true => simp [uses] at h0
    | false =>
      cases hid : K.hasName nm with
      | false => simp [uses, hid] at h0
      | true =>
        exact ⟨by simp [Re.lawful, hid], by simp [Re.analysed],
          fun _ => h.all (l := [(false, t)]) (by simp [uses, hid]) _ (by simp)⟩
  | .reject _, lb, t, h => by simp [Re.lawful, Re.analysed, Re.opens]
  | .cc _, lb, t, h | .any, lb, t, h | .str _, lb, t, h | .empty, lb, t, h | .boundary _, lb, t, h | .notBoundary _, lb, t, h
  | .sBegin, lb, t, h | .sEnd, lb, t, h | .sEndLine, lb, t, h | .lBegin, lb, t, h | .lEnd, lb, t, h | .mode _, lb, t, h =>
    ⟨by simp [Re.lawful], by simp [Re.analysed], fun _ => h.all (l := [(lb, t)]) rfl _ (by simp)⟩

theorem compiled_sel {C : Cfg} {K : Known} : ∀ (l : List Re) (lb : Bool) (t : Stack), Compiled C K (lb, .re (.sel l) :: t) →
    lawfulEach K.hasId K.hasName lb l = true ∧ (C.greedyOpt = true → lb = false → analysedEach (seenSt t) l = true) ∧
      (opensAny l = true → Compiled C K (lb, t))
  | [], lb, t, h => by simp [lawfulEach, analysedEach, opensAny]
  | r :: l, lb, t, h => by
    have h1 := h.all (l := [(lb, .re r :: t), (lb, .re (.sel l) :: t)]) rfl
    obtain ⟨a1, a2, a3⟩ := compiled_re r lb t (h1 _ (by simp))
    obtain ⟨b1, b2, b3⟩ := compiled_sel l lb t (h1 _ (by simp))
    simp only [lawfulEach, analysedEach, opensAny, Bool.and_eq_true, Bool.or_eq_true]
    exact ⟨⟨a1, b1⟩, fun hg hb => ⟨a2 hg hb, b2 hg hb⟩, fun ho => ho.elim a3 b3⟩

theorem compiled_seq {C : Cfg} {K : Known} : ∀ (l : List Re) (lb : Bool) (t : Stack), l ≠ [] →
    Compiled C K (lb, .re (.seq l) :: t) →
    lawfulSeq K.hasId K.hasName lb l = true ∧ (C.greedyOpt = true → lb = false → analysedSeq (seenSt t) l = true) ∧
      (opensAll l = true → Compiled C K (lb, t))
  | [], _, _, h0, _ => absurd rfl h0
  | [r], lb, t, _, h => by
    have h1 := h.all (l := [(lb, .re r :: t)]) rfl
    obtain ⟨a1, a2, a3⟩ := compiled_re r lb t (h1 _ (by simp))
    simp only [lawfulSeq, analysedSeq, opensAll, seenSeq, Bool.or_true, Bool.and_true]
    exact ⟨a1, a2, a3⟩
  | r :: r' :: l, lb, t, _, h => by
    have h1 := h.all (l := [(lb, .re r :: .re (.seq (r' :: l)) :: t)]) rfl
    obtain ⟨a1, a2, a3⟩ := compiled_re r lb (.re (.seq (r' :: l)) :: t) (h1 _ (by simp))
    have hb := fun ho => compiled_seq (r' :: l) lb t (by simp) (a3 ho)
    rw [lawfulSeq, analysedSeq, opensAll]
    simp only [Bool.and_eq_true, Bool.or_eq_true, Bool.not_eq_true']
    refine ⟨⟨a1, ?_⟩, fun hg hl => ⟨a2 hg hl, ?_⟩, fun ho => (hb ho.1).2.2 ho.2⟩
    · cases ho : r.opens with
      | false => exact .inl rfl
      | true => exact .inr (hb ho).1
    · cases ho : r.opens with
      | false => exact .inl rfl
      | true => exact .inr ((hb ho).2.1 hg hl)

theorem compiled_items {C : Cfg} {K : Known} : ∀ (l : List Re) (lb : Bool) (t : Stack), Compiled C K (lb, items l t) →
    lawfulSeq K.hasId K.hasName lb l = true ∧ (C.greedyOpt = true → lb = false → analysedSeq (seenSt t) l = true) ∧
      (opensAll l = true → Compiled C K (lb, t))
  | [], _, _, h => ⟨rfl, fun _ _ => rfl, fun _ => h⟩
  | r :: l, lb, t, h => by
    obtain ⟨a1, a2, a3⟩ := compiled_re r lb (items l t) h
    have hb := fun ho => compiled_items l lb t (a3 ho)
    rw [seenSt_items] at a2
    rw [lawfulSeq, analysedSeq, opensAll]
    simp only [Bool.and_eq_true, Bool.or_eq_true, Bool.not_eq_true']
    refine ⟨⟨a1, ?_⟩, fun hg hl => ⟨a2 hg hl, ?_⟩, fun ho => (hb ho.1).2.2 ho.2⟩
    · cases ho : r.opens with
      | false => exact .inl rfl
      | true => exact .inr (hb ho).1
    · cases ho : r.opens with
      | false => exact .inl rfl
      | true => exact .inr ((hb ho).2.1 hg hl)
end

/-! ### What is sufficient -/

/-- The hypothesis on the analysis: it succeeds, and there is no class in the way. -/
abbrev Ready (C : Cfg) (lb : Bool) (plain analysed : Bool) : Prop :=
  C.greedyOpt = true → lb = false → plain = true ∧ analysed = true

mutual
theorem re_compiled {C : Cfg} {K : Known} : ∀ (r : Re) (lb : Bool) (t : Stack), r.lawful K.hasId K.hasName lb = true →
    Ready C lb (r.flatClasses && flatSt t) (r.analysed (seenSt t)) → (r.opens = true → Compiled C K (lb, t)) →
    Compiled C K (lb, .re r :: t)
  | .sel l, lb, t, h, hr, ho => by
    simp only [Ready, Re.lawful, Re.flatClasses, Re.analysed, Re.opens] at h hr ho
    exact sel_compiled l lb t h hr ho
  | .seq [], lb, t, h, hr, ho => .of ⟨[], rfl, by simp⟩
  | .seq (r :: l), lb, t, h, hr, ho => by
    simp only [Ready, Re.lawful, Re.flatClasses, Re.analysed, Re.opens, List.isEmpty_cons, Bool.not_false, Bool.true_and] at h hr ho
    exact seq_compiled (r :: l) lb t (by simp) h hr ho
  | .rep k a b m, lb, t, h, hr, ho => by
    simp only [Ready, Re.lawful, Re.flatClasses, Re.analysed, Re.opens] at h hr ho
    cases hi : inverted a b with
    | true => exact .of ⟨[], uses_inverted hi, by simp⟩
    | false =>
      simp only [Ready, hi, Bool.false_or, Bool.and_eq_true, Bool.not_eq_true', Bool.not_false, Bool.or_eq_true, decide_eq_true_eq] at h hr ho
      obtain ⟨rfl, h⟩ := h
      refine .rep_of hi ?_ (items_compiled m false [.endCycle] h ?_ (fun _ => compiled_endCycle)) (ho (by trivial))
      · intro hk hg
        obtain ⟨⟨h1, h2⟩, h3, h4⟩ := hr hg rfl
        rcases h3 with h3 | h3
        · exact absurd hk h3
        · exact loopCollides_plain h1 h2 h3.1 h3.2
      · intro hg _
        obtain ⟨⟨h1, h2⟩, h3, h4⟩ := hr hg rfl
        exact ⟨by simp [h1, flatSt], h4⟩
  | .cap id n m, lb, t, h, hr, ho => by
    simp only [Ready, Re.lawful, Re.flatClasses, Re.analysed, Re.opens, Bool.and_eq_true, Bool.not_eq_true'] at h hr ho
    obtain ⟨⟨rfl, hid⟩, h⟩ := h
    refine .of ⟨[(false, .re (.seq m) :: .numMark id :: t)], by simp [uses, hid], ?_⟩
    intro y hy
    simp only [List.mem_singleton] at hy
    subst hy
    cases m with
    | nil => exact .of ⟨[], rfl, by simp⟩
    | cons r l =>
      refine seq_compiled (r :: l) false _ (by simp) h ?_ ?_
      · intro hg hb
        obtain ⟨⟨h1, h2⟩, h3⟩ := hr hg hb
        exact ⟨by simp [h1, h2, flatSt], h3⟩
      · intro ho'
        refine .of ⟨[(false, t)], by simp [uses, hid], ?_⟩
        intro y hy
        simp only [List.mem_singleton] at hy
        subst hy
        exact ho ⟨by simp, ho'⟩
  | .ahead p m, lb, t, h, hr, ho => by
    simp only [Ready, Re.lawful, Re.flatClasses, Re.analysed, Re.opens, Bool.and_eq_true] at h hr ho
    refine .of ⟨[(lb, [.re (.seq m), .endAhead]), (lb, t)], rfl, ?_⟩
    intro y hy
    simp only [List.mem_cons, List.not_mem_nil, or_false] at hy
    rcases hy with rfl | rfl
    · cases m with
      | nil => exact .of ⟨[], rfl, by simp⟩
      | cons r l =>
        refine seq_compiled (r :: l) lb _ (by simp) h ?_ (fun _ => compiled_endAhead)
        intro hg hb
        obtain ⟨⟨h1, h2⟩, h3⟩ := hr hg hb
        exact ⟨by simp [h1, flatSt], h3⟩
    · exact ho (by trivial)
  | .behind p m, lb, t, h, hr, ho => by
    simp only [Ready, Re.lawful, Re.opens] at h ho
    refine .of ⟨[(true, [.re (.seq m), .endBehind]), (lb, t)], rfl, ?_⟩
    intro y hy
    simp only [List.mem_cons, List.not_mem_nil, or_false] at hy
    rcases hy with rfl | rfl
    · cases m with
      | nil => exact .of ⟨[], rfl, by simp⟩
      | cons r l => exact seq_compiled (r :: l) true _ (by simp) h (by simp [Ready]) (fun _ => compiled_endBehind)
    · exact ho (by trivial)
  | .atomic m, lb, t, h, hr, ho => by
    simp only [Ready, Re.lawful, Re.flatClasses, Re.analysed, Re.opens, Bool.and_eq_true, Bool.not_eq_true'] at h hr ho
    obtain ⟨rfl, h⟩ := h
    refine .of ⟨[(false, .re (.rep .poss 1 1 m) :: t)], rfl, ?_⟩
    intro y hy
    simp only [List.mem_singleton] at hy
    subst hy
    refine .rep_of rfl (by simp) (items_compiled m false [.endCycle] h ?_ (fun _ => compiled_endCycle)) (ho (by trivial))
    intro hg _
    obtain ⟨⟨h1, h2⟩, h3⟩ := hr hg rfl
    exact ⟨by simp [h1, flatSt], h3⟩
  | .bref id, lb, t, h, hr, ho => by
    simp only [Ready, Re.lawful, Re.opens, Bool.and_eq_true, Bool.not_eq_true'] at h ho
    obtain ⟨rfl, hid⟩ := h
    exact .of ⟨[(false, t)], by simp [uses, hid], by simpa using ho⟩
  | .brefName nm, lb, t, h, hr, ho => by
    simp only [Ready, Re.lawful, Re.opens, Bool.and_eq_true, Bool.not_eq_true'] at h ho
    obtain ⟨rfl, hid⟩ := h
    exact .of ⟨[(false, t)], by simp [uses, hid], by simpa using ho⟩
  | .reject _, lb, t, h, hr, ho => .of ⟨[], rfl, by simp⟩
  | .cc _, lb, t, h, hr, ho | .any, lb, t, h, hr, ho | .str _, lb, t, h, hr, ho | .empty, lb, t, h, hr, ho
  | .boundary _, lb, t, h, hr, ho | .notBoundary _, lb, t, h, hr, ho
  | .sBegin, lb, t, h, hr, ho | .sEnd, lb, t, h, hr, ho | .sEndLine, lb, t, h, hr, ho | .lBegin, lb, t, h, hr, ho
  | .lEnd, lb, t, h, hr, ho | .mode _, lb, t, h, hr, ho =>
    .of ⟨[(lb, t)], rfl, by simpa [Re.opens] using ho⟩

theorem sel_compiled {C : Cfg} {K : Known} : ∀ (l : List Re) (lb : Bool) (t : Stack), lawfulEach K.hasId K.hasName lb l = true →
    Ready C lb (flatClassesAll l && flatSt t) (analysedEach (seenSt t) l) → (opensAny l = true → Compiled C K (lb, t)) →
    Compiled C K (lb, .re (.sel l) :: t)
  | [], lb, t, h, hr, ho => .of ⟨[], rfl, by simp⟩
  | r :: l, lb, t, h, hr, ho => by
    simp only [Ready, lawfulEach, analysedEach, opensAny, flatClassesAll, Bool.and_eq_true, Bool.or_eq_true] at h hr ho
    refine .of ⟨[(lb, .re r :: t), (lb, .re (.sel l) :: t)], rfl, ?_⟩
    intro y hy
    simp only [List.mem_cons, List.not_mem_nil, or_false] at hy
    rcases hy with rfl | rfl
    · refine re_compiled r lb t h.1 ?_ (fun h => ho (.inl h))
      intro hg hb
      obtain ⟨⟨⟨h1, h2⟩, h3⟩, h4, h5⟩ := hr hg hb
      exact ⟨by simp [h1, h3], h4⟩
    · refine sel_compiled l lb t h.2 ?_ (fun h => ho (.inr h))
      intro hg hb
      obtain ⟨⟨⟨h1, h2⟩, h3⟩, h4, h5⟩ := hr hg hb
      exact ⟨by simp [h2, h3], h5⟩

theorem seq_compiled {C : Cfg} {K : Known} : ∀ (l : List Re) (lb : Bool) (t : Stack), l ≠ [] →
    lawfulSeq K.hasId K.hasName lb l = true → Ready C lb (flatClassesAll l && flatSt t) (analysedSeq (seenSt t) l) →
    (opensAll l = true → Compiled C K (lb, t)) → Compiled C K (lb, .re (.seq l) :: t)
  | [], _, _, h0, _, _, _ => absurd rfl h0
  | [r], lb, t, _, h, hr, ho => by
    simp only [Ready, lawfulSeq, analysedSeq, opensAll, flatClassesAll, seenSeq, Bool.or_true, Bool.and_true] at h hr ho
    refine .of ⟨[(lb, .re r :: t)], rfl, ?_⟩
    intro y hy
    simp only [List.mem_singleton] at hy
    subst hy
    exact re_compiled r lb t h hr ho
  | r :: r' :: l, lb, t, _, h, hr, ho => by
    rw [lawfulSeq] at h
    rw [Ready, analysedSeq, flatClassesAll] at hr
    rw [opensAll] at ho
    simp only [Bool.and_eq_true, Bool.or_eq_true, Bool.not_eq_true'] at h hr ho
    refine .of ⟨[(lb, .re r :: .re (.seq (r' :: l)) :: t)], rfl, ?_⟩
    intro y hy
    simp only [List.mem_singleton] at hy
    subst hy
    refine re_compiled r lb _ h.1 ?_ ?_
    · intro hg hb
      obtain ⟨⟨⟨h1, h2⟩, h3⟩, h4, h5⟩ := hr hg hb
      exact ⟨by simp [flatSt, Re.flatClasses, h1, h2, h3], h4⟩
    · intro hop
      refine seq_compiled (r' :: l) lb t (by simp) (h.2.resolve_left (by simp [hop])) ?_ (fun h => ho ⟨hop, h⟩)
      intro hg hb
      obtain ⟨⟨⟨h1, h2⟩, h3⟩, h4, h5⟩ := hr hg hb
      exact ⟨by simp [h2, h3], h5.resolve_left (by simp [hop])⟩

theorem items_compiled {C : Cfg} {K : Known} : ∀ (l : List Re) (lb : Bool) (t : Stack),
    lawfulSeq K.hasId K.hasName lb l = true → Ready C lb (flatClassesAll l && flatSt t) (analysedSeq (seenSt t) l) →
    (opensAll l = true → Compiled C K (lb, t)) → Compiled C K (lb, items l t)
  | [], _, _, _, _, ho => ho (by trivial)
  | r :: l, lb, t, h, hr, ho => by
    rw [lawfulSeq] at h
    rw [Ready, analysedSeq, flatClassesAll] at hr
    rw [opensAll] at ho
    simp only [Bool.and_eq_true, Bool.or_eq_true, Bool.not_eq_true'] at h hr ho
    refine re_compiled r lb (items l t) h.1 ?_ ?_
    · intro hg hb
      obtain ⟨⟨⟨h1, h2⟩, h3⟩, h4, h5⟩ := hr hg hb
      exact ⟨by simp [flatSt_items, h1, h2, h3], by rw [seenSt_items]; exact h4⟩
    · intro hop
      refine items_compiled l lb t (h.2.resolve_left (by simp [hop])) ?_ (fun h => ho ⟨hop, h⟩)
      intro hg hb
      obtain ⟨⟨⟨h1, h2⟩, h3⟩, h4, h5⟩ := hr hg hb
      exact ⟨by simp [h2, h3], h5.resolve_left (by simp [hop])⟩
end

end Ctre
