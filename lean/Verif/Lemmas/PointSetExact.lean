import Verif.Lemmas.PointSet
import Verif.Lemmas.Collides
import Verif.Spec.PointSet

/-
For listed classes the analysis of first characters is exact.
-/
namespace Ctre

/-- The ranges as intervals. -/
def ivs (R : List (Nat × Nat)) : List (Int × Int) := R.map fun r => ((r.1 : Int), (r.2 : Int))

theorem ivs_append (R S : List (Nat × Nat)) : ivs (R ++ S) = ivs R ++ ivs S := by simp [ivs]

/-- Written with the smaller end first, below 31 bits. -/
def SaneR (R : List (Nat × Nat)) : Prop := ∀ r ∈ R, r.1 ≤ r.2 ∧ r.2 < 2147483648

mutual
theorem ranges_sane : ∀ {c : CC} {R : List (Nat × Nat)}, c.sane = true → c.ranges = some R → SaneR R
  | .chr c, R, hs, h => by
    simp only [CC.ranges, Option.some.injEq] at h; subst h
    simp only [CC.sane, decide_eq_true_eq] at hs
    intro r hr; simp only [List.mem_singleton] at hr; subst hr; exact ⟨Nat.le_refl _, hs⟩
  | .range a b, R, hs, h => by
    simp only [CC.ranges, Option.some.injEq] at h; subst h
    simp only [CC.sane, Bool.and_eq_true, decide_eq_true_eq] at hs
    intro r hr; simp only [List.mem_singleton] at hr; subst hr; exact hs
  | .enum cs, R, hs, h => by
    simp only [CC.ranges, Option.some.injEq] at h; subst h
    simp only [CC.sane, List.all_eq_true, decide_eq_true_eq] at hs
    intro r hr; simp only [List.mem_map] at hr
    obtain ⟨c, hc, rfl⟩ := hr
    exact ⟨Nat.le_refl _, hs c hc⟩
  | .set l, R, hs, h => by
    simp only [CC.ranges] at h; simp only [CC.sane] at hs; exact rangesAll_sane hs h
  | .negSet _, R, hs, h => by simp [CC.ranges] at h
  | .negate _, R, hs, h => by simp [CC.ranges] at h
  | .prop _, R, hs, h => by simp [CC.ranges] at h

theorem rangesAll_sane : ∀ {l : List CC} {R : List (Nat × Nat)}, saneCCs l = true → rangesAll l = some R → SaneR R
  | [], R, hs, h => by
    simp only [rangesAll, Option.some.injEq] at h; subst h; intro r hr; simp at hr
  | c :: l, R, hs, h => by
    simp only [saneCCs, Bool.and_eq_true] at hs
    simp only [rangesAll] at h
    split at h
    · rename_i x y h1 h2
      simp only [Option.some.injEq] at h; subst h
      intro r hr
      rcases List.mem_append.1 hr with hr | hr
      · exact ranges_sane hs.1 h1 r hr
      · exact rangesAll_sane hs.2 h2 r hr
    · simp at h
end

variable {U : Uni}

mutual
theorem ranges_match {v : Int} (hv : IsCh v) : ∀ {c : CC} {R : List (Nat × Nat)}, c.sane = true → c.ranges = some R →
    (c.matchChar U false v = true ↔ Cov (ivs R) v)
  | .chr c, R, hs, h => by
    simp only [CC.ranges, Option.some.injEq] at h; subst h
    simp only [CC.sane, decide_eq_true_eq] at hs
    simp only [CC.matchChar, matchCharacter_sens hv hs, Cov, ivs, List.map_cons, List.map_nil, List.mem_singleton,
      exists_eq_left]
    omega
  | .range a b, R, hs, h => by
    simp only [CC.ranges, Option.some.injEq] at h; subst h
    simp only [CC.sane, Bool.and_eq_true, decide_eq_true_eq] at hs
    simp only [CC.matchChar, Cov, ivs, List.map_cons, List.map_nil, List.mem_singleton, exists_eq_left]
    exact ⟨fun h => matchRange_sens hv hs.1 hs.2 h, fun h => matchRange_sens' hv h.1 h.2⟩
  | .enum cs, R, hs, h => by
    simp only [CC.ranges, Option.some.injEq] at h; subst h
    simp only [CC.sane, List.all_eq_true, decide_eq_true_eq] at hs
    simp only [CC.matchChar, List.any_eq_true, Cov, ivs, List.map_map]
    constructor
    · rintro ⟨c, h1, h2⟩
      have := (matchCharacter_sens hv (hs c h1)).1 h2
      exact ⟨((c : Int), (c : Int)), List.mem_map.2 ⟨c, h1, rfl⟩, by simp only; omega, by simp only; omega⟩
    · rintro ⟨r, h1, h2, h3⟩
      obtain ⟨c, h4, rfl⟩ := List.mem_map.1 h1
      simp only [Function.comp] at h2 h3
      exact ⟨c, h4, (matchCharacter_sens hv (hs c h4)).2 (by omega)⟩
  | .set l, R, hs, h => by
    simp only [CC.ranges] at h; simp only [CC.sane] at hs
    simp only [CC.matchChar]; exact rangesAll_match hv hs h
  | .negSet _, R, hs, h => by simp [CC.ranges] at h
  | .negate _, R, hs, h => by simp [CC.ranges] at h
  | .prop _, R, hs, h => by simp [CC.ranges] at h

theorem rangesAll_match {v : Int} (hv : IsCh v) : ∀ {l : List CC} {R : List (Nat × Nat)}, saneCCs l = true →
    rangesAll l = some R → (CC.matchAny U false v l = true ↔ Cov (ivs R) v)
  | [], R, hs, h => by
    simp only [rangesAll, Option.some.injEq] at h; subst h
    simp [CC.matchAny, Cov, ivs]
  | c :: l, R, hs, h => by
    simp only [saneCCs, Bool.and_eq_true] at hs
    simp only [rangesAll] at h
    split at h
    · rename_i x y h1 h2
      simp only [Option.some.injEq] at h; subst h
      simp only [CC.matchAny, Bool.or_eq_true, ranges_match hv hs.1 h1, rangesAll_match hv hs.2 h2, ivs_append]
      constructor
      · rintro (h | h)
        · exact h.left
        · exact h.right
      · rintro ⟨r, hr, h⟩
        rcases List.mem_append.1 hr with hr | hr
        · exact .inl ⟨r, hr, h⟩
        · exact .inr ⟨r, hr, h⟩
    · simp at h
end

/-! ### Complements -/

/-- The walk over the members of a negated class, on ranges. -/
def negRanges : List (Nat × Nat) → Int → List (Int × Int) × Int
  | [], start => ([], start)
  | r :: R, start => ((negRange r.1 r.2 start).1 ++ (negRanges R (negRange r.1 r.2 start).2).1,
      (negRanges R (negRange r.1 r.2 start).2).2)

theorem negRanges_append (S : List (Nat × Nat)) : ∀ (R : List (Nat × Nat)) (start : Int),
    negRanges (R ++ S) start = ((negRanges R start).1 ++ (negRanges S (negRanges R start).2).1,
      (negRanges S (negRanges R start).2).2)
  | [], start => by simp [negRanges]
  | r :: R, start => by simp [negRanges, negRanges_append S R]

theorem negEnum_ranges : ∀ (cs : List Nat) (start : Int), negEnum cs start = negRanges (cs.map fun c => (c, c)) start
  | [], start => rfl
  | c :: cs, start => by simp [negEnum, negRanges, negEnum_ranges cs]

mutual
theorem negHelper_ranges : ∀ {c : CC} {R : List (Nat × Nat)} (start : Int), c.ranges = some R →
    negHelper c start = some (negRanges R start)
  | .chr c, R, start, h => by
    simp only [CC.ranges, Option.some.injEq] at h; subst h
    simp [negHelper, negRanges]
  | .range a b, R, start, h => by
    simp only [CC.ranges, Option.some.injEq] at h; subst h
    simp [negHelper, negRanges]
  | .enum cs, R, start, h => by
    simp only [CC.ranges, Option.some.injEq] at h; subst h
    simp only [negHelper, negEnum_ranges]
  | .set l, R, start, h => by
    simp only [CC.ranges] at h; simp only [negHelper]; exact negList_ranges start h
  | .negSet _, R, start, h => by simp [CC.ranges] at h
  | .negate _, R, start, h => by simp [CC.ranges] at h
  | .prop _, R, start, h => by simp [CC.ranges] at h

theorem negList_ranges : ∀ {l : List CC} {R : List (Nat × Nat)} (start : Int), rangesAll l = some R →
    negList l start = some (negRanges R start)
  | [], R, start, h => by
    simp only [rangesAll, Option.some.injEq] at h; subst h; rfl
  | c :: l, R, start, h => by
    simp only [rangesAll] at h
    split at h
    · rename_i x y h1 h2
      simp only [Option.some.injEq] at h; subst h
      simp only [negList, negHelper_ranges start h1, negList_ranges _ h2, negRanges_append]
    · simp at h
end

theorem succConst_eq {b : Nat} (hb : b < 2147483648) : succConst b = (b : Int) + 1 := by
  unfold succConst
  split
  · rfl
  · have : (b + 1) % 4294967296 = b + 1 := Nat.mod_eq_of_lt (by omega)
    rw [this]; simp

/-- An interval with ends that are constants of the pattern or the limits of the type. -/
def Iv (r : Int × Int) : Prop :=
  r.1 ≤ r.2 ∧ (r.1 = i64min ∨ (0 ≤ r.1 ∧ r.1 ≤ 2147483648)) ∧ (r.2 = i64max ∨ (-1 ≤ r.2 ∧ r.2 < 2147483648))

theorem negRanges_spec : ∀ {R : List (Nat × Nat)} {start : Int}, SaneR R → (R.Pairwise fun a b => a.2 < b.1) →
    (∀ r ∈ R, start ≤ (r.1 : Int)) → (start = i64min ∨ (0 ≤ start ∧ start ≤ 2147483648)) →
    (∀ r ∈ (negRanges R start).1, Iv r) ∧
    ((negRanges R start).2 = i64min ∨ (0 ≤ (negRanges R start).2 ∧ (negRanges R start).2 ≤ 2147483648)) ∧
    (∀ v, Cov (negRanges R start).1 v → start ≤ v ∧ ¬ Cov (ivs R) v) ∧
    ∀ v, (negRanges R start).2 ≤ v → start ≤ v ∧ ¬ Cov (ivs R) v
  | [], start, _, _, _, hb => by
    refine ⟨by simp [negRanges], hb, by simp [negRanges, Cov], ?_⟩
    intro v hv
    exact ⟨hv, by simp [ivs, Cov]⟩
  | r :: R, start, hs, hp, ha, hb => by
    obtain ⟨h1, h2⟩ := hs r (by simp)
    have h3 := ha r (by simp)
    have hp' := List.pairwise_cons.1 hp
    have e : (negRange r.1 r.2 start).2 = (r.2 : Int) + 1 := by simp only [negRange, succConst_eq h2]
    have ih := negRanges_spec (R := R) (start := (r.2 : Int) + 1) (fun x hx => hs x (by simp [hx])) hp'.2
      (fun x hx => by have := hp'.1 x hx; omega) (by omega)
    obtain ⟨i1, i2, i3, i4⟩ := ih
    simp only [negRanges, e]
    have later : ∀ v : Int, (r.2 : Int) + 1 ≤ v → ¬ Cov (ivs R) v → ¬ Cov (ivs (r :: R)) v := by
      rintro v hv hn ⟨x, hx, hx'⟩
      simp only [ivs, List.map_cons] at hx
      rcases List.mem_cons.1 hx with rfl | hx
      · simp only at hx'; omega
      · exact hn ⟨x, hx, hx'⟩
    have before : ∀ v : Int, v < (r.1 : Int) → ¬ Cov (ivs (r :: R)) v := by
      rintro v hv ⟨x, hx, hx'⟩
      obtain ⟨y, hy, rfl⟩ := List.mem_map.1 hx
      rcases List.mem_cons.1 hy with rfl | hy
      · simp only at hx'; omega
      · have := hp'.1 y hy
        simp only at hx'; omega
    refine ⟨?_, i2, ?_, ?_⟩
    · intro x hx
      rcases List.mem_append.1 hx with hx | hx
      · simp only [negRange] at hx
        split at hx
        · simp only [List.mem_singleton] at hx; subst hx
          exact ⟨by simp only; omega, hb, .inr ⟨by simp only; omega, by simp only; omega⟩⟩
        · simp at hx
      · exact i1 x hx
    · rintro v ⟨x, hx, hx'⟩
      rcases List.mem_append.1 hx with hx | hx
      · simp only [negRange] at hx
        split at hx
        · simp only [List.mem_singleton] at hx; subst hx
          simp only at hx'
          exact ⟨hx'.1, before v (by omega)⟩
        · simp at hx
      · have := i3 v ⟨x, hx, hx'⟩
        exact ⟨by omega, later v this.1 this.2⟩
    · intro v hv
      have := i4 v hv
      exact ⟨by omega, later v this.1 this.2⟩

theorem negSet_exact {l : List CC} {R : List (Nat × Nat)} (hs : saneCCs l = true) (hR : rangesAll l = some R)
    (hp : R.Pairwise fun a b => a.2 < b.1) : ∃ I, negSetIntervals l = some I ∧ (∀ r ∈ I, Iv r) ∧
      ∀ v, IsCh v → Cov I v → (CC.negSet l).matchChar U false v = true := by
  have hsr := rangesAll_sane hs hR
  obtain ⟨i1, i2, i3, i4⟩ := negRanges_spec (start := i64min) hsr hp (fun r _ => by simp only [i64min]; omega) (.inl rfl)
  have hlt : (negRanges R i64min).2 < i64max := by
    simp only [i64max]
    rcases i2 with h | h
    · rw [h]; simp only [i64min]; omega
    · omega
  refine ⟨(negRanges R i64min).1 ++ [((negRanges R i64min).2, i64max)], ?_, ?_, ?_⟩
  · simp only [negSetIntervals, negList_ranges _ hR, hlt, ↓reduceIte]
  · intro r hr
    rcases List.mem_append.1 hr with hr | hr
    · exact i1 r hr
    · simp only [List.mem_singleton] at hr; subst hr
      exact ⟨Int.le_of_lt hlt, i2, .inl rfl⟩
  · rintro v hv ⟨r, hr, hr'⟩
    have hn : ¬ Cov (ivs R) v := by
      rcases List.mem_append.1 hr with hr | hr
      · exact (i3 v ⟨r, hr, hr'⟩).2
      · simp only [List.mem_singleton] at hr; subst hr
        exact (i4 v hr'.1).2
    simp only [CC.matchChar, Bool.not_eq_true']
    cases hm : CC.matchAny U false v l with
    | false => rfl
    | true => exact (hn ((rangesAll_match hv hs hR).1 hm)).elim

theorem ivs_iv {R : List (Nat × Nat)} (h : SaneR R) : ∀ r ∈ ivs R, Iv r := by
  intro r hr
  obtain ⟨x, hx, rfl⟩ := List.mem_map.1 hr
  have := h x hx
  exact ⟨by simp only; omega, .inr ⟨by simp only; omega, by simp only; omega⟩, .inr ⟨by simp only; omega, by simp only; omega⟩⟩

/-! ### Filling and looking up -/

mutual
theorem populateCC_ranges : ∀ {c : CC} {R : List (Nat × Nat)} (ps : List (Int × Int)), c.ranges = some R →
    populateCC ps c = some (ps ++ ivs R)
  | .chr c, R, ps, h => by simp only [CC.ranges, Option.some.injEq] at h; subst h; rfl
  | .range a b, R, ps, h => by simp only [CC.ranges, Option.some.injEq] at h; subst h; rfl
  | .enum cs, R, ps, h => by
    simp only [CC.ranges, Option.some.injEq] at h; subst h
    simp only [populateCC, ivs, List.map_map]; rfl
  | .set l, R, ps, h => by
    simp only [CC.ranges] at h; simp only [populateCC]; exact populateList_ranges ps h
  | .negSet _, R, ps, h => by simp [CC.ranges] at h
  | .negate _, R, ps, h => by simp [CC.ranges] at h
  | .prop _, R, ps, h => by simp [CC.ranges] at h

theorem populateList_ranges : ∀ {l : List CC} {R : List (Nat × Nat)} (ps : List (Int × Int)), rangesAll l = some R →
    populateList ps l = some (ps ++ ivs R)
  | [], R, ps, h => by simp only [rangesAll, Option.some.injEq] at h; subst h; simp [populateList, ivs]
  | c :: l, R, ps, h => by
    simp only [rangesAll] at h
    split at h
    · rename_i x y h1 h2
      simp only [Option.some.injEq] at h; subst h
      simp only [populateList, populateCC_ranges ps h1, populateList_ranges _ h2, ivs_append, List.append_assoc]
    · simp at h
end

mutual
theorem checkCC_ranges {ps : List (Int × Int)} : ∀ {c : CC} {R : List (Nat × Nat)}, c.ranges = some R →
    checkCC ps c = some ((ivs R).any fun r => checkIv ps r.1 r.2)
  | .chr c, R, h => by
    simp only [CC.ranges, Option.some.injEq] at h; subst h; simp [checkCC, ivs]
  | .range a b, R, h => by
    simp only [CC.ranges, Option.some.injEq] at h; subst h; simp [checkCC, ivs]
  | .enum cs, R, h => by
    simp only [CC.ranges, Option.some.injEq] at h; subst h
    simp only [checkCC, ivs, List.map_map, List.any_map]; rfl
  | .set l, R, h => by
    simp only [CC.ranges] at h; simp only [checkCC]; exact checkList_ranges h
  | .negSet _, R, h => by simp [CC.ranges] at h
  | .negate _, R, h => by simp [CC.ranges] at h
  | .prop _, R, h => by simp [CC.ranges] at h

theorem checkList_ranges {ps : List (Int × Int)} : ∀ {l : List CC} {R : List (Nat × Nat)}, rangesAll l = some R →
    checkList ps l = some ((ivs R).any fun r => checkIv ps r.1 r.2)
  | [], R, h => by simp only [rangesAll, Option.some.injEq] at h; subst h; simp [checkList, ivs]
  | c :: l, R, h => by
    simp only [rangesAll] at h
    split at h
    · rename_i x y h1 h2
      simp only [Option.some.injEq] at h; subst h
      simp only [checkList, checkCC_ranges h1, checkList_ranges h2, ivs_append, List.any_append]
    · simp at h
end

/-- What one entry contributes. -/
theorem listed_entry {x : FC} (hs : x.sane = true) (hl : Listed x) : ∃ I, (∀ r ∈ I, Iv r) ∧
    (∀ ps, populateFC ps x = some (ps ++ I)) ∧ (∀ ps, checkFC ps x = some (I.any fun r => checkIv ps r.1 r.2)) ∧
    ∀ v, IsCh v → Cov I v → x.Has U v := by
  have plain : ∀ c R, x = .cc c → c.ranges = some R → ∃ I, (∀ r ∈ I, Iv r) ∧
      (∀ ps, populateFC ps x = some (ps ++ I)) ∧ (∀ ps, checkFC ps x = some (I.any fun r => checkIv ps r.1 r.2)) ∧
      ∀ v, IsCh v → Cov I v → x.Has U v := by
    rintro c R rfl hR
    refine ⟨ivs R, ivs_iv (ranges_sane hs hR), fun ps => populateCC_ranges ps hR, fun ps => checkCC_ranges hR, ?_⟩
    intro v hv hc
    exact (ranges_match hv hs hR).2 hc
  match x, hl with
  | .anything, hl => exact hl.elim
  | .cc (.negSet l), hl =>
    obtain ⟨R, hR, hp⟩ := hl
    obtain ⟨I, h1, h2, h3⟩ := negSet_exact (U := U) (l := l) hs hR hp
    refine ⟨I, h2, ?_, ?_, h3⟩
    · intro ps; simp only [populateFC, populateCC, h1, Option.map_some]
    · intro ps; simp only [checkFC, checkCC, h1, Option.map_some]
  | .cc (.chr c), hl => obtain ⟨R, hR⟩ := hl; exact plain _ R rfl hR
  | .cc (.range a b), hl => obtain ⟨R, hR⟩ := hl; exact plain _ R rfl hR
  | .cc (.enum cs), hl => obtain ⟨R, hR⟩ := hl; exact plain _ R rfl hR
  | .cc (.set l), hl => obtain ⟨R, hR⟩ := hl; exact plain _ R rfl hR
  | .cc (.negate l), hl => obtain ⟨R, hR⟩ := hl; exact plain _ R rfl hR
  | .cc (.prop p), hl => obtain ⟨R, hR⟩ := hl; exact plain _ R rfl hR

theorem populate_listed : ∀ {l : List FC} (ps : List (Int × Int)), (∀ x ∈ l, x.sane = true) → (∀ x ∈ l, Listed x) →
    ∃ I, (∀ r ∈ I, Iv r) ∧ populate ps l = some (ps ++ I) ∧ ∀ v, IsCh v → Cov I v → Has U v l
  | [], ps, _, _ => ⟨[], by simp, by simp [populate], by simp [Cov]⟩
  | x :: l, ps, hs, hl => by
    obtain ⟨I, h1, h2, -, h4⟩ := listed_entry (U := U) (hs x (by simp)) (hl x (by simp))
    obtain ⟨J, k1, k2, k3⟩ := populate_listed (l := l) (ps ++ I) (fun y hy => hs y (by simp [hy])) (fun y hy => hl y (by simp [hy]))
    refine ⟨I ++ J, ?_, ?_, ?_⟩
    · intro r hr
      rcases List.mem_append.1 hr with hr | hr
      · exact h1 r hr
      · exact k1 r hr
    · simp only [populate, h2, k2, List.append_assoc]
    · rintro v hv ⟨r, hr, hr'⟩
      rcases List.mem_append.1 hr with hr | hr
      · exact ⟨x, by simp, h4 v hv ⟨r, hr, hr'⟩⟩
      · obtain ⟨y, hy, hy'⟩ := k3 v hv ⟨r, hr, hr'⟩
        exact ⟨y, by simp [hy], hy'⟩

theorem check_listed {ps : List (Int × Int)} : ∀ {l : List FC}, (∀ x ∈ l, x.sane = true) → (∀ x ∈ l, Listed x) →
    ∃ I, (∀ r ∈ I, Iv r) ∧ check ps l = some (I.any fun r => checkIv ps r.1 r.2) ∧ ∀ v, IsCh v → Cov I v → Has U v l
  | [], _, _ => ⟨[], by simp, by simp [check], by simp [Cov]⟩
  | x :: l, hs, hl => by
    obtain ⟨I, h1, -, h3, h4⟩ := listed_entry (U := U) (hs x (by simp)) (hl x (by simp))
    obtain ⟨J, k1, k2, k3⟩ := check_listed (ps := ps) (l := l) (fun y hy => hs y (by simp [hy])) (fun y hy => hl y (by simp [hy]))
    refine ⟨I ++ J, ?_, ?_, ?_⟩
    · intro r hr
      rcases List.mem_append.1 hr with hr | hr
      · exact h1 r hr
      · exact k1 r hr
    · simp only [check, h3, k2, List.any_append]
    · rintro v hv ⟨r, hr, hr'⟩
      rcases List.mem_append.1 hr with hr | hr
      · exact ⟨x, by simp, h4 v hv ⟨r, hr, hr'⟩⟩
      · obtain ⟨y, hy, hy'⟩ := k3 v hv ⟨r, hr, hr'⟩
        exact ⟨y, by simp [hy], hy'⟩

theorem common_char {r s : Int × Int} (hr : Iv r) (hs : Iv s)
    (h : touches s.1 s.2 r = true) : ∃ v : Int, IsCh v ∧ (r.1 ≤ v ∧ v ≤ r.2) ∧ s.1 ≤ v ∧ v ≤ s.2 := by
  obtain ⟨r1, r2, r3⟩ := hr
  obtain ⟨s1, s2, s3⟩ := hs
  simp only [touches, Bool.or_eq_true, Bool.and_eq_true, decide_eq_true_eq] at h
  simp only [i64min, i64max] at *
  by_cases h1 : r.1 = -9223372036854775808 ∧ s.1 = -9223372036854775808
  · exact ⟨-1, ⟨by show (-2147483648 : Int) ≤ -1; omega, by show (-1 : Int) < 4294967296; omega⟩, ⟨by omega, by omega⟩, by omega, by omega⟩
  · by_cases h2 : r.1 ≤ s.1
    · exact ⟨s.1, ⟨by show (_ : Int) ≤ _; omega, by show (_ : Int) < _; omega⟩, ⟨by omega, by omega⟩, by omega, by omega⟩
    · exact ⟨r.1, ⟨by show (_ : Int) ≤ _; omega, by show (_ : Int) < _; omega⟩, ⟨by omega, by omega⟩, by omega, by omega⟩

theorem collides_listed {a b : List FC} (ha : ∀ x ∈ a, x.sane = true) (hb : ∀ x ∈ b, x.sane = true)
    (la : ∀ x ∈ a, Listed x) (lb : ∀ x ∈ b, Listed x) :
    ∃ x, collides a b = some x ∧ (x = true ↔ ∃ v, IsCh v ∧ Has U v a ∧ Has U v b) := by
  obtain ⟨I, h1, h2, h3⟩ := populate_listed (U := U) [] ha la
  obtain ⟨J, k1, k2, k3⟩ := check_listed (U := U) (ps := I) hb lb
  simp only [List.nil_append] at h2
  have e : collides a b = some (J.any fun r => checkIv I r.1 r.2) := by simp only [collides, h2, k2]
  refine ⟨_, e, ?_, ?_⟩
  · intro h
    rw [List.any_eq_true] at h
    obtain ⟨s, hs, h⟩ := h
    have h' : I.any (touches s.1 s.2) = true := h
    rw [List.any_eq_true] at h'
    obtain ⟨r, hr, hx⟩ := h'
    obtain ⟨v, hv, x1, x2⟩ := common_char (h1 r hr) (k1 s hs) hx
    exact ⟨v, hv, h3 v hv ⟨r, hr, x1⟩, k3 v hv ⟨s, hs, x2⟩⟩
  · rintro ⟨v, hv, x1, x2⟩
    cases hx : (J.any fun r => checkIv I r.1 r.2) with
    | true => rfl
    | false =>
      rw [hx] at e
      exact (collides_disjoint hv ha hb e x1 x2).elim

end Ctre
