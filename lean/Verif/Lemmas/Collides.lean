import Verif.Lemmas.Chars
import Verif.Spec.FirstSets

/-
The interval sets of the first-character analysis cover the characters they stand for.
-/
namespace Ctre

/-- A number lies in an interval of the list. -/
def Cov (ps : List (Int × Int)) (v : Int) : Prop := ∃ r ∈ ps, r.1 ≤ v ∧ v ≤ r.2

theorem Cov.left {ps qs : List (Int × Int)} {v : Int} (h : Cov ps v) : Cov (ps ++ qs) v := by
  obtain ⟨r, hr, h⟩ := h
  exact ⟨r, by simp [hr], h⟩

theorem Cov.right {ps qs : List (Int × Int)} {v : Int} (h : Cov qs v) : Cov (ps ++ qs) v := by
  obtain ⟨r, hr, h⟩ := h
  exact ⟨r, by simp [hr], h⟩

theorem Cov.all {v : Int} (hv : IsCh v) : Cov [(i64min, i64max)] v := by
  have h1 : (-2147483648 : Int) ≤ v := hv.1
  have h2 : v < (4294967296 : Int) := hv.2
  refine ⟨_, List.mem_singleton.2 rfl, ?_⟩
  simp only [i64min, i64max]
  omega

theorem matchCharacter_sens {v : Int} {c : Nat} (hv : IsCh v) (hc : c < 2147483648) :
    matchCharacter false v c = true ↔ v = c := by
  simp [matchCharacter, eqConst_iff hv hc]

theorem matchRange_sens {v : Int} {a b : Nat} (hv : IsCh v) (hab : a ≤ b) (hb : b < 2147483648)
    (h : matchRange false v a b = true) : (a : Int) ≤ v ∧ v ≤ b := by
  have h1 : (-2147483648 : Int) ≤ v := hv.1
  have h2 : v < (4294967296 : Int) := hv.2
  simp only [matchRange, Bool.and_false, Bool.false_and, Bool.false_or, Bool.and_eq_true] at h
  obtain ⟨g, l⟩ := h
  by_cases h0 : 0 ≤ v
  · exact ⟨(geConst_nonneg h0 h2).1 g, (leConst_nonneg h0 h2).1 l⟩
  · have hu : toU32 v = (v % 4294967296).toNat := rfl
    exfalso
    by_cases ha : a ≤ 127
    · have := (geConst_small ha).1 g
      omega
    · have hb : ¬ b ≤ 127 := by omega
      simp only [leConst, if_neg hb, decide_eq_true_eq] at l
      omega

theorem matchRange_sens' {v : Int} {a b : Nat} (hv : IsCh v) (hab : (a : Int) ≤ v) (hb : v ≤ b) :
    matchRange false v a b = true := by
  have h1 : (-2147483648 : Int) ≤ v := hv.1
  have h2 : v < (4294967296 : Int) := hv.2
  simp only [matchRange, Bool.and_false, Bool.false_and, Bool.false_or, Bool.and_eq_true]
  simp only [geConst, leConst]
  have hu : toU32 v = (v % 4294967296).toNat := rfl
  constructor <;> split <;> simp only [decide_eq_true_eq] <;> omega

variable {U : Uni}

/-- What `negative_helper` leaves out is matched by the member. -/
def NegOK (v start : Int) (m : Bool) (r : List (Int × Int) × Int) : Prop :=
  start ≤ v → m = false → Cov r.1 v ∨ r.2 ≤ v

theorem negRange_ok {v start : Int} {a b : Nat} {m : Bool} (hb : b < 2147483648)
    (hm : (a : Int) ≤ v → v ≤ b → m = true) : NegOK v start m (negRange a b start) := by
  intro hs hf
  have hn : ¬ ((a : Int) ≤ v ∧ v ≤ b) := by
    rintro ⟨h1, h2⟩
    rw [hm h1 h2] at hf
    simp at hf
  have hsucc : succConst b = (b : Int) + 1 := by
    unfold succConst
    split
    · rfl
    · have : (b + 1) % 4294967296 = b + 1 := Nat.mod_eq_of_lt (by omega)
      rw [this]; simp
  simp only [negRange, hsucc]
  split
  · by_cases h : v < a
    · exact .inl ⟨(start, (a : Int) - 1), by simp, hs, by simp only; omega⟩
    · exact .inr (by omega)
  · exact .inr (by omega)

theorem negEnum_ok {v : Int} (hv : IsCh v) : ∀ (cs : List Nat) (start : Int),
    (cs.all fun c => decide (c < 2147483648)) = true →
    NegOK v start (cs.any (matchCharacter false v)) (negEnum cs start) := by
  intro cs
  induction cs with
  | nil => intro start _ hs _; exact .inr hs
  | cons c cs ih =>
    intro start hc hs hf
    simp only [List.all_cons, Bool.and_eq_true, decide_eq_true_eq] at hc
    simp only [List.any_cons, Bool.or_eq_false_iff] at hf
    simp only [negEnum]
    rcases negRange_ok (v := v) (start := start) (a := c) (b := c) (m := matchCharacter false v c) hc.1
      (fun h1 h2 => (matchCharacter_sens hv hc.1).2 (by omega)) hs hf.1 with h | h
    · exact .inl h.left
    · rcases ih _ hc.2 h hf.2 with h | h
      · exact .inl h.right
      · exact .inr h

mutual
theorem negHelper_ok {v : Int} (hv : IsCh v) : ∀ (c : CC) (start : Int) r, c.sane = true → negHelper c start = some r →
    NegOK v start (c.matchChar U false v) r
  | .chr c, start, r, hc, h => by
    simp only [negHelper, Option.some.injEq] at h; subst h
    simp only [CC.sane, decide_eq_true_eq] at hc
    exact negRange_ok hc (fun h1 h2 => by
      simp only [CC.matchChar]; exact (matchCharacter_sens hv hc).2 (by omega))
  | .range a b, start, r, hc, h => by
    simp only [negHelper, Option.some.injEq] at h; subst h
    simp only [CC.sane, Bool.and_eq_true, decide_eq_true_eq] at hc
    exact negRange_ok hc.2 (fun h1 h2 => by simp only [CC.matchChar]; exact matchRange_sens' hv h1 h2)
  | .enum cs, start, r, hc, h => by
    simp only [negHelper, Option.some.injEq] at h; subst h
    simp only [CC.sane] at hc
    simp only [CC.matchChar]
    exact negEnum_ok hv cs start hc
  | .set l, start, r, hc, h => by
    simp only [negHelper] at h
    simp only [CC.sane] at hc
    simp only [CC.matchChar]
    exact negList_ok hv l start r hc h
  | .prop p, start, r, hc, h => by
    simp only [negHelper, Option.some.injEq] at h; subst h
    exact fun hs _ => .inr hs
  | .negSet _, _, _, _, h => by simp [negHelper] at h
  | .negate _, _, _, _, h => by simp [negHelper] at h

theorem negList_ok {v : Int} (hv : IsCh v) : ∀ (l : List CC) (start : Int) r, saneCCs l = true →
    negList l start = some r → NegOK v start (CC.matchAny U false v l) r
  | [], start, r, _, h => by
    simp only [negList, Option.some.injEq] at h; subst h
    exact fun hs _ => .inr hs
  | c :: l, start, r, hc, h => by
    simp only [saneCCs, Bool.and_eq_true] at hc
    simp only [negList] at h
    cases h1 : negHelper c start with
    | none => simp [h1] at h
    | some x =>
      obtain ⟨ps, st1⟩ := x
      simp only [h1] at h
      cases h2 : negList l st1 with
      | none => simp [h2] at h
      | some y =>
        obtain ⟨ps', st2⟩ := y
        simp only [h2, Option.some.injEq] at h
        subst h
        intro hs hf
        simp only [CC.matchAny, Bool.or_eq_false_iff] at hf
        rcases negHelper_ok hv c start _ hc.1 h1 hs hf.1 with h | h
        · exact .inl h.left
        · rcases negList_ok hv l st1 _ hc.2 h2 h hf.2 with h | h
          · exact .inl h.right
          · exact .inr h
end

theorem negSetIntervals_cov {v : Int} (hv : IsCh v) {l : List CC} {ps : List (Int × Int)} (hl : saneCCs l = true)
    (h : negSetIntervals l = some ps) (hm : CC.matchAny U false v l = false) : Cov ps v := by
  have h1 : (-2147483648 : Int) ≤ v := hv.1
  have h2 : v < (4294967296 : Int) := hv.2
  unfold negSetIntervals at h
  cases h3 : negList l i64min with
  | none => simp [h3] at h
  | some x =>
    obtain ⟨qs, st⟩ := x
    simp only [h3, Option.some.injEq] at h
    subst h
    rcases negList_ok hv l i64min _ hl h3 (by simp only [i64min]; omega) hm with h | h
    · split
      · exact h.left
      · exact h
    · have h4 : st ≤ v := h
      rw [if_pos (by simp only [i64max]; omega)]
      exact Cov.right ⟨_, List.mem_singleton.2 rfl, h4, by simp only [i64max]; omega⟩

mutual
theorem populateCC_cov {v : Int} (hv : IsCh v) : ∀ (c : CC) (ps qs : List (Int × Int)), c.sane = true →
    populateCC ps c = some qs → (Cov ps v ∨ c.matchChar U false v = true) → Cov qs v
  | .chr c, ps, qs, hc, h, hm => by
    simp only [populateCC, Option.some.injEq] at h; subst h
    simp only [CC.sane, decide_eq_true_eq] at hc
    rcases hm with hm | hm
    · exact hm.left
    · simp only [CC.matchChar, matchCharacter_sens hv hc] at hm
      exact Cov.right ⟨_, List.mem_singleton.2 rfl, by simp only; omega, by simp only; omega⟩
  | .range a b, ps, qs, hc, h, hm => by
    simp only [populateCC, Option.some.injEq] at h; subst h
    simp only [CC.sane, Bool.and_eq_true, decide_eq_true_eq] at hc
    rcases hm with hm | hm
    · exact hm.left
    · exact Cov.right ⟨_, List.mem_singleton.2 rfl, matchRange_sens hv hc.1 hc.2 hm⟩
  | .enum cs, ps, qs, hc, h, hm => by
    simp only [populateCC, Option.some.injEq] at h; subst h
    simp only [CC.sane, List.all_eq_true, decide_eq_true_eq] at hc
    rcases hm with hm | hm
    · exact hm.left
    · simp only [CC.matchChar, List.any_eq_true] at hm
      obtain ⟨c, h1, h2⟩ := hm
      have h3 := (matchCharacter_sens hv (hc c h1)).1 h2
      exact Cov.right ⟨((c : Int), (c : Int)), List.mem_map.2 ⟨c, h1, rfl⟩, by simp only; omega, by simp only; omega⟩
  | .set l, ps, qs, hc, h, hm => by
    simp only [populateCC] at h
    simp only [CC.sane] at hc
    exact populateList_cov hv l ps qs hc h hm
  | .negSet l, ps, qs, hc, h, hm => by
    simp only [populateCC, Option.map_eq_some_iff] at h
    obtain ⟨ivs, h1, rfl⟩ := h
    simp only [CC.sane] at hc
    rcases hm with hm | hm
    · exact hm.left
    · simp only [CC.matchChar, Bool.not_eq_true'] at hm
      exact (negSetIntervals_cov hv hc h1 hm).right
  | .negate l, ps, qs, hc, h, hm => by
    simp only [populateCC, Option.some.injEq] at h; subst h
    exact Cov.all hv
  | .prop l, ps, qs, hc, h, hm => by
    simp only [populateCC, Option.some.injEq] at h; subst h
    exact Cov.all hv

theorem populateList_cov {v : Int} (hv : IsCh v) : ∀ (l : List CC) (ps qs : List (Int × Int)), saneCCs l = true →
    populateList ps l = some qs → (Cov ps v ∨ CC.matchAny U false v l = true) → Cov qs v
  | [], ps, qs, _, h, hm => by
    simp only [populateList, Option.some.injEq] at h; subst h
    simpa [CC.matchAny] using hm
  | c :: l, ps, qs, hc, h, hm => by
    simp only [saneCCs, Bool.and_eq_true] at hc
    simp only [populateList] at h
    cases h1 : populateCC ps c with
    | none => simp [h1] at h
    | some ps' =>
      simp only [h1] at h
      refine populateList_cov hv l ps' qs hc.2 h ?_
      simp only [CC.matchAny, Bool.or_eq_true] at hm
      rcases hm with hm | hm | hm
      · exact .inl (populateCC_cov hv c ps ps' hc.1 h1 (.inl hm))
      · exact .inl (populateCC_cov hv c ps ps' hc.1 h1 (.inr hm))
      · exact .inr hm
end

theorem populate_cov {v : Int} (hv : IsCh v) : ∀ (l : List FC) (ps qs : List (Int × Int)), (∀ x ∈ l, x.sane = true) →
    populate ps l = some qs → (Cov ps v ∨ Has U v l) → Cov qs v := by
  intro l
  induction l with
  | nil =>
    intro ps qs _ h hm
    simp only [populate, Option.some.injEq] at h; subst h
    simpa [Has] using hm
  | cons x l ih =>
    intro ps qs hs h hm
    simp only [populate] at h
    cases h1 : populateFC ps x with
    | none => simp [h1] at h
    | some ps' =>
      simp only [h1] at h
      refine ih ps' qs (fun y hy => hs y (by simp [hy])) h ?_
      have key : (Cov ps v ∨ x.Has U v) → Cov ps' v := by
        intro hk
        cases x with
        | anything =>
          simp only [populateFC, Option.some.injEq] at h1; subst h1
          exact Cov.all hv
        | cc c => exact populateCC_cov hv c ps ps' (hs (.cc c) (by simp)) h1 hk
      rcases hm with hm | ⟨y, hy, hm⟩
      · exact .inl (key (.inl hm))
      · rcases List.mem_cons.1 hy with rfl | hy
        · exact .inl (key (.inr hm))
        · exact .inr ⟨y, hy, hm⟩

theorem checkIv_cov {ps : List (Int × Int)} {low high v : Int} (h : checkIv ps low high = false) (h1 : low ≤ v)
    (h2 : v ≤ high) : ¬ Cov ps v := by
  rintro ⟨r, hr, h3, h4⟩
  have h5 := (List.any_eq_false.1 h) r hr
  simp only [Bool.or_eq_true, Bool.and_eq_true, decide_eq_true_eq] at h5
  omega

theorem not_cov_of_length {ps : List (Int × Int)} {v : Int} (h : decide (0 < ps.length) = false) : ¬ Cov ps v := by
  rintro ⟨r, hr, _⟩
  have := List.length_pos_of_mem hr
  simp [this] at h

mutual
theorem checkCC_cov {v : Int} (hv : IsCh v) : ∀ (c : CC) (ps : List (Int × Int)), c.sane = true →
    checkCC ps c = some false → c.matchChar U false v = true → ¬ Cov ps v
  | .chr c, ps, hc, h, hm => by
    simp only [checkCC, Option.some.injEq] at h
    simp only [CC.sane, decide_eq_true_eq] at hc
    simp only [CC.matchChar, matchCharacter_sens hv hc] at hm
    exact checkIv_cov h (by omega) (by omega)
  | .range a b, ps, hc, h, hm => by
    simp only [checkCC, Option.some.injEq] at h
    simp only [CC.sane, Bool.and_eq_true, decide_eq_true_eq] at hc
    simp only [CC.matchChar] at hm
    have := matchRange_sens hv hc.1 hc.2 hm
    exact checkIv_cov h this.1 this.2
  | .enum cs, ps, hc, h, hm => by
    simp only [checkCC, Option.some.injEq] at h
    simp only [CC.sane, List.all_eq_true, decide_eq_true_eq] at hc
    simp only [CC.matchChar, List.any_eq_true] at hm
    obtain ⟨c, h1, h2⟩ := hm
    have h3 := (matchCharacter_sens hv (hc c h1)).1 h2
    have h4 := (List.any_eq_false.1 h) c h1
    exact checkIv_cov (by simpa using h4) (by omega) (by omega)
  | .set l, ps, hc, h, hm => by
    simp only [checkCC] at h
    simp only [CC.sane] at hc
    exact checkList_cov hv l ps hc h hm
  | .negSet l, ps, hc, h, hm => by
    simp only [checkCC, Option.map_eq_some_iff] at h
    obtain ⟨ivs, h1, h2⟩ := h
    simp only [CC.sane] at hc
    simp only [CC.matchChar, Bool.not_eq_true'] at hm
    obtain ⟨r, hr, h3, h4⟩ := negSetIntervals_cov hv hc h1 hm
    have h5 := (List.any_eq_false.1 h2) r hr
    exact checkIv_cov (by simpa using h5) h3 h4
  | .negate l, ps, hc, h, hm => by simp [checkCC] at h
  | .prop l, ps, hc, h, hm => by
    simp only [checkCC, Option.some.injEq] at h
    exact not_cov_of_length h

theorem checkList_cov {v : Int} (hv : IsCh v) : ∀ (l : List CC) (ps : List (Int × Int)), saneCCs l = true →
    checkList ps l = some false → CC.matchAny U false v l = true → ¬ Cov ps v
  | [], ps, _, h, hm => by simp [CC.matchAny] at hm
  | c :: l, ps, hc, h, hm => by
    simp only [saneCCs, Bool.and_eq_true] at hc
    simp only [checkList] at h
    split at h
    · rename_i x y h1 h2
      simp only [Option.some.injEq, Bool.or_eq_false_iff] at h
      obtain ⟨rfl, rfl⟩ := h
      simp only [CC.matchAny, Bool.or_eq_true] at hm
      rcases hm with hm | hm
      · exact checkCC_cov hv c ps hc.1 h1 hm
      · exact checkList_cov hv l ps hc.2 h2 hm
    · simp at h
end

theorem check_cov {v : Int} (hv : IsCh v) : ∀ (l : List FC) (ps : List (Int × Int)), (∀ x ∈ l, x.sane = true) →
    check ps l = some false → Has U v l → ¬ Cov ps v := by
  intro l
  induction l with
  | nil => intro ps _ _ h; simp [Has] at h
  | cons x l ih =>
    intro ps hs h hm
    simp only [check] at h
    split at h
    · rename_i a b h1 h2
      simp only [Option.some.injEq, Bool.or_eq_false_iff] at h
      obtain ⟨rfl, rfl⟩ := h
      obtain ⟨y, hy, hm⟩ := hm
      rcases List.mem_cons.1 hy with rfl | hy
      · cases y with
        | anything =>
          simp only [checkFC, Option.some.injEq] at h1
          exact not_cov_of_length h1
        | cc c => exact checkCC_cov hv c ps (hs (.cc c) (by simp)) h1 hm
      · exact ih ps (fun z hz => hs z (by simp [hz])) h2 ⟨y, hy, hm⟩
    · simp at h

theorem collides_disjoint {v : Int} (hv : IsCh v) {a b : List FC} (ha : ∀ x ∈ a, x.sane = true)
    (hb : ∀ x ∈ b, x.sane = true) (h : collides a b = some false) (h1 : Has U v a) (h2 : Has U v b) : False := by
  unfold collides at h
  cases hp : populate [] a with
  | none => simp [hp] at h
  | some ps =>
    simp only [hp] at h
    exact check_cov hv b ps hb h h2 (populate_cov hv a [] ps ha hp (.inr h1))

end Ctre
