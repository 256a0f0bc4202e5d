import Verif.Lemmas.Steps
import Verif.Spec.Steps

/-
The bound is a polynomial in the fuel.
-/
namespace Ctre

/-- Bounded by a constant times a power. -/
def Poly (g : Nat → Nat) (d : Nat) : Prop := ∃ K, ∀ N, g N ≤ K * (N + 1) ^ d

theorem pow_mono {N d e : Nat} (h : d ≤ e) : (N + 1) ^ d ≤ (N + 1) ^ e := Nat.pow_le_pow_right (by omega) h

theorem Poly.weaken {g : Nat → Nat} {d e : Nat} (h : Poly g d) (hd : d ≤ e) : Poly g e := by
  obtain ⟨K, h⟩ := h
  exact ⟨K, fun N => Nat.le_trans (h N) (Nat.mul_le_mul_left K (pow_mono hd))⟩

theorem Poly.const (k : Nat) (d : Nat) : Poly (fun _ => k) d :=
  ⟨k, fun N => by
    have : 1 ≤ (N + 1) ^ d := Nat.one_le_pow _ _ (by omega)
    calc k = k * 1 := by omega
      _ ≤ k * (N + 1) ^ d := Nat.mul_le_mul_left k this⟩

theorem Poly.add {g h : Nat → Nat} {d e : Nat} (hg : Poly g d) (hh : Poly h e) : Poly (fun N => g N + h N) (max d e) := by
  obtain ⟨K, h1⟩ := hg.weaken (Nat.le_max_left d e)
  obtain ⟨L, h2⟩ := hh.weaken (Nat.le_max_right d e)
  refine ⟨K + L, fun N => ?_⟩
  rw [Nat.add_mul]
  exact Nat.add_le_add (h1 N) (h2 N)

theorem Poly.add_const {g : Nat → Nat} {d : Nat} (hg : Poly g d) (k : Nat) : Poly (fun N => k + g N) d := by
  have := (Poly.const k 0).add hg
  simpa using this

theorem Poly.scale {g : Nat → Nat} {d : Nat} (k : Nat) (hg : Poly g d) : Poly (fun N => k * g N) d := by
  obtain ⟨K, h⟩ := hg
  refine ⟨k * K, fun N => ?_⟩
  rw [Nat.mul_assoc]
  exact Nat.mul_le_mul_left k (h N)

theorem Poly.times {g h : Nat → Nat} {d e : Nat} (hg : Poly g d) (hh : Poly h e) : Poly (fun N => g N * h N) (d + e) := by
  obtain ⟨K, h1⟩ := hg
  obtain ⟨L, h2⟩ := hh
  refine ⟨K * L, fun N => ?_⟩
  refine Nat.le_trans (Nat.mul_le_mul (h1 N) (h2 N)) ?_
  rw [Nat.pow_add]
  apply Nat.le_of_eq
  simp only [Nat.mul_assoc, Nat.mul_left_comm, Nat.mul_comm]

theorem Poly.id : Poly (fun N => N) 1 := ⟨1, fun N => by simp⟩

theorem Poly.le {g h : Nat → Nat} {d : Nat} (hh : Poly h d) (hle : ∀ N, g N ≤ h N) : Poly g d := by
  obtain ⟨K, h⟩ := hh
  exact ⟨K, fun N => Nat.le_trans (hle N) (h N)⟩

/-- Number of iterations. -/
theorem Poly.count (b : Nat) : Poly (fun N => if b = 0 then N else b) (if b = 0 then 1 else 0) := by
  by_cases h : b = 0
  · simp only [h, if_true]; exact Poly.id
  · simp only [h, if_false]; exact Poly.const b 0

theorem isEmpty_if {α β : Type} {m : List α} (x y : β) : (if m.isEmpty = true then x else y) = if m = [] then x else y := by
  cases m <;> simp

mutual
theorem most_poly (C : Cfg) : ∀ (r : Re) (t : Stack) (k : Nat → Nat) (d : Nat), Poly k d →
    Poly (fun N => r.most C N t (k N)) (r.degree C t d)
  | .reject _, t, k, d, hk => by simp only [Re.most]; exact Poly.const 1 _
  | .str cs, t, k, d, hk => by simp only [Re.most, Re.degree]; exact hk.add_const _
  | .sel l, t, k, d, hk => by simp only [Re.most, Re.degree]; exact mostSel_poly C l t k d hk
  | .seq l, t, k, d, hk => by simp only [Re.most, Re.degree]; exact mostSeq_poly C l t k d hk
  | .rep kd a b m, t, k, d, hk => by
    have hB := mostItems_poly C m [.endCycle] (fun _ => 1) 0 (Poly.const 1 0)
    have cnt := Poly.count b
    have lazyCase : Poly (fun N => 1 + a * mostItems C N [.endCycle] 1 m + k N +
        ((if b = 0 then N else b) * (mostItems C N [.endCycle] 1 m + k N) + k N))
        ((if b = 0 then 1 else 0) + max (degreeItems C [.endCycle] 0 m) d) := by
      have h1 := ((hB.scale a).add_const 1).add hk
      have h2 := (cnt.times (hB.add hk)).add hk
      have h3 := h1.add h2
      refine h3.weaken ?_
      omega
    have possCase : Poly (fun N => 1 + (if b = 0 then N else b) * mostItems C N [.endCycle] 1 m + k N)
        (max ((if b = 0 then 1 else 0) + degreeItems C [.endCycle] 0 m) d) :=
      (((cnt.times hB).add_const 1).add hk).weaken (Nat.le_refl _)
    cases kd with
    | lazy => simp only [Re.most, Re.degree]; exact lazyCase
    | poss => simp only [Re.most, Re.degree]; exact possCase
    | greedy =>
      simp only [Re.most, Re.degree]
      cases (if C.greedyOpt = true then loopCollides m t else some true) with
      | none => exact Poly.const 1 _
      | some x =>
        cases x with
        | false =>
          simp only
          exact (possCase.add_const 1).le (fun N => by omega)
        | true =>
          simp only
          have h1 := (hB.scale a).add_const 1
          have h2 := ((cnt.add_const 1).times ((hB.add_const 1).add hk))
          have h3 := h1.add h2
          refine (h3.weaken ?_).le (fun N => ?_)
          · omega
          · simp only [Nat.add_comm 1 (if b = 0 then N else b)]; exact Nat.le_refl _
  | .cap id nm m, t, k, d, hk => by
    simp only [Re.most, Re.degree]
    exact (mostSeq_poly C m (.numMark id :: t) (fun N => 1 + k N) d (hk.add_const 1)).add_const 1
  | .bref id, t, k, d, hk => by
    simp only [Re.most, Re.degree]
    exact ((Poly.id.add_const 2).add hk)
  | .brefName id, t, k, d, hk => by
    simp only [Re.most, Re.degree]
    exact ((Poly.id.add_const 2).add hk)
  | .ahead p m, t, k, d, hk => by
    simp only [Re.most, Re.degree]
    exact ((mostSeq_poly C m [.endAhead] (fun _ => 1) 0 (Poly.const 1 0)).add_const 1).add hk
  | .behind p m, t, k, d, hk => by
    simp only [Re.most, Re.degree]
    exact ((mostSeq_poly C m [.endBehind] (fun _ => 1) 0 (Poly.const 1 0)).add_const 1).add hk
  | .atomic m, t, k, d, hk => by
    simp only [Re.most, Re.degree]
    exact ((mostItems_poly C m [.endCycle] (fun _ => 1) 0 (Poly.const 1 0)).add_const 2).add hk
  | .cc _, t, k, d, hk => by simp only [Re.most, Re.degree]; exact hk.add_const _
  | .any, t, k, d, hk => by simp only [Re.most, Re.degree]; exact hk.add_const _
  | .empty, t, k, d, hk => by simp only [Re.most, Re.degree]; exact hk.add_const _
  | .boundary _, t, k, d, hk => by simp only [Re.most, Re.degree]; exact hk.add_const _
  | .notBoundary _, t, k, d, hk => by simp only [Re.most, Re.degree]; exact hk.add_const _
  | .sBegin, t, k, d, hk => by simp only [Re.most, Re.degree]; exact hk.add_const _
  | .sEnd, t, k, d, hk => by simp only [Re.most, Re.degree]; exact hk.add_const _
  | .sEndLine, t, k, d, hk => by simp only [Re.most, Re.degree]; exact hk.add_const _
  | .lBegin, t, k, d, hk => by simp only [Re.most, Re.degree]; exact hk.add_const _
  | .lEnd, t, k, d, hk => by simp only [Re.most, Re.degree]; exact hk.add_const _
  | .mode _, t, k, d, hk => by simp only [Re.most, Re.degree]; exact hk.add_const _

theorem mostSel_poly (C : Cfg) : ∀ (l : List Re) (t : Stack) (k : Nat → Nat) (d : Nat), Poly k d →
    Poly (fun N => mostSel C N t (k N) l) (degreeSel C t d l)
  | [], t, k, d, hk => by simp only [mostSel]; exact Poly.const 1 _
  | r :: l, t, k, d, hk => by
    simp only [mostSel, degreeSel]
    exact ((most_poly C r t k d hk).add_const 1).add (mostSel_poly C l t k d hk)

theorem mostSeq_poly (C : Cfg) : ∀ (l : List Re) (t : Stack) (k : Nat → Nat) (d : Nat), Poly k d →
    Poly (fun N => mostSeq C N t (k N) l) (degreeSeq C t d l)
  | [], t, k, d, hk => by simp only [mostSeq]; exact Poly.const 1 _
  | r :: m, t, k, d, hk => by
    simp only [mostSeq, degreeSeq]
    refine Poly.add_const ?_ 1
    have h1 := mostSeq_poly C m t k d hk
    refine most_poly C r _ (fun N => if m.isEmpty = true then k N else mostSeq C N t (k N) m) _ ?_
    cases m with
    | nil => simpa using hk
    | cons x m => simpa using h1

theorem mostItems_poly (C : Cfg) : ∀ (l : List Re) (t : Stack) (k : Nat → Nat) (d : Nat), Poly k d →
    Poly (fun N => mostItems C N t (k N) l) (degreeItems C t d l)
  | [], t, k, d, hk => by simp only [mostItems, degreeItems]; exact hk
  | r :: m, t, k, d, hk => by
    simp only [mostItems, degreeItems]
    exact most_poly C r _ _ _ (mostItems_poly C m t k d hk)
end

/-! ### Coarser exponents -/

mutual
theorem degree_le_loops (C : Cfg) : ∀ (r : Re) (t : Stack) (d : Nat), r.degree C t d ≤ r.loops + d
  | .reject _, t, d => by simp [Re.degree]
  | .sel l, t, d => by simp only [Re.degree, Re.loops]; exact degreeSel_le_loops C l t d
  | .seq l, t, d => by simp only [Re.degree, Re.loops]; exact degreeSeq_le_loops C l t d
  | .rep k a b m, t, d => by
    have h := degreeItems_le_loops C m [.endCycle] 0
    cases k with
    | lazy => simp only [Re.degree, Re.loops]; omega
    | poss => simp only [Re.degree, Re.loops]; omega
    | greedy =>
      simp only [Re.degree, Re.loops]
      cases (if C.greedyOpt = true then loopCollides m t else some true) with
      | none => simp only; omega
      | some x => cases x <;> simp only <;> omega
  | .cap id nm m, t, d => by simp only [Re.degree, Re.loops]; exact degreeSeq_le_loops C m _ d
  | .bref _, t, d => by simp only [Re.degree, Re.loops]; omega
  | .brefName _, t, d => by simp only [Re.degree, Re.loops]; omega
  | .ahead p m, t, d => by
    have h := degreeSeq_le_loops C m [.endAhead] 0
    simp only [Re.degree, Re.loops]; omega
  | .behind p m, t, d => by
    have h := degreeSeq_le_loops C m [.endBehind] 0
    simp only [Re.degree, Re.loops]; omega
  | .atomic m, t, d => by
    have h := degreeItems_le_loops C m [.endCycle] 0
    simp only [Re.degree, Re.loops]; omega
  | .cc _, t, d | .any, t, d | .str _, t, d | .empty, t, d | .boundary _, t, d | .notBoundary _, t, d | .sBegin, t, d
  | .sEnd, t, d | .sEndLine, t, d | .lBegin, t, d | .lEnd, t, d | .mode _, t, d => by simp [Re.degree]

theorem degreeSel_le_loops (C : Cfg) : ∀ (l : List Re) (t : Stack) (d : Nat), degreeSel C t d l ≤ loopsAll l + d
  | [], t, d => by simp [degreeSel]
  | r :: l, t, d => by
    have h1 := degree_le_loops C r t d
    have h2 := degreeSel_le_loops C l t d
    simp only [degreeSel, loopsAll]; omega

theorem degreeSeq_le_loops (C : Cfg) : ∀ (l : List Re) (t : Stack) (d : Nat), degreeSeq C t d l ≤ loopsAll l + d
  | [], t, d => by simp [degreeSeq]
  | r :: m, t, d => by
    have h1 := degree_le_loops C r (if m.isEmpty then t else .re (.seq m) :: t) (if m.isEmpty then d else degreeSeq C t d m)
    have h2 := degreeSeq_le_loops C m t d
    simp only [degreeSeq, loopsAll]
    split at h1 <;> simp_all <;> omega

theorem degreeItems_le_loops (C : Cfg) : ∀ (l : List Re) (t : Stack) (d : Nat), degreeItems C t d l ≤ loopsAll l + d
  | [], t, d => by simp [degreeItems]
  | r :: m, t, d => by
    have h1 := degree_le_loops C r (items m t) (degreeItems C t d m)
    have h2 := degreeItems_le_loops C m t d
    simp only [degreeItems, loopsAll]; omega
end

mutual
theorem degree_bounded (C : Cfg) : ∀ (r : Re) (t : Stack) (d : Nat), r.bounded = true → r.degree C t d ≤ d
  | .reject _, t, d, _ => by simp [Re.degree]
  | .sel l, t, d, h => by simp only [Re.bounded] at h; simp only [Re.degree]; exact degreeSel_bounded C l t d h
  | .seq l, t, d, h => by simp only [Re.bounded] at h; simp only [Re.degree]; exact degreeSeq_bounded C l t d h
  | .rep k a b m, t, d, h => by
    simp only [Re.bounded, Bool.and_eq_true, decide_eq_true_eq] at h
    have h' := degreeItems_bounded C m [.endCycle] 0 h.2
    cases k with
    | lazy => simp only [Re.degree, h.1, if_false]; omega
    | poss => simp only [Re.degree, h.1, if_false]; omega
    | greedy =>
      simp only [Re.degree, h.1, if_false]
      cases (if C.greedyOpt = true then loopCollides m t else some true) with
      | none => simp only; omega
      | some x => cases x <;> simp only <;> omega
  | .cap id nm m, t, d, h => by simp only [Re.bounded] at h; simp only [Re.degree]; exact degreeSeq_bounded C m _ d h
  | .bref _, t, d, h => by simp [Re.bounded] at h
  | .brefName _, t, d, h => by simp [Re.bounded] at h
  | .ahead p m, t, d, h => by
    simp only [Re.bounded] at h
    have h' := degreeSeq_bounded C m [.endAhead] 0 h
    simp only [Re.degree]; omega
  | .behind p m, t, d, h => by
    simp only [Re.bounded] at h
    have h' := degreeSeq_bounded C m [.endBehind] 0 h
    simp only [Re.degree]; omega
  | .atomic m, t, d, h => by
    simp only [Re.bounded] at h
    have h' := degreeItems_bounded C m [.endCycle] 0 h
    simp only [Re.degree]; omega
  | .cc _, t, d, _ | .any, t, d, _ | .str _, t, d, _ | .empty, t, d, _ | .boundary _, t, d, _ | .notBoundary _, t, d, _
  | .sBegin, t, d, _ | .sEnd, t, d, _ | .sEndLine, t, d, _ | .lBegin, t, d, _ | .lEnd, t, d, _ | .mode _, t, d, _ => by
    simp [Re.degree]

theorem degreeSel_bounded (C : Cfg) : ∀ (l : List Re) (t : Stack) (d : Nat), boundedAll l = true → degreeSel C t d l ≤ d
  | [], t, d, _ => by simp [degreeSel]
  | r :: l, t, d, h => by
    simp only [boundedAll, Bool.and_eq_true] at h
    have h1 := degree_bounded C r t d h.1
    have h2 := degreeSel_bounded C l t d h.2
    simp only [degreeSel]; omega

theorem degreeSeq_bounded (C : Cfg) : ∀ (l : List Re) (t : Stack) (d : Nat), boundedAll l = true → degreeSeq C t d l ≤ d
  | [], t, d, _ => by simp [degreeSeq]
  | r :: m, t, d, h => by
    simp only [boundedAll, Bool.and_eq_true] at h
    have h1 := degree_bounded C r (if m.isEmpty then t else .re (.seq m) :: t) (if m.isEmpty then d else degreeSeq C t d m) h.1
    have h2 := degreeSeq_bounded C m t d h.2
    simp only [degreeSeq]
    refine Nat.le_trans h1 ?_
    split <;> omega

theorem degreeItems_bounded (C : Cfg) : ∀ (l : List Re) (t : Stack) (d : Nat), boundedAll l = true → degreeItems C t d l ≤ d
  | [], t, d, _ => by simp [degreeItems]
  | r :: m, t, d, h => by
    simp only [boundedAll, Bool.and_eq_true] at h
    have h1 := degree_bounded C r (items m t) (degreeItems C t d m) h.1
    have h2 := degreeItems_bounded C m t d h.2
    simp only [degreeItems]; omega
end

mutual
theorem degree_swift (C : Cfg) : ∀ (r : Re) (t : Stack) (d : Nat), r.swift = true → r.degree C t d ≤ max 1 d
  | .reject _, t, d, _ => by simp [Re.degree]
  | .sel l, t, d, h => by simp only [Re.swift] at h; simp only [Re.degree]; exact degreeSel_swift C l t d h
  | .seq l, t, d, h => by simp only [Re.swift] at h; simp only [Re.degree]; exact degreeSeq_swift C l t d h
  | .rep k a b m, t, d, h => by
    simp only [Re.swift] at h
    split at h
    · rename_i hb
      simp only [Bool.and_eq_true, decide_eq_true_eq] at h
      obtain ⟨rfl, h⟩ := h
      have h' := degreeItems_bounded C m [.endCycle] 0 h
      simp only [Re.degree, hb, if_true]; omega
    · rename_i hb
      have h' := degreeItems_swift C m [.endCycle] 0 h
      cases k with
      | lazy => simp only [Re.degree, hb, if_false]; omega
      | poss => simp only [Re.degree, hb, if_false]; omega
      | greedy =>
        simp only [Re.degree, hb, if_false]
        cases (if C.greedyOpt = true then loopCollides m t else some true) with
        | none => simp only; omega
        | some x => cases x <;> simp only <;> omega
  | .cap id nm m, t, d, h => by simp only [Re.swift] at h; simp only [Re.degree]; exact degreeSeq_swift C m _ d h
  | .bref _, t, d, h => by simp [Re.swift] at h
  | .brefName _, t, d, h => by simp [Re.swift] at h
  | .ahead p m, t, d, h => by
    simp only [Re.swift] at h
    have h' := degreeSeq_swift C m [.endAhead] 0 h
    simp only [Re.degree]; omega
  | .behind p m, t, d, h => by
    simp only [Re.swift] at h
    have h' := degreeSeq_swift C m [.endBehind] 0 h
    simp only [Re.degree]; omega
  | .atomic m, t, d, h => by
    simp only [Re.swift] at h
    have h' := degreeItems_swift C m [.endCycle] 0 h
    simp only [Re.degree]; omega
  | .cc _, t, d, _ | .any, t, d, _ | .str _, t, d, _ | .empty, t, d, _ | .boundary _, t, d, _ | .notBoundary _, t, d, _
  | .sBegin, t, d, _ | .sEnd, t, d, _ | .sEndLine, t, d, _ | .lBegin, t, d, _ | .lEnd, t, d, _ | .mode _, t, d, _ => by
    simp only [Re.degree]; omega

theorem degreeSel_swift (C : Cfg) : ∀ (l : List Re) (t : Stack) (d : Nat), swiftAll l = true → degreeSel C t d l ≤ max 1 d
  | [], t, d, _ => by simp [degreeSel]
  | r :: l, t, d, h => by
    simp only [swiftAll, Bool.and_eq_true] at h
    have h1 := degree_swift C r t d h.1
    have h2 := degreeSel_swift C l t d h.2
    simp only [degreeSel]; omega

theorem degreeSeq_swift (C : Cfg) : ∀ (l : List Re) (t : Stack) (d : Nat), swiftAll l = true → degreeSeq C t d l ≤ max 1 d
  | [], t, d, _ => by simp [degreeSeq]
  | r :: m, t, d, h => by
    simp only [swiftAll, Bool.and_eq_true] at h
    have h1 := degree_swift C r (if m.isEmpty then t else .re (.seq m) :: t) (if m.isEmpty then d else degreeSeq C t d m) h.1
    have h2 := degreeSeq_swift C m t d h.2
    simp only [degreeSeq]
    refine Nat.le_trans h1 ?_
    split <;> omega

theorem degreeItems_swift (C : Cfg) : ∀ (l : List Re) (t : Stack) (d : Nat), swiftAll l = true → degreeItems C t d l ≤ max 1 d
  | [], t, d, _ => by simp only [degreeItems]; omega
  | r :: m, t, d, h => by
    simp only [swiftAll, Bool.and_eq_true] at h
    have h1 := degree_swift C r (items m t) (degreeItems C t d m) h.1
    have h2 := degreeItems_swift C m t d h.2
    simp only [degreeItems]; omega
end

end Ctre
