import Verif.Lemmas.PointSetExact

/-
C63: the array of intervals of the analysis of first characters is large enough, sorted and correct; for classes that
list their characters in order, the answer of the analysis is exact.
-/
namespace Ctre

/-- C63: whatever the two lists of classes are, the computation reads and writes inside of its array, whose size is
computed beforehand. -/
theorem C63_in_bounds (a b : List FC) : collidesArray a b ≠ .oob := by
  rw [collidesArray_eq]
  cases collides a b <;> simp [SetOut.ofOption]

/-- The answer is the answer of the analysis with sets of intervals, and both fail to compile together. -/
theorem C63_same_answer (a b : List FC) :
    (∀ x, collidesArray a b = .ok x ↔ collides a b = some x) ∧ (collidesArray a b = .ill ↔ collides a b = none) := by
  rw [collidesArray_eq]
  cases collides a b <;> simp [SetOut.ofOption]

/-- After the array is filled, the elements in use are at most as many as computed beforehand, and sorted. -/
theorem C63_filled (l : List FC) {s : PSet} (h : (PSet.empty (sizeFirst l)).populate l = .ok s) :
    s.used ≤ sizeFirst l ∧ s.points.length = sizeFirst l + 1 ∧
      (s.points.take s.used).Pairwise (fun x y => x.1 ≤ y.1) := by
  rcases populate_holds l (empty_holds (sizeFirst l)) (by simp) with ⟨h1, h2⟩ | ⟨ps, s', h1, h2, h3, h4⟩
  · rw [h2] at h; simp at h
  · rw [h2, SetOut.ok.injEq] at h
    subst h
    refine ⟨?_, h3.length, h3.sorted⟩
    rw [h3.used_eq]
    simpa using h4

/-- An interval is put into a sorted array with room for it: all elements stay, the interval is added, and the
elements are sorted again. -/
theorem C63_insert {s : PSet} {p : Int × Int} (hroom : s.used < s.points.length)
    (hs : (s.points.take s.used).Pairwise fun x y => x.1 ≤ y.1) : ∃ s', s.insert p = .ok s' ∧ s'.used = s.used + 1 ∧
      s'.points.length = s.points.length ∧ (s'.points.take s'.used).Perm (p :: s.points.take s.used) ∧
      (s'.points.take s'.used).Pairwise fun x y => x.1 ≤ y.1 := by
  have h : Stores (s.points.length - 1) s (s.points.take s.used) := ⟨by omega, by omega, .refl _, hs⟩
  obtain ⟨s', e, h'⟩ := insert_holds h (by rw [List.length_take]; omega) p
  refine ⟨s', e, ?_, ?_, h'.perm.trans (List.perm_append_singleton _ _), h'.sorted⟩
  · rw [h'.used_eq, List.length_append, List.length_take]; simp; omega
  · rw [h'.length]; omega

/-- Without room, the insertion writes outside of the array: the array needs one element for each interval. -/
theorem C63_room_needed {s : PSet} {p : Int × Int} (hfull : s.used = s.points.length)
    (hs : (s.points.take s.used).Pairwise fun x y => x.1 ≤ y.1) (hp : ∀ x ∈ s.points, x.1 < p.1) :
    s.insert p = .oob := by
  obtain ⟨k, hk, hkn, h1, h2⟩ := lbLoop_spec (low := p.1) (n := s.used) (by omega) hs s.used 0 0 (by omega) (fun _ => rfl)
    (by intro i p hi; omega) (by intro i p hi hi'; omega)
  have : k = s.used := by
    rcases Nat.lt_or_ge k s.used with h | h
    · have hk' : k < s.points.length := by omega
      exact (h2 k _ (Nat.le_refl _) h (List.getElem?_eq_getElem hk') (hp _ (List.getElem_mem hk'))).elim
    · omega
  subst this
  unfold PSet.insert
  rw [hk]
  simp [store, hfull]

/-- Classes without a common character are found to be apart only if they are, with the array as it is stored. -/
theorem C63_disjoint {U : Uni} {a b : List FC} (ha : ∀ x ∈ a, x.sane = true) (hb : ∀ x ∈ b, x.sane = true)
    (h : collidesArray a b = .ok false) {v : Ch} (hv : IsCh v) : ¬ (Has U v a ∧ Has U v b) :=
  fun h' => collides_disjoint hv ha hb ((C63_same_answer a b).1 false |>.1 h) h'.1 h'.2

/-- For classes that list characters and ranges, and complements of those with the members in ascending order, there
is an answer, and it is exact: a collision is reported if and only if a character belongs to both sides. -/
theorem C63_exact {U : Uni} {a b : List FC} (ha : ∀ x ∈ a, x.sane = true) (hb : ∀ x ∈ b, x.sane = true)
    (la : ∀ x ∈ a, Listed x) (lb : ∀ x ∈ b, Listed x) :
    ∃ x, collidesArray a b = .ok x ∧ (x = true ↔ ∃ v, IsCh v ∧ Has U v a ∧ Has U v b) := by
  obtain ⟨x, h1, h2⟩ := collides_listed (U := U) ha hb la lb
  exact ⟨x, (C63_same_answer a b).1 x |>.2 h1, h2⟩

/-- The answer for listed classes does not depend on the side. -/
theorem C63_symmetric {a b : List FC} (ha : ∀ x ∈ a, x.sane = true) (hb : ∀ x ∈ b, x.sane = true)
    (la : ∀ x ∈ a, Listed x) (lb : ∀ x ∈ b, Listed x) : collidesArray a b = collidesArray b a := by
  obtain ⟨x, h1, h2⟩ := C63_exact (U := fun _ _ => false) ha hb la lb
  obtain ⟨y, k1, k2⟩ := C63_exact (U := fun _ _ => false) hb ha lb la
  rw [h1, k1]
  congr 1
  rw [Bool.eq_iff_iff, h2, k2]
  exact ⟨fun ⟨v, h, h1, h2⟩ => ⟨v, h, h2, h1⟩, fun ⟨v, h, h1, h2⟩ => ⟨v, h, h2, h1⟩⟩

/-- Complements with the members in another order are answered with a collision where there is none: `[^5a-z]` and
`[^a-z5]` are the same class, and only the first is found to be apart from `[b-f5]`. -/
theorem C63_fails_unordered :
    collidesArray [.cc (.negSet [.chr 53, .range 97 122])] [.cc (.set [.range 98 102, .chr 53])] = .ok false ∧
    collidesArray [.cc (.negSet [.range 97 122, .chr 53])] [.cc (.set [.range 98 102, .chr 53])] = .ok true := by
  decide +kernel

/-- The analysis is not symmetric in general: there is no overload for a negated part of a class on the other side. -/
theorem C63_fails_asymmetric : collidesArray [.cc (.negate [.chr 97])] [.cc (.chr 97)] = .ok true ∧
    collidesArray [.cc (.chr 97)] [.cc (.negate [.chr 97])] = .ill := by decide +kernel

/-! ### Cases -/

/-- `[b-f0x]` and `[^a-z]` as first classes: three intervals are counted and used, and one is found to be
shared. -/
example : sizeFirst [.cc (.set [.range 98 102, .chr 48, .chr 120])] = 3 ∧
    (PSet.empty 3).populate [.cc (.set [.range 98 102, .chr 48, .chr 120])] =
      .ok ⟨[(48, 48), (98, 102), (120, 120), (0, 0)], 3⟩ ∧
    collidesArray [.cc (.set [.range 98 102, .chr 48, .chr 120])] [.cc (.negSet [.range 97 122])] = .ok true := by
  decide +kernel

/-- An insertion in the middle. -/
example : (PSet.mk [(3, 4), (9, 12), (20, 20), (0, 0)] 3).insert (7, 30) =
    .ok ⟨[(3, 4), (7, 30), (9, 12), (20, 20)], 4⟩ := by decide +kernel
example : (PSet.mk [(3, 4), (9, 12)] 2).insert (11, 30) = .oob := by decide +kernel

/-- The hypotheses of the exactness: `\w` written as ranges and `[^0-9A-Z_a-z]`. -/
example : collidesArray [.cc (.set [.range 48 57, .range 65 90, .chr 95, .range 97 122])]
      [.cc (.negSet [.range 48 57, .range 65 90, .chr 95, .range 97 122])] = .ok false := by decide +kernel
example : Listed (.cc (.negSet [.range 48 57, .range 65 90, .chr 95, .range 97 122])) := by
  refine ⟨_, rfl, ?_⟩
  decide +kernel
example : Listed (.cc (.set [.range 98 102, .chr 53])) := ⟨_, rfl⟩
example : (CC.negSet [.range 48 57, .range 65 90, .chr 95, .range 97 122]).sane = true := by decide +kernel

end Ctre
