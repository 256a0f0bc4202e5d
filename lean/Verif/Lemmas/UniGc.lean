import Verif.Lemmas.UniRows
import Verif.Spec.UcdGc
import Mathlib.Tactic.Tauto
/-
The general category tables hold the general categories of Unicode 14.0, all but one of them.
-/
set_option maxRecDepth 100000
namespace Ctre.Ucd
open Unicode14

theorem is_cc : Is (cpCategoryIs .cc) (inRanges gcCc) := is_ranges (by decide +kernel) (by decide +kernel)
theorem is_cf : Is (cpCategoryIs .cf) (inRanges gcCf) := is_ranges (by decide +kernel) (by decide +kernel)
theorem is_co : Is (cpCategoryIs .co) (inRanges gcCo) := is_ranges (by decide +kernel) (by decide +kernel)
theorem is_cs : Is (cpCategoryIs .cs) (inRanges gcCs) := is_ranges (by decide +kernel) (by decide +kernel)
theorem is_ll : Is (cpCategoryIs .ll) (inRanges gcLl) := is_trie (by decide +kernel) (by decide +kernel)
theorem is_lm : Is (cpCategoryIs .lm) (inRanges gcLm) := is_trie (by decide +kernel) (by decide +kernel)
theorem is_lo : Is (cpCategoryIs .lo) (inRanges gcLo) := is_trie (by decide +kernel) (by decide +kernel)
theorem is_lt : Is (cpCategoryIs .lt) (inRanges gcLt) := is_ranges (by decide +kernel) (by decide +kernel)
theorem is_lu : Is (cpCategoryIs .lu) (inRanges gcLu) := is_trie (by decide +kernel) (by decide +kernel)
theorem is_mc : Is (cpCategoryIs .mc) (inRanges gcMc) := is_trie (by decide +kernel) (by decide +kernel)
theorem is_me : Is (cpCategoryIs .me) (inRanges gcMe) := is_ranges (by decide +kernel) (by decide +kernel)
theorem is_mn : Is (cpCategoryIs .mn) (inRanges gcMn) := is_trie (by decide +kernel) (by decide +kernel)
theorem is_nd : Is (cpCategoryIs .nd) (inRanges gcNd) := is_trie (by decide +kernel) (by decide +kernel)
theorem is_nl : Is (cpCategoryIs .nl) (inRanges gcNl) := is_ranges (by decide +kernel) (by decide +kernel)
theorem is_no : Is (cpCategoryIs .no) (inRanges gcNo) := is_trie (by decide +kernel) (by decide +kernel)
theorem is_pc : Is (cpCategoryIs .pc) (inRanges gcPc) := is_flat (by decide +kernel)
theorem is_pe : Is (cpCategoryIs .pe) (inRanges gcPe) := is_trie (by decide +kernel) (by decide +kernel)
theorem is_pf : Is (cpCategoryIs .pf) (inRanges gcPf) := is_flat (by decide +kernel)
theorem is_pi : Is (cpCategoryIs .pi) (inRanges gcPi) := is_flat (by decide +kernel)
theorem is_po : Is (cpCategoryIs .po) (inRanges gcPo) := is_trie (by decide +kernel) (by decide +kernel)
theorem is_ps : Is (cpCategoryIs .ps) (inRanges gcPs) := is_trie (by decide +kernel) (by decide +kernel)
theorem is_sc : Is (cpCategoryIs .sc) (inRanges gcSc) := is_ranges (by decide +kernel) (by decide +kernel)
theorem is_sk : Is (cpCategoryIs .sk) (inRanges gcSk) := is_trie (by decide +kernel) (by decide +kernel)
theorem is_sm : Is (cpCategoryIs .sm) (inRanges gcSm) := is_trie (by decide +kernel) (by decide +kernel)
theorem is_so : Is (cpCategoryIs .so) (inRanges gcSo) := is_trie (by decide +kernel) (by decide +kernel)
theorem is_zl : Is (cpCategoryIs .zl) (inRanges gcZl) := is_flat (by decide +kernel)
theorem is_zp : Is (cpCategoryIs .zp) (inRanges gcZp) := is_flat (by decide +kernel)
theorem is_zs : Is (cpCategoryIs .zs) (inRanges gcZs) := is_ranges (by decide +kernel) (by decide +kernel)

/-- The code points of `Pd` the binary search finds in its table, which is not sorted. -/
def pdFound : List (Nat × Nat) :=
  [(0x1400, 0x1400), (0x1806, 0x1806), (0x2013, 0x2015), (0x2E17, 0x2E17), (0x2E1A, 0x2E1A), (0x301C, 0x301C),
    (0x30A0, 0x30A0), (0xFE58, 0xFE58), (0xFE63, 0xFE63)]

theorem is_pd : Is (cpCategoryIs .pd) (inRanges pdFound) := is_flat (by decide +kernel)

/-! ### The groups -/

theorem is_any1 {t : Table} {p : Nat → Prop} (h : Is t.lookup p) : Is (anyOf [t]) p :=
  (is_anyOf_cons h is_anyOf_nil).iff fun c _ => by simp

theorem is_any {t : Table} {l : List Table} {a b : List (Nat × Nat)} (h : Is t.lookup (inRanges a))
    (h' : Is (anyOf l) (inRanges b)) : Is (anyOf (t :: l)) (inRanges (a ++ b)) :=
  (is_anyOf_cons h h').iff fun c _ => (inRanges_append a b c).symm

theorem is_perm {f : Nat → Option Bool} {a b : List (Nat × Nat)} (h : Is f (inRanges a))
    (e : ∀ c, inRanges a c ↔ inRanges b c) : Is f (inRanges b) := h.iff fun c _ => e c

theorem is_lc : Is (cpCategoryIs .lc) (inRanges (gcLu ++ gcLl ++ gcLt)) :=
  is_perm (is_any (t := .trie cat_ll) is_ll (is_any (t := .trie cat_lu) is_lu (is_any1 (t := .ranges cat_lt) is_lt)))
    fun c => by simp only [inRanges_append]; tauto

theorem is_l : Is (cpCategoryIs .l) (inRanges (gcLu ++ gcLl ++ gcLt ++ gcLm ++ gcLo)) :=
  is_perm (is_any (t := .trie cat_lo) is_lo (is_any (t := .trie cat_ll) is_ll (is_any (t := .trie cat_lu) is_lu
    (is_any (t := .trie cat_lm) is_lm (is_any1 (t := .ranges cat_lt) is_lt)))))
    fun c => by simp only [inRanges_append]; tauto

theorem is_m : Is (cpCategoryIs .m) (inRanges (gcMn ++ gcMc ++ gcMe)) :=
  is_perm (is_any (t := .trie cat_mn) is_mn (is_any (t := .trie cat_mc) is_mc (is_any1 (t := .ranges cat_me) is_me)))
    fun c => by simp only [inRanges_append]; tauto

theorem is_n : Is (cpCategoryIs .n) (inRanges (gcNd ++ gcNl ++ gcNo)) :=
  is_perm (is_any (t := .trie cat_no) is_no (is_any (t := .trie cat_nd) is_nd (is_any1 (t := .ranges cat_nl) is_nl)))
    fun c => by simp only [inRanges_append]; tauto

theorem is_p : Is (cpCategoryIs .p) (inRanges (gcPc ++ pdFound ++ gcPs ++ gcPe ++ gcPi ++ gcPf ++ gcPo)) :=
  is_perm (is_any (t := .trie cat_po) is_po (is_any (t := .trie cat_ps) is_ps (is_any (t := .trie cat_pe) is_pe
    (is_any (t := .flat cat_pd) is_pd (is_any (t := .flat cat_pi) is_pi (is_any (t := .flat cat_pf) is_pf
      (is_any1 (t := .flat cat_pc) is_pc)))))))
    fun c => by simp only [inRanges_append]; tauto

theorem is_s : Is (cpCategoryIs .s) (inRanges (gcSm ++ gcSc ++ gcSk ++ gcSo)) :=
  is_perm (is_any (t := .trie cat_so) is_so (is_any (t := .trie cat_sm) is_sm (is_any (t := .trie cat_sk) is_sk
    (is_any1 (t := .ranges cat_sc) is_sc))))
    fun c => by simp only [inRanges_append]; tauto

theorem is_z : Is (cpCategoryIs .z) (inRanges (gcZs ++ gcZl ++ gcZp)) :=
  is_perm (is_any (t := .ranges cat_zs) is_zs (is_any (t := .flat cat_zp) is_zp (is_any1 (t := .flat cat_zl) is_zl)))
    fun c => by simp only [inRanges_append]; tauto

/-- `\p{C}` leaves the unassigned code points out. -/
theorem is_c : Is (cpCategoryIs .c) (inRanges (gcCc ++ gcCf ++ gcCs ++ gcCo)) :=
  is_perm (is_any (t := .ranges cat_co) is_co (is_any (t := .ranges cat_cs) is_cs (is_any (t := .ranges cat_cf) is_cf
    (is_any1 (t := .ranges cat_cc) is_cc))))
    fun c => by simp only [inRanges_append]; tauto

/-! ### Every code point has one general category -/

/-- The sets of a list are disjoint from each other and from `acc`, and together all code points. -/
def partitions : Nat → List (List (Nat × Nat)) → Bool
  | acc, [] => Nat.beq acc (Nat.sub (Nat.pow 2 0x110000) 1)
  | acc, r :: l => Nat.beq (Nat.land acc (rangesBits r)) 0 && partitions (Nat.lor acc (rangesBits r)) l

theorem beq_ones {acc n : Nat} (h : Nat.beq acc (Nat.sub (Nat.pow 2 n) 1) = true) : acc = 2 ^ n - 1 :=
  Nat.eq_of_beq_eq_true h

theorem partitions_cover {acc : Nat} {l : List (List (Nat × Nat))} (h : partitions acc l = true) {c : Nat}
    (hc : c < 0x110000) : acc.testBit c = true ∨ ∃ r ∈ l, inRanges r c := by
  induction l generalizing acc with
  | nil =>
    left
    rw [partitions] at h
    rw [beq_ones h, Nat.testBit_two_pow_sub_one]
    simpa using hc
  | cons r l ih =>
    rw [partitions, Bool.and_eq_true] at h
    rcases ih h.2 with h | ⟨r', h1, h2⟩
    · have e : Nat.lor acc (rangesBits r) = acc ||| rangesBits r := rfl
      rw [e, Nat.testBit_or, Bool.or_eq_true, testBit_rangesBits] at h
      rcases h with h | h
      · exact Or.inl h
      · exact Or.inr ⟨r, by simp, h⟩
    · exact Or.inr ⟨r', by simp [h1], h2⟩

theorem partitions_acc {acc : Nat} {l : List (List (Nat × Nat))} (h : partitions acc l = true) {c : Nat}
    (ha : acc.testBit c = true) {r : List (Nat × Nat)} (hr : r ∈ l) : ¬ inRanges r c := by
  induction l generalizing acc with
  | nil => cases hr
  | cons r' l ih =>
    rw [partitions, Bool.and_eq_true] at h
    intro hc
    rcases List.mem_cons.1 hr with k | k
    · subst k
      have e : acc &&& rangesBits r = 0 := Nat.eq_of_beq_eq_true h.1
      have : (acc &&& rangesBits r).testBit c = true := by
        rw [Nat.testBit_and, ha, (testBit_rangesBits r c).2 hc]; rfl
      rw [e] at this
      simp at this
    · refine ih h.2 ?_ k hc
      have e : Nat.lor acc (rangesBits r') = acc ||| rangesBits r' := rfl
      rw [e, Nat.testBit_or, ha]; rfl

theorem partitions_pairwise {acc : Nat} {l : List (List (Nat × Nat))} (h : partitions acc l = true) (c : Nat) :
    l.Pairwise fun r s => ¬ (inRanges r c ∧ inRanges s c) := by
  induction l generalizing acc with
  | nil => exact List.Pairwise.nil
  | cons r l ih =>
    rw [partitions, Bool.and_eq_true] at h
    refine List.Pairwise.cons (fun s hs k => ?_) (ih h.2)
    refine partitions_acc h.2 ?_ hs k.2
    have e : Nat.lor acc (rangesBits r) = acc ||| rangesBits r := rfl
    rw [e, Nat.testBit_or, (testBit_rangesBits r c).2 k.1, Bool.or_true]

theorem categories_partition : partitions 0 (categories.map Row.ranges) = true := by decide +kernel

end Ctre.Ucd
