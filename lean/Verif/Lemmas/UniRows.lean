import Verif.Lemmas.UniSearch
import Verif.Spec.Ucd
/-
Sets of code points given by ranges, and the segments of the step tables.
-/
namespace Ctre.Ucd
open Unicode14

/-! ### Ranges -/

/-- The code points of a range. -/
def spanBits (a b : Nat) : Nat := Nat.shiftLeft (Nat.sub (Nat.pow 2 (b + 1 - a)) 1) a

/-- The code points of some ranges and of `acc`. -/
def rangesBitsFrom : Nat → List (Nat × Nat) → Nat
  | acc, [] => acc
  | acc, r :: l => rangesBitsFrom (Nat.lor acc (spanBits r.1 r.2)) l

/-- The code points of some ranges. -/
def rangesBits (l : List (Nat × Nat)) : Nat := rangesBitsFrom 0 l

theorem testBit_spanBits (a b c : Nat) : (spanBits a b).testBit c = decide (a ≤ c ∧ c ≤ b) := by
  have e : spanBits a b = (2 ^ (b + 1 - a) - 1) <<< a := rfl
  rw [e, Nat.testBit_shiftLeft, Nat.testBit_two_pow_sub_one, Bool.eq_iff_iff]
  simp only [ge_iff_le, Bool.and_eq_true, decide_eq_true_eq]
  omega

instance (l : List (Nat × Nat)) (c : Nat) : Decidable (inRanges l c) :=
  decidable_of_iff (∃ r, r ∈ l ∧ r.1 ≤ c ∧ c ≤ r.2) Iff.rfl

theorem inRanges_nil (c : Nat) : ¬ inRanges [] c := fun ⟨_, h, _⟩ => by cases h

theorem inRanges_cons (r : Nat × Nat) (l : List (Nat × Nat)) (c : Nat) :
    inRanges (r :: l) c ↔ (r.1 ≤ c ∧ c ≤ r.2) ∨ inRanges l c := by
  simp [inRanges]

theorem inRanges_append (a b : List (Nat × Nat)) (c : Nat) :
    inRanges (a ++ b) c ↔ inRanges a c ∨ inRanges b c := by
  simp only [inRanges, List.mem_append]
  constructor
  · rintro ⟨r, h | h, k⟩
    · exact Or.inl ⟨r, h, k⟩
    · exact Or.inr ⟨r, h, k⟩
  · rintro (⟨r, h, k⟩ | ⟨r, h, k⟩)
    · exact ⟨r, Or.inl h, k⟩
    · exact ⟨r, Or.inr h, k⟩

theorem testBit_rangesBitsFrom (acc : Nat) (l : List (Nat × Nat)) (c : Nat) :
    (rangesBitsFrom acc l).testBit c = true ↔ acc.testBit c = true ∨ inRanges l c := by
  induction l generalizing acc with
  | nil => simp [rangesBitsFrom, inRanges_nil]
  | cons r l ih =>
    rw [rangesBitsFrom, ih]
    have e : Nat.lor acc (spanBits r.1 r.2) = acc ||| spanBits r.1 r.2 := rfl
    rw [e, Nat.testBit_or, testBit_spanBits, inRanges_cons]
    simp [or_assoc]

theorem testBit_rangesBits (l : List (Nat × Nat)) (c : Nat) :
    (rangesBits l).testBit c = true ↔ inRanges l c := by
  rw [rangesBits, testBit_rangesBitsFrom]
  simp

/-! ### Look-ups and sets -/

/-- A look-up finds exactly the members of a set, for every code point. -/
def Is (f : Nat → Option Bool) (p : Nat → Prop) : Prop :=
  ∀ c, c < 0x110000 → ∃ b, f c = some b ∧ (b = true ↔ p c)

theorem Is.iff {f : Nat → Option Bool} {p q : Nat → Prop} (h : Is f p) (e : ∀ c, c < 0x110000 → (p c ↔ q c)) :
    Is f q := fun c hc => by
  obtain ⟨b, h1, h2⟩ := h c hc
  exact ⟨b, h1, h2.trans (e c hc)⟩

theorem Is.of_bits {f : Nat → Option Bool} {B : Nat} {l : List (Nat × Nat)}
    (h : ∀ c, c < 0x110000 → f c = some (B.testBit c)) (e : Nat.beq B (rangesBits l) = true) :
    Is f (inRanges l) := fun c hc => by
  have e := Nat.eq_of_beq_eq_true e
  refine ⟨_, h c hc, ?_⟩
  rw [e, testBit_rangesBits]

/-- A trie whose bit map is that of the ranges. -/
theorem is_trie {t : BoolTrie} {l : List (Nat × Nat)} (ok : t.ok = true)
    (e : Nat.beq (trieBits t) (rangesBits l) = true) : Is t.lookup (inRanges l) :=
  Is.of_bits (fun _ hc => lookup_trie ok hc) e

theorem is_ranges {d : List Nat} {l : List (Nat × Nat)} (ok : stepsOk d = true)
    (e : Nat.beq (runBits 0 false d) (rangesBits l) = true) : Is (rangeLookup d) (inRanges l) :=
  Is.of_bits (fun c _ => lookup_ranges ok c) e

theorem is_flat {t : FlatArray} {l : List (Nat × Nat)} (e : Nat.beq (flatBits t) (rangesBits l) = true) :
    Is t.lookup (inRanges l) :=
  Is.of_bits (fun c _ => lookup_flat t c) e

theorem Is.or {f g : Nat → Option Bool} {p q : Nat → Prop} (hf : Is f p) (hg : Is g q) :
    Is (fun c => orB (f c) (g c)) (fun c => p c ∨ q c) := fun c hc => by
  obtain ⟨b, h1, h2⟩ := hf c hc
  obtain ⟨b', h3, h4⟩ := hg c hc
  refine ⟨b || b', ?_, ?_⟩
  · dsimp only
    rw [h1, h3]
    cases b <;> rfl
  · rw [Bool.or_eq_true, h2, h4]

theorem Is.andNot {f g : Nat → Option Bool} {p q : Nat → Prop} (hf : Is f p) (hg : Is g q) :
    Is (fun c => Ucd.andNot (f c) (g c)) (fun c => p c ∧ ¬ q c) := fun c hc => by
  obtain ⟨b, h1, h2⟩ := hf c hc
  obtain ⟨b', h3, h4⟩ := hg c hc
  refine ⟨b && !b', ?_, ?_⟩
  · dsimp only
    rw [h1, h3]
    cases b <;> rfl
  · dsimp only
    rw [Bool.and_eq_true, h2, ← h4]
    cases b' <;> simp

theorem is_anyOf_nil : Is (anyOf []) (fun _ => False) := fun _ _ => ⟨false, rfl, by simp⟩

theorem is_anyOf_cons {t : Table} {l : List Table} {p q : Nat → Prop} (h : Is t.lookup p) (h' : Is (anyOf l) q) :
    Is (anyOf (t :: l)) (fun c => p c ∨ q c) := Is.or h h'

/-! ### Segments of a step table -/

/-- The segments of a step table: first code point, first code point behind, and a value computed
from the index and the entry. -/
def segs (f : Nat → Nat → Nat) : Nat → List Nat → List (Nat × Nat × Nat)
  | i, v :: w :: l => (key v, key w, f i v) :: segs f (i + 1) (w :: l)
  | _, _ => []

theorem mem_segs {f : Nat → Nat → Nat} {i : Nat} {d : List Nat} {s : Nat × Nat × Nat} :
    s ∈ segs f i d ↔ ∃ j, j + 1 < d.length ∧ s = (key (d.getD j 0), key (d.getD (j + 1) 0), f (i + j) (d.getD j 0)) := by
  induction d generalizing i with
  | nil => simp [segs]
  | cons v l ih =>
    cases l with
    | nil => simp [segs]
    | cons w l =>
      rw [segs, List.mem_cons, ih]
      constructor
      · rintro (h | ⟨j, h1, h2⟩)
        · exact ⟨0, by simp, by simpa using h⟩
        · refine ⟨j + 1, by simpa using h1, ?_⟩
          rw [h2]
          simp only [List.getD_cons_succ]
          rw [show i + (j + 1) = i + 1 + j by omega]
      · rintro ⟨j, h1, h2⟩
        cases j with
        | zero => left; simpa using h2
        | succ j =>
          right
          refine ⟨j, by simpa using h1, ?_⟩
          rw [h2]
          simp only [List.getD_cons_succ]
          rw [show i + (j + 1) = i + 1 + j by omega]

/-- The code points with value `x`, as ranges. -/
def rangesOf (x : Nat) (l : List (Nat × Nat × Nat)) : List (Nat × Nat) :=
  (l.filter fun s => Nat.beq s.2.2 x && Nat.blt s.1 s.2.1).map fun s => (s.1, Nat.min (s.2.1 - 1) 0x10FFFF)

/-- The segment a code point is in is the entry in front of the upper bound. -/
theorem seg_iff {d : List Nat} (hs : stepsOk d = true) (f : Nat → Nat → Nat) (c x : Nat) (hc : c < 0x110000) :
    inRanges (rangesOf x (segs f 0 d)) c ↔
      ∃ i, beforeUpper d c = some (some i) ∧ f i (d.getD i 0) = x := by
  have hle : ∀ b : Nat, c ≤ Nat.min (b - 1) 0x10FFFF ↔ c ≤ b - 1 := by
    intro b
    have : Nat.min (b - 1) 0x10FFFF = min (b - 1) 0x10FFFF := rfl
    rw [this]; omega
  have hbu := beforeUpper_spec hs c
  have hso := stepsOk_sorted hs
  constructor
  · rintro ⟨r, hr, h1, h2⟩
    simp only [rangesOf, List.mem_map, List.mem_filter] at hr
    obtain ⟨s, ⟨hm, hx⟩, rfl⟩ := hr
    obtain ⟨j, hj, e⟩ := mem_segs.1 hm
    rw [Bool.and_eq_true, Nat.blt_eq] at hx
    obtain ⟨hx, hlt⟩ := hx
    have hx := Nat.eq_of_beq_eq_true hx
    rw [hle] at h2
    rw [e] at h1 h2 hx hlt
    simp only [Nat.zero_add] at h1 h2 hx hlt
    have hk : key (d.getD j 0) ≤ key (d.getD (j + 1) 0) := sortedFrom_mono hso (by omega) hj
    rcases hbu with ⟨hb, hn⟩ | ⟨i, hb, hi, k1, k2, _⟩
    · exfalso
      obtain ⟨r, e2, h0, hr1, hr2, hr3⟩ := upperBound_spec hs c
      rw [beforeUpper, e2] at hb
      simp only [] at hb
      by_cases hl : r = d.length
      · have := hr2 (j + 1) (by omega)
        omega
      · rw [if_neg hl, if_neg (by omega)] at hb
        simp at hb
    · refine ⟨i, hb, ?_⟩
      have hij : i = j := by
        rcases Nat.lt_trichotomy i j with h | h | h
        · have := sortedFrom_mono hso (show i + 1 ≤ j by omega) (by omega)
          omega
        · exact h
        · have := sortedFrom_mono hso (show j + 1 ≤ i by omega) (by omega)
          omega
      rw [hij]; exact hx
  · rintro ⟨i, hb, hx⟩
    rcases hbu with ⟨hb', _⟩ | ⟨i', hb', hi, k1, k2, _⟩
    · rw [hb] at hb'; simp at hb'
    · rw [hb] at hb'
      simp only [Option.some.injEq] at hb'
      subst hb'
      refine ⟨(key (d.getD i 0), Nat.min (key (d.getD (i + 1) 0) - 1) 0x10FFFF), ?_, k1, (hle _).2 (by omega)⟩
      simp only [rangesOf, List.mem_map, List.mem_filter]
      refine ⟨(key (d.getD i 0), key (d.getD (i + 1) 0), f i (d.getD i 0)), ⟨?_, ?_⟩, rfl⟩
      · exact mem_segs.2 ⟨i, hi, by simp⟩
      · rw [Bool.and_eq_true, Nat.blt_eq]
        exact ⟨by simp only [hx]; exact Nat.beq_refl x, by simp only []; omega⟩

end Ctre.Ucd
