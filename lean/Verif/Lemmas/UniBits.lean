import Verif.Model.Unicode
import Mathlib.Data.Nat.Bitwise
/-
Sets of code points as bit maps: the bit map of a table of the Unicode database, and the proof that
looking a code point up is testing its bit.
-/
namespace Ctre.Ucd

/-! ### Concatenation of bit strings -/

/-- The low `k` bits of `a` followed by the bits of `b`. -/
def catHi (k a b : Nat) : Nat := Nat.lor (Nat.mod a (Nat.pow 2 k)) (Nat.shiftLeft b k)

/-- The words of `w` bits one after another. -/
def catWords (w : Nat) : List Nat → Nat
  | [] => 0
  | x :: xs => catHi w x (catWords w xs)

theorem testBit_catHi (k a b i : Nat) :
    (catHi k a b).testBit i = if i < k then a.testBit i else b.testBit (i - k) := by
  have h : catHi k a b = (a % 2 ^ k) ||| (b <<< k) := rfl
  rw [h, Nat.testBit_or, Nat.testBit_mod_two_pow, Nat.testBit_shiftLeft]
  by_cases hi : i < k
  · simp [hi]
  · simp [hi, Nat.le_of_not_lt hi]

theorem testBit_catWords {w : Nat} (hw : 0 < w) (l : List Nat) (i : Nat) :
    (catWords w l).testBit i = (l.getD (i / w) 0).testBit (i % w) := by
  induction l generalizing i with
  | nil => simp [catWords]
  | cons x xs ih =>
    rw [catWords, testBit_catHi]
    split
    · rename_i h
      rw [Nat.div_eq_of_lt h, Nat.mod_eq_of_lt h]
      rfl
    · rename_i h
      have hle : w ≤ i := Nat.le_of_not_lt h
      have hd : i / w = (i - w) / w + 1 := by
        conv_lhs => rw [show i = (i - w) + w by omega]
        rw [Nat.add_div_right _ hw]
      have hm : i % w = (i - w) % w := by
        conv_lhs => rw [show i = (i - w) + w by omega]
        rw [Nat.add_mod_right]
      rw [ih, hd, hm]
      rfl

/-! ### Tries -/

/-- `l` at position `f` of an array of `n` zeros. -/
def padded (f : Nat) (l : List Nat) (n : Nat) : List Nat :=
  List.replicate f 0 ++ l ++ List.replicate (n - (f + l.length)) 0

theorem length_padded {f n : Nat} {l : List Nat} (h : f + l.length ≤ n) : (padded f l n).length = n := by
  simp [padded]; omega

theorem getD_padded (f : Nat) (l : List Nat) (n i : Nat) :
    (padded f l n).getD i 0 = if f ≤ i ∧ i < f + l.length then l.getD (i - f) 0 else 0 := by
  rw [padded]
  simp only [List.getD_eq_getElem?_getD]
  by_cases h1 : i < f
  · rw [List.getElem?_append_left (by simp; omega), List.getElem?_append_left (by simpa using h1)]
    rw [if_neg (by omega)]
    simp [List.getElem?_replicate, h1]
  · by_cases h2 : i < f + l.length
    · rw [List.getElem?_append_left (by simp; omega), List.getElem?_append_right (by simp; omega)]
      rw [if_pos ⟨by omega, h2⟩]
      simp
    · rw [List.getElem?_append_right (by simp; omega), if_neg (by omega)]
      simp only [List.getElem?_replicate]
      split <;> rfl

/-- The words for the code points below 0x10000. -/
def lowWords (t : BoolTrie) : List Nat :=
  (if t.r1S = 0 then List.replicate 32 0 else t.r1) ++
    (if t.r3S = 0 then List.replicate 992 0 else (padded t.r2F t.r2 992).map (t.r3.getD · 0))

/-- The leaves of the two level part one after another. -/
def leafBits (t : BoolTrie) : Nat :=
  catWords 64 ((padded t.r5F t.r5 (64 * (t.r4.foldr Nat.max 0 + 1))).map (t.r6.getD · 0))

/-- The pages of 4096 code points above 0xFFFF. -/
def pages (t : BoolTrie) (L : Nat) : Nat :=
  catWords 4096 ((padded t.r4F t.r4 256).map fun child => Nat.shiftRight L (4096 * child))

/-- The code points in a trie. -/
def trieBits (t : BoolTrie) : Nat :=
  catHi 65536 (catWords 64 (lowWords t)) (if t.r6S = 0 then 0 else pages t (leafBits t))

/-- The arrays have the sizes the template parameters say and their entries are indices into the
arrays they point into. -/
def BoolTrie.ok (t : BoolTrie) : Bool :=
  (t.r1S == 0 || t.r1.length == 32) && t.r2.length == t.r2S && t.r3.length == t.r3S &&
    t.r4.length == t.r4S && t.r5.length == t.r5S && t.r6.length == t.r6S &&
    Nat.ble (t.r2F + t.r2S) 992 && Nat.ble (t.r4F + t.r4S) 256 && 
    Nat.ble (t.r5F + t.r5S) (64 * (t.r4.foldr Nat.max 0 + 1)) &&
    (t.r3S == 0 || t.r2.all fun x => Nat.blt x t.r3S) && (t.r6S == 0 || t.r5.all fun x => Nat.blt x t.r6S)

theorem leafBit_eq (c chunk : Nat) : leafBit c chunk = chunk.testBit (c % 64) := by
  rw [leafBit, show (63 : Nat) = 2 ^ 6 - 1 from rfl, Nat.and_two_pow_sub_one_eq_mod, Nat.testBit, Nat.and_comm]

theorem rd_of_lt {n i : Nat} (l : List Nat) (h : i < n) : rd n l i = some (l.getD i 0) := if_pos h

theorem le_foldr_max {x : Nat} {l : List Nat} (h : x ∈ l) : x ≤ l.foldr Nat.max 0 := by
  induction l with
  | nil => cases h
  | cons y l ih =>
    rcases List.mem_cons.1 h with h | h
    · subst h; exact Nat.le_max_left _ _
    · exact Nat.le_trans (ih h) (Nat.le_max_right _ _)

theorem getD_mem {l : List Nat} {i : Nat} (h : i < l.length) : l.getD i 0 ∈ l := by
  rw [List.getD_eq_getElem?_getD, List.getElem?_eq_getElem h]
  exact List.getElem_mem h

/-- What the inner nodes give for a code point: the word that holds its bit. -/
theorem lookup_high {t : BoolTrie} (ok : t.ok = true) (h6 : t.r6S ≠ 0) (c : Nat) (hc : ¬ c < 0x10000) :
    t.lookup c = some (((t.r6.getD
      ((padded t.r5F t.r5 (64 * (t.r4.foldr Nat.max 0 + 1))).getD
        (64 * ((padded t.r4F t.r4 256).getD (c / 4096 - 16) 0) + c / 64 % 64) 0) 0)).testBit (c % 64)) := by
  simp only [BoolTrie.ok, Bool.and_eq_true, beq_iff_eq, Bool.or_eq_true, List.all_eq_true, Nat.ble_eq,
    Nat.blt_eq] at ok
  obtain ⟨⟨⟨⟨⟨⟨⟨⟨⟨⟨_, h2⟩, h3⟩, h4⟩, h5⟩, h6'⟩, f2⟩, f4⟩, f5⟩, a2⟩, a5⟩ := ok
  have a5 := a5.resolve_left h6
  have e12 : c >>> 12 = c / 4096 := Nat.shiftRight_eq_div_pow _ _
  have e6 : c >>> 6 = c / 64 := Nat.shiftRight_eq_div_pow _ _
  have e63 : ∀ x : Nat, x &&& 0x3f = x % 64 := fun x => Nat.and_two_pow_sub_one_eq_mod x 6
  have esh : ∀ x : Nat, x <<< 6 = 64 * x := fun x => by rw [Nat.shiftLeft_eq]; omega
  rw [BoolTrie.lookup, if_neg (by omega), if_neg hc, if_neg h6]
  simp only [e12, e6, e63, esh]
  -- the first level
  have l4 : (if 0 < t.r4S ∧ t.r4F ≤ c / 4096 - 0x10 ∧ c / 4096 - 0x10 < t.r4F + t.r4S then
      rd t.r4S t.r4 (c / 4096 - 0x10 - t.r4F) else some 0) =
      some ((padded t.r4F t.r4 256).getD (c / 4096 - 16) 0) := by
    rw [getD_padded, h4]
    by_cases h : t.r4F ≤ c / 4096 - 16 ∧ c / 4096 - 16 < t.r4F + t.r4S
    · rw [if_pos ⟨by omega, h⟩, if_pos h, rd_of_lt _ (by omega)]
    · rw [if_neg (fun k => h k.2), if_neg h]
  rw [l4]
  simp only []
  generalize (padded t.r4F t.r4 256).getD (c / 4096 - 16) 0 = child
  have l5 : (if t.r5S ≠ 0 ∧ t.r5F ≤ 64 * child + c / 64 % 64 ∧ 64 * child + c / 64 % 64 < t.r5F + t.r5S then
      rd t.r5S t.r5 (64 * child + c / 64 % 64 - t.r5F) else some 0) =
      some ((padded t.r5F t.r5 (64 * (t.r4.foldr Nat.max 0 + 1))).getD (64 * child + c / 64 % 64) 0) := by
    rw [getD_padded, h5]
    by_cases h : t.r5F ≤ 64 * child + c / 64 % 64 ∧ 64 * child + c / 64 % 64 < t.r5F + t.r5S
    · rw [if_pos ⟨by omega, h⟩, if_pos h, rd_of_lt _ (by omega)]
    · rw [if_neg (fun k => h k.2), if_neg h]
  rw [l5]
  simp only []
  have hl : (padded t.r5F t.r5 (64 * (t.r4.foldr Nat.max 0 + 1))).getD (64 * child + c / 64 % 64) 0 < t.r6S := by
    rw [getD_padded]
    split
    · rename_i h
      exact a5 _ (getD_mem (by omega))
    · omega
  rw [rd_of_lt _ hl, Option.map_some, leafBit_eq]

theorem lookup_mid {t : BoolTrie} (ok : t.ok = true) (h3 : t.r3S ≠ 0) (c : Nat) (h : ¬ c < 0x800)
    (hc : c < 0x10000) :
    t.lookup c = some ((t.r3.getD ((padded t.r2F t.r2 992).getD (c / 64 - 32) 0) 0).testBit (c % 64)) := by
  simp only [BoolTrie.ok, Bool.and_eq_true, beq_iff_eq, Bool.or_eq_true, List.all_eq_true, Nat.ble_eq,
    Nat.blt_eq] at ok
  obtain ⟨⟨⟨⟨⟨⟨⟨⟨⟨⟨_, h2⟩, h3'⟩, h4⟩, h5⟩, h6'⟩, f2⟩, f4⟩, f5⟩, a2⟩, a5⟩ := ok
  have a2 := a2.resolve_left h3
  have e6 : c >>> 6 = c / 64 := Nat.shiftRight_eq_div_pow _ _
  rw [BoolTrie.lookup, if_neg h, if_pos hc, if_neg h3]
  simp only [e6]
  have l2 : (if t.r2F ≤ c / 64 - 0x20 ∧ c / 64 - 0x20 < t.r2F + t.r2S then
      rd t.r2S t.r2 (c / 64 - 0x20 - t.r2F) else some 0) =
      some ((padded t.r2F t.r2 992).getD (c / 64 - 32) 0) := by
    rw [getD_padded, h2]
    by_cases h : t.r2F ≤ c / 64 - 32 ∧ c / 64 - 32 < t.r2F + t.r2S
    · rw [if_pos h, if_pos h, rd_of_lt _ (by omega)]
    · rw [if_neg h, if_neg h]
  rw [l2]
  simp only []
  have hl : (padded t.r2F t.r2 992).getD (c / 64 - 32) 0 < t.r3S := by
    rw [getD_padded]
    split
    · rename_i h
      exact a2 _ (getD_mem (by omega))
    · omega
  rw [rd_of_lt _ hl, Option.map_some, leafBit_eq]

theorem getD_map_of_lt {f : Nat → Nat} {l : List Nat} {i : Nat} (h : i < l.length) :
    (l.map f).getD i 0 = f (l.getD i 0) := by
  rw [List.getD_eq_getElem?_getD, List.getD_eq_getElem?_getD, List.getElem?_map, List.getElem?_eq_getElem h]
  rfl

/-- Looking a code point up in a trie is testing its bit. -/
theorem lookup_trie {t : BoolTrie} (ok : t.ok = true) {c : Nat} (hc : c < 0x110000) :
    t.lookup c = some ((trieBits t).testBit c) := by
  have ok' := ok
  simp only [BoolTrie.ok, Bool.and_eq_true, beq_iff_eq, Bool.or_eq_true, List.all_eq_true, Nat.ble_eq,
    Nat.blt_eq] at ok'
  obtain ⟨⟨⟨⟨⟨⟨⟨⟨⟨⟨h1, h2⟩, h3⟩, h4⟩, h5⟩, h6⟩, f2⟩, f4⟩, f5⟩, a2⟩, a5⟩ := ok'
  have e6 : c >>> 6 = c / 64 := Nat.shiftRight_eq_div_pow _ _
  have hl1 : (if t.r1S = 0 then List.replicate 32 0 else t.r1).length = 32 := by
    split
    · simp
    · rename_i h; exact h1.resolve_left h
  rw [trieBits, testBit_catHi]
  by_cases hB : c < 65536
  · rw [if_pos hB, testBit_catWords (by omega), lowWords]
    by_cases hA : c < 0x800
    · rw [BoolTrie.lookup, if_pos hA]
      have : ((if t.r1S = 0 then List.replicate 32 0 else t.r1) ++
          (if t.r3S = 0 then List.replicate 992 0 else (padded t.r2F t.r2 992).map (t.r3.getD · 0))).getD (c / 64) 0 =
          (if t.r1S = 0 then List.replicate 32 0 else t.r1).getD (c / 64) 0 := by
        rw [List.getD_eq_getElem?_getD, List.getElem?_append_left (by omega), ← List.getD_eq_getElem?_getD]
      rw [this]
      split
      · rename_i h
        simp only [List.getD_eq_getElem?_getD, List.getElem?_replicate]
        split <;> simp
      · rename_i h
        rw [e6, rd_of_lt _ (by omega), Option.map_some, leafBit_eq]
    · have : ((if t.r1S = 0 then List.replicate 32 0 else t.r1) ++
          (if t.r3S = 0 then List.replicate 992 0 else (padded t.r2F t.r2 992).map (t.r3.getD · 0))).getD (c / 64) 0 =
          (if t.r3S = 0 then List.replicate 992 0 else (padded t.r2F t.r2 992).map (t.r3.getD · 0)).getD (c / 64 - 32) 0 := by
        rw [List.getD_eq_getElem?_getD, List.getElem?_append_right (by omega), hl1, ← List.getD_eq_getElem?_getD]
      rw [this]
      split
      · rename_i h
        rw [BoolTrie.lookup, if_neg hA, if_pos hB, if_pos h]
        simp only [List.getD_eq_getElem?_getD, List.getElem?_replicate]
        split <;> simp
      · rename_i h
        rw [lookup_mid ok h c hA hB, getD_map_of_lt (by rw [length_padded (by omega)]; omega)]
  · rw [if_neg hB]
    by_cases h : t.r6S = 0
    · rw [BoolTrie.lookup, if_neg (by omega), if_neg hB, if_pos h, if_pos h, Nat.zero_testBit]
    · rw [lookup_high ok h c hB, if_neg h, pages, testBit_catWords (by omega)]
      have e1 : (c - 65536) / 4096 = c / 4096 - 16 := by omega
      have e2 : (c - 65536) % 4096 = c % 4096 := by omega
      have hlen : (padded t.r4F t.r4 256).length = 256 := length_padded (by omega)
      have hsr : ∀ L x : Nat, Nat.shiftRight L x = L >>> x := fun _ _ => rfl
      rw [e1, e2, getD_map_of_lt (by omega), hsr, Nat.testBit_shiftRight, leafBits, testBit_catWords (by omega)]
      have hch : (padded t.r4F t.r4 256).getD (c / 4096 - 16) 0 ≤ t.r4.foldr Nat.max 0 := by
        rw [getD_padded]
        split
        · exact le_foldr_max (getD_mem (by omega))
        · omega
      generalize (padded t.r4F t.r4 256).getD (c / 4096 - 16) 0 = child at hch ⊢
      have e3 : (4096 * child + c % 4096) / 64 = 64 * child + c / 64 % 64 := by omega
      have e4 : (4096 * child + c % 4096) % 64 = c % 64 := by omega
      rw [e3, e4, getD_map_of_lt]
      rw [length_padded (by omega)]
      have := Nat.mod_lt (c / 64) (show 0 < 64 by omega)
      generalize t.r4.foldr Nat.max 0 = M at hch ⊢
      omega

/-- A look-up in a trie reads inside its arrays, whatever the character. -/
theorem lookup_trie_some {t : BoolTrie} (ok : t.ok = true) (c : Nat) : ∃ b, t.lookup c = some b := by
  by_cases hB : c < 0x10000
  · exact ⟨_, lookup_trie ok (by omega)⟩
  · by_cases h : t.r6S = 0
    · exact ⟨false, by rw [BoolTrie.lookup, if_neg (by omega), if_neg hB, if_pos h]⟩
    · exact ⟨_, lookup_high ok h c hB⟩

end Ctre.Ucd
