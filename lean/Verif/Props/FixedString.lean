import Verif.Lemmas.FixedString

/-
C27: decoding of pattern literals.  The encoding forms are in Spec/Utf8.lean.
-/
namespace Ctre

/-- C27: a UTF-8 literal is decoded to the code points it encodes and found correct. -/
theorem C27_utf8 {s : List Nat} (hs : ∀ c ∈ s, IsScalar c) : fixedUtf8 (utf8Encode s) = { content := s, correct := true } :=
  litUtf8Loop_encode hs true _ (flatMap_length_ge utf8Of_length_pos s)

/-- C27: a UTF-16 literal is decoded to the code points it encodes and found correct. -/
theorem C27_utf16 {s : List Nat} (hs : ∀ c ∈ s, IsScalar c) : fixedUtf16 (utf16Encode s) = { content := s, correct := true } :=
  litUtf16Loop_encode hs _ (flatMap_length_ge utf16Of_length_pos s)

/-- C27: literals of the three Unicode encodings of one text are the same pattern; a `char` literal of ASCII characters
as well. -/
theorem C27_encodings_agree {s : List Nat} (hs : ∀ c ∈ s, IsScalar c) :
    fixedUtf8 (utf8Encode s) = fixedUtf32 s ∧ fixedUtf16 (utf16Encode s) = fixedUtf32 s ∧
    ((∀ c ∈ s, c < 256) → fixedNarrow (s.map fun c : Nat => if c < 128 then (c : Int) else c - 256) = fixedUtf32 s) := by
  refine ⟨C27_utf8 hs, C27_utf16 hs, fun h => ?_⟩
  simp only [fixedNarrow, fixedUtf32, List.map_map]
  congr 1
  conv => rhs; rw [← List.map_id s]
  apply List.map_congr_left
  intro c hc
  have := h c hc
  simp only [Function.comp_apply, id]
  split <;> omega

/-- C27: the decoded pattern is never longer than the literal, whatever its code units. -/
theorem C27_length (l : List Nat) :
    (fixedUtf8 l).content.length ≤ l.length ∧ (fixedUtf16 l).content.length ≤ l.length :=
  ⟨litUtf8Loop_length _ _ _, litUtf16Loop_length _ _⟩

/-- C27: a literal found incorrect encodes no text. -/
theorem C27_incorrect {l : List Nat} :
    ((fixedUtf8 l).correct = false → ¬ ∃ s : List Nat, (∀ c ∈ s, IsScalar c) ∧ l = utf8Encode s) ∧
    ((fixedUtf16 l).correct = false → ¬ ∃ s : List Nat, (∀ c ∈ s, IsScalar c) ∧ l = utf16Encode s) := by
  constructor
  · rintro h ⟨s, hs, rfl⟩; rw [C27_utf8 hs] at h; cases h
  · rintro h ⟨s, hs, rfl⟩; rw [C27_utf16 hs] at h; cases h

/-- C27: a UTF-8 literal is found correct exactly when its code units fall into sequences of a leading code unit with the
continuations it announces, where only the end may cut one off. -/
theorem C27_correct_utf8 {l : List Nat} (h : ∀ u ∈ l, u < 256) : (fixedUtf8 l).correct = true ↔ Sequences8 l := by
  rw [fixedUtf8, litUtf8Loop_correct _ _ _ (Nat.le_refl _) h]; simp

/-- C27: a UTF-16 literal is found correct exactly when no high surrogate is followed by anything but a low surrogate. -/
theorem C27_correct_utf16 {l : List Nat} (h : ∀ u ∈ l, u < 65536) : (fixedUtf16 l).correct = true ↔ Sequences16 l :=
  litUtf16Loop_correct _ _ (Nat.le_refl _) h

/-- C27: malformed literals may be accepted with another content: a truncated sequence, an overlong NUL, a surrogate,
a five byte sequence, and in UTF-16 an unpaired high surrogate at the end (dropped) and an unpaired low surrogate. -/
theorem C27_malformed_accepted :
    fixedUtf8 [0xC3] = ⟨[3], true⟩ ∧ fixedUtf8 [0xC0, 0x80] = ⟨[0], true⟩ ∧ fixedUtf8 [0xED, 0xA0, 0x80] = ⟨[0xD800], true⟩ ∧
    fixedUtf8 [0xF8, 0x88, 0x80, 0x80, 0x80] = ⟨[0x200000], true⟩ ∧
    fixedUtf16 [97, 0xD83D] = ⟨[97], true⟩ ∧ fixedUtf16 [0xDE00] = ⟨[0xDE00], true⟩ := by decide +kernel

/-- C27: `is_same_as` compares the decoded texts. -/
theorem C27_same (a b : FixedString) : a.isSameAs b = true ↔ a.content = b.content := by
  unfold FixedString.isSameAs
  by_cases h : a.content.length = b.content.length
  · rw [if_neg (by simpa using h), sameLoop_iff]
    constructor
    · intro H
      apply List.ext_getElem? 
      intro i
      by_cases hi : i < a.content.length
      · exact H i (Nat.zero_le _) (by omega)
      · rw [List.getElem?_eq_none (by omega), List.getElem?_eq_none (by omega)]
    · intro H j _ _; rw [H]
  · rw [if_pos (by simpa using h)]
    simp only [Bool.false_eq_true, false_iff]
    intro H; exact h (by rw [H])

-- a well-formed sequence before a cut one; a sequence with a wrong continuation
example : Sequences8 [0xC3, 0xA9, 0xE2, 0x82] ∧ (fixedUtf8 [0xC3, 0xA9, 0xE2, 0x82]).correct = true :=
  ⟨.seq (u := 0xC3) (t := [0xA9]) (l := [0xE2, 0x82]) rfl (by decide) (.cut (by decide) (by decide)), by decide +kernel⟩
example : ¬ Sequences8 [97, 0xC3, 98] := by
  rw [← C27_correct_utf8 (by decide)]; decide +kernel
example : Sequences16 [97, 0xD83D, 0xDE00, 0xDE00] ∧ ¬ Sequences16 [0xD83D, 98] := by
  rw [← C27_correct_utf16 (by decide), ← C27_correct_utf16 (by decide)]; decide +kernel

-- "aé€😀"
example : ∀ c ∈ [97, 0xE9, 0x20AC, 0x1F600], IsScalar c := by decide
example : utf8Encode [97, 0xE9, 0x20AC, 0x1F600] = [97, 0xC3, 0xA9, 0xE2, 0x82, 0xAC, 0xF0, 0x9F, 0x98, 0x80] ∧
    utf16Encode [97, 0xE9, 0x20AC, 0x1F600] = [97, 0xE9, 0x20AC, 0xD83D, 0xDE00] := by decide
example : fixedUtf8 [97, 0x80, 98] = ⟨[97], false⟩ ∧ fixedUtf16 [97, 0xD83D, 98, 99] = ⟨[97], false⟩ := by decide +kernel

end Ctre
