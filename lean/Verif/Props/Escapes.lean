import Verif.Lemmas.Spelling
import Verif.Lemmas.Literal
import Verif.Lemmas.Classes
import Verif.Spec.Runs

/-
C33: escape sequences denote their characters.
-/
namespace Ctre
open Parse Surface

theorem char_match (P : PropTable) {c : Char1} (h : c.WF special) {v : Nat} (hv : charTree c = v) (hb : v < 2147483648) :
    ∃ r, build P c.print = .pattern r ∧ ∀ (C : Cfg) (s : List Ch) (f : Flags), (∀ v ∈ s, IsCh v) →
      ∃ x, Returns (fun n => cMatch C n s f r) (.done x) ∧ (x.whole.matched = true ↔ IsText f.ci [v] s) := by
  refine ⟨_, char_build h, fun C s f hs => ?_⟩
  subst hv
  have hp : ∀ c' ∈ [charTree c], c' < 2147483648 := by simpa using hb
  rcases attemptFull_lit C (n := 0) hs hp f with ⟨h1, h2⟩ | ⟨h1, h2⟩
  · exact ⟨{ whole := ⟨some 0, some s.length, true⟩ }, ⟨by simp, 5, by
      simp only [litTree] at h2
      simp only [cMatch, matchAt, h2, Out.toExec]⟩, by simp [h1]⟩
  · refine ⟨initCaps (litTree [charTree c]), ⟨by simp, 5, by
      simp only [litTree] at h2
      simp only [cMatch, matchAt, h2, Out.toExec, litTree]⟩, ?_⟩
    simp [h1, litTree_captures]

/-- C33: a single character, however it is written, is a pattern that matches exactly the text consisting of this
character (up to ASCII case under the case-insensitive flag). -/
theorem C33_char (P : PropTable) {c : Char1} (h : c.WF special) (hf : c.Faithful) (hb : c.code < 2147483648) :
    ∃ r, build P c.print = .pattern r ∧ ∀ (C : Cfg) (s : List Ch) (f : Flags), (∀ v ∈ s, IsCh v) →
      ∃ x, Returns (fun n => cMatch C n s f r) (.done x) ∧ (x.whole.matched = true ↔ IsText f.ci [c.code] s) :=
  char_match P h (charTree_eq hf) hb

example : (Char1.u [49, 70, 54, 48, 48]).WF special ∧ (Char1.u [49, 70, 54, 48, 48]).Faithful ∧
    (Char1.u [49, 70, 54, 48, 48]).code = 0x1F600 := by
  simp only [Char1.WF, Char1.Faithful, Char1.code, isHex, isDec]
  decide

/-- C33: `\a \f \n \r \t \0` are the characters 7, 12, 10, 13, 9 and 0. -/
theorem C33_controls (P : PropTable) : ∀ e ∈ ([(97, 7), (102, 12), (110, 10), (114, 13), (116, 9), (48, 0)] : List (Nat × Nat)),
    ∃ r, build P [92, e.1] = .pattern r ∧ ∀ (C : Cfg) (s : List Ch) (f : Flags), (∀ v ∈ s, IsCh v) →
      ∃ x, Returns (fun n => cMatch C n s f r) (.done x) ∧ (x.whole.matched = true ↔ IsText f.ci [e.2] s) := by
  intro e he
  refine char_match P (c := .control e.1) ?_ ?_ ?_
  · revert e; simp only [Char1.WF]; decide
  · revert e; decide
  · revert e; decide

/-- C33: a backslash in front of one of `$ ( ) * + - . / < > ? [ \ " ] ^ { | }` gives this character. -/
theorem C33_punctuation (P : PropTable) : ∀ v ∈ escapable,
    ∃ r, build P [92, v] = .pattern r ∧ ∀ (C : Cfg) (s : List Ch) (f : Flags), (∀ v ∈ s, IsCh v) →
      ∃ x, Returns (fun n => cMatch C n s f r) (.done x) ∧ (x.whole.matched = true ↔ IsText f.ci [v] s) := by
  intro v hv
  refine char_match P (c := .escaped v) hv rfl ?_
  revert v; decide

/-- C33 in a set: an item of `[...]` or `[^...]` that is a single character, however it is written, adds exactly this
character (up to ASCII case under the case-insensitive flag) to what the other items match. -/
theorem C33_set (P : PropTable) {neg : Bool} {l₁ l₂ : List SetItem} {c : Char1} (h : SetWF P.find neg (l₁ ++ .one c :: l₂))
    (hf : ∀ i ∈ l₁ ++ .one c :: l₂, i.Faithful) (hb : c.code < 2147483648) :
    ∃ r, build P ([91] ++ (if neg then [94] else []) ++ printItems (l₁ ++ .one c :: l₂) ++ [93]) = .pattern r ∧
      ∀ (C : Cfg) (f : Flags) (v : Ch), IsCh v →
        ∃ x, Returns (fun n => cMatch C n [v] f r) (.done x) ∧
          (x.whole.matched = true ↔ ((IsText f.ci [c.code] [v] ∨ ∃ i ∈ l₁ ++ l₂, i.has C.uni f.ci v) ↔ neg = false)) := by
  refine ⟨_, set_build h, fun C f v hv => ?_⟩
  obtain ⟨x, h1, h2⟩ := match_one (C := C) (f := f) (cl := setTree neg (l₁ ++ .one c :: l₂)) (v := v)
  refine ⟨x, h1, h2.trans ?_⟩
  rw [setTree_match hf]
  refine iff_congr ?_ Iff.rfl
  have : (CC.chr c.code).matchChar C.uni f.ci v = true ↔ IsText f.ci [c.code] [v] := by
    rw [isText_cons (by simpa using hv) hb]
    simp [isText_nil, CC.matchChar]
  simp only [List.mem_append, List.mem_cons, ← this]
  constructor
  · rintro ⟨i, hi | rfl | hi, h⟩
    · exact .inr ⟨i, .inl hi, h⟩
    · exact .inl h
    · exact .inr ⟨i, .inr hi, h⟩
  · rintro (h | ⟨i, hi | hi, h⟩)
    · exact ⟨_, .inr (.inl rfl), h⟩
    · exact ⟨i, .inl hi, h⟩
    · exact ⟨i, .inr (.inr hi), h⟩

/-- `[a-c\n\]]` -/
example : SetWF (PropTable.find {}) false ([.range (.plain 97) (.plain 99)] ++ .one (.control 110) :: [.one (.escaped 93)]) ∧
    (∀ i ∈ [SetItem.range (.plain 97) (.plain 99)] ++ .one (.control 110) :: [.one (.escaped 93)], i.Faithful) := by
  simp [SetWF, SetItem.WF, Char1.WF, specialInSet, escapable, SetItem.Faithful, Char1.Faithful]

/-- C33 in a set, spelled out for the control characters: `[\n]` matches the newline, `[^\n]` everything else. -/
theorem C33_set_controls (P : PropTable) (neg : Bool) :
    ∀ e ∈ ([(97, 7), (102, 12), (110, 10), (114, 13), (116, 9), (48, 0)] : List (Nat × Nat)),
      ∃ r, build P (if neg then [91, 94, 92, e.1, 93] else [91, 92, e.1, 93]) = .pattern r ∧
        ∀ (C : Cfg) (f : Flags) (v : Ch), IsCh v →
          ∃ x, Returns (fun n => cMatch C n [v] f r) (.done x) ∧ (x.whole.matched = true ↔ (v = (e.2 : Int) ↔ neg = false)) := by
  intro e he
  have h97 : e.1 ∈ [97, 101, 102, 110, 114, 116, 48] ∧ e.1 ≠ 101 ∧ (Char1.control e.1).code = e.2 ∧ e.2 < 65 := by
    revert e; decide
  have hwf : SetWF P.find neg ([] ++ .one (.control e.1) :: []) := by
    have := h97.1
    cases neg <;> simp only [SetWF, List.nil_append, SetItem.WF, Char1.WF] <;> exact ⟨this, by simp⟩
  have hfa : ∀ i ∈ [] ++ SetItem.one (.control e.1) :: [], i.Faithful := by
    have := h97.2.1
    simpa [SetItem.Faithful, Char1.Faithful] using this
  have hcode := h97.2.2.1
  obtain ⟨r, h1, h2⟩ := C33_set P hwf hfa (by rw [hcode]; omega)
  refine ⟨r, ?_, fun C f v hv => ?_⟩
  · rw [← h1]; cases neg <;> simp [printItems, SetItem.print, Char1.print]
  · obtain ⟨x, h3, h4⟩ := h2 C f v hv
    refine ⟨x, h3, h4.trans (iff_congr ?_ Iff.rfl)⟩
    rw [hcode]
    have hlow : ∀ w : Int, lowerCase w = (e.2 : Int) ↔ w = e.2 := by
      intro w
      have := h97.2.2.2
      unfold lowerCase
      split <;> omega
    have hlow' : lowerCase (e.2 : Int) = e.2 := (hlow _).2 rfl
    unfold IsText
    cases f.ci <;> simp [SameLetters, hlow, hlow']

/-- C33 in any context: two patterns that differ only in the spelling of single characters (and of numbers) are the same
pattern: `\n` may be replaced by `\x0A`, `a` by `\x61`, `\{` by `\x{7B}`, anywhere. -/
theorem C33_spelling (P : PropTable) {b b' : Body} (h : b.WF P.find 0) (h' : b'.WF P.find 0) (he : b.SameUpToSpelling b') :
    build P b.print = build P b'.print := by
  rw [build_print h, build_print h', ← bodyTree_plainly b, ← bodyTree_plainly b', he]

/-- `(\n[\t-a])` and `(\x{A}[\x09-a])` -/
example :
    let b : Body := .alt (.one (.one (.cap 1 (.alt (.one (.cons (.ch (.control 110)) .none
      (.one (.set false [.range (.control 116) (.plain 97)]) .none))))) .none))
    let b' : Body := .alt (.one (.one (.cap 1 (.alt (.one (.cons (.ch (.x [65])) .none
      (.one (.set false [.range (.x2 48 57) (.u4 48 48 54 49)]) .none))))) .none))
    b.WF (PropTable.find {}) 0 ∧ b'.WF (PropTable.find {}) 0 ∧ b.SameUpToSpelling b' ∧ b.print ≠ b'.print := by
  refine ⟨?_, ?_, rfl, by decide⟩ <;>
  simp [Body.WF, Alt.WF, Cat.WF, Atom.WF, SetWF, SetItem.WF, Char1.WF, specialInSet, Quant.WF, isHex, isDec, hexadecimal, hexDigit]

/-- C33 fails for `\e`: it matches the character 0x14 and nothing else, in particular not the escape character 0x1B. -/
theorem C33_fails_escape (P : PropTable) :
    ∃ r, build P [92, 101] = .pattern r ∧ ∀ (C : Cfg) (s : List Ch) (f : Flags), (∀ v ∈ s, IsCh v) →
      ∃ x, Returns (fun n => cMatch C n s f r) (.done x) ∧ (x.whole.matched = true ↔ s = [0x14]) := by
  obtain ⟨r, h1, h2⟩ := char_match P (c := .control 101) (v := 0x14) (by simp [Char1.WF]) rfl (by decide)
  refine ⟨r, h1, fun C s f hs => ?_⟩
  obtain ⟨x, h3, h4⟩ := h2 C s f hs
  refine ⟨x, h3, h4.trans ?_⟩
  unfold IsText
  cases f.ci with
  | false => simp
  | true =>
    have hlow : ∀ w : Int, lowerCase w = 20 ↔ w = 20 := by
      intro w
      unfold lowerCase
      split <;> omega
    cases s with
    | nil => simp [SameLetters]
    | cons v s => simp [SameLetters, hlow, show lowerCase 20 = 20 from rfl]

end Ctre
