import Verif.Spec.Semantics
import Verif.Spec.Assert
import Verif.Lemmas.Assert
import Verif.Model.Wrapper

/-
C16, C17, C18: backreferences, anchors, dot and word boundaries.

Every statement describes one element of a pattern followed by an arbitrary rest `t`: when the condition
holds, the outcome is that of the rest; when it does not, the attempt fails here.
-/
namespace Ctre

variable {C : Cfg} {s : List Ch} {lb : Bool} {cur : Nat} {f : Flags} {c : Caps} {t : Stack} {o : Out}

/-! ### C17 -/

/-- C17: `\A` holds exactly at the beginning of the subject. -/
theorem C17_subject_begin : Asserts .sBegin fun _ _ cur _ => cur = 0 := asserts_of rfl

/-- C17: `\z` holds exactly at the end of the subject. -/
theorem C17_subject_end : Asserts .sEnd fun _ s cur _ => cur = s.length := asserts_of rfl

/-- C17: `\Z` holds exactly at the end or, in multiline mode, before a newline that ends the subject. -/
theorem C17_subject_end_line : Asserts .sEndLine fun _ s cur f =>
    cur = s.length ∨ (f.ml = true ∧ s[cur]? = some 10 ∧ cur + 1 = s.length) := asserts_of rfl

/-- C17: `^` holds exactly at the beginning or, in multiline mode, after a newline. -/
theorem C17_line_begin : Asserts .lBegin fun _ s cur f =>
    cur = 0 ∨ (f.ml = true ∧ s[cur - 1]? = some 10) := asserts_of rfl

/-- C17: `$` holds exactly at the end or, in multiline mode, before a newline. -/
theorem C17_line_end : Asserts .lEnd fun _ s cur f =>
    cur = s.length ∨ (f.ml = true ∧ s[cur]? = some 10) := asserts_of rfl

/-- C17: `.` takes any one character, except a newline in multiline mode. -/
theorem C17_dot (hp : cur ≤ s.length) : Runs C s lb cur f c (.re .any :: t) o ↔
    (∃ v, s[cur]? = some v ∧ ¬ (f.ml = true ∧ v = 10) ∧ Runs C s lb (cur + 1) (f.consumed true) c t o) ∨
    ((cur = s.length ∨ (f.ml = true ∧ s[cur]? = some 10)) ∧ o = .fail) := by
  by_cases he : s.length = cur
  · rw [runs_of_end (o' := .fail) (by simp) fun n => by rw [eval_any, if_pos he.symm]]
    simp [he]
  · have hlt : cur < s.length := by omega
    have hv : s[cur]? = some s[cur] := List.getElem?_eq_getElem hlt
    by_cases hnl : f.ml = true ∧ s[cur] = 10
    · rw [runs_of_end (o' := .fail) (by simp) fun n => by
        rw [eval_any, if_neg fun h => he h.symm]; simp [hv, hnl.1, hnl.2]]
      have h10 : s[cur]? = some 10 := by rw [hv, hnl.2]
      simp [h10, hnl.1]
    · rw [runs_of_step (o := o) (s' := s) (lb' := lb) (cur' := cur + 1) (f' := f.consumed true) (c' := c) (st' := t)
        fun n => by
          rw [eval_any, if_neg fun h => he h.symm]
          by_cases hml : f.ml = true
          · have : ¬ s[cur] = 10 := fun h => hnl ⟨hml, h⟩
            simp [hv, hml, this]
          · simp [hml]]
      constructor
      · intro h
        exact .inl ⟨_, hv, hnl, h⟩
      · rintro (⟨v, _, _, h⟩ | ⟨h | ⟨h1, h2⟩, _⟩)
        · exact h
        · omega
        · rw [hv] at h2
          exact absurd ⟨h1, by simpa using h2⟩ hnl

/-! ### C18 -/

/-- C18: `\b` holds exactly where one neighbour is a word character and the other is not; a missing
neighbour is not a word character. -/
theorem C18_word_boundary : Asserts (.boundary wordChars) fun _ s cur _ =>
    ¬ ((0 < cur ∧ wordAt s (cur - 1)) ↔ wordAt s cur) := by
  have h := asserts_of (r := .boundary wordChars) rfl
  intro C s lb cur f c t o hp
  have := h C s lb cur f c t o hp
  simpa only [Holds, atBoundary, MState.start, inClass_wordChars] using this

/-- C18, what the parsed `\B` means: one neighbour exists and is not a word character, and the other is
a word character or missing. -/
theorem C18_not_boundary_meaning : Asserts (.boundary (.negSet [wordChars])) fun _ s cur _ =>
    ¬ ((0 < cur ∧ cur - 1 < s.length ∧ ¬ wordAt s (cur - 1)) ↔ (cur < s.length ∧ ¬ wordAt s cur)) := by
  have h := asserts_of (r := .boundary (.negSet [wordChars])) rfl
  intro C s lb cur f c t o hp
  have := h C s lb cur f c t o hp
  have hneg : ∀ i, inClass C.uni f.ci s i (.negSet [wordChars]) ↔ (i < s.length ∧ ¬ wordAt s i) := by
    intro i
    constructor
    · rintro ⟨v, h1, h2⟩
      refine ⟨(List.getElem?_eq_some_iff.1 h1).1, fun h3 => ?_⟩
      obtain ⟨w, h4, h5⟩ := inClass_wordChars (U := C.uni) (ci := f.ci).2 h3
      rw [h1] at h4
      simp only [Option.some.injEq] at h4
      subst h4
      simp only [CC.matchChar, CC.matchAny, Bool.not_eq_true', h5, Bool.true_or] at h2
      simp at h2
    · rintro ⟨h1, h2⟩
      have hv : s[i]? = some s[i] := List.getElem?_eq_getElem h1
      refine ⟨s[i], hv, ?_⟩
      have : ¬ CC.matchChar C.uni f.ci s[i] wordChars = true := fun h3 =>
        h2 (inClass_wordChars (U := C.uni) (ci := f.ci).1 ⟨_, hv, h3⟩)
      simp only [CC.matchChar, CC.matchAny]
      simpa using this
  simpa only [Holds, atBoundary, MState.start, hneg] using this

/-- C18, the defect: at every position inside the subject the parsed `\B` succeeds exactly where `\b`
does. -/
theorem C18_fails_not_boundary_equals_boundary (h0 : 0 < cur) (h1 : cur < s.length) :
    Runs C s lb cur f c (.re (.boundary (.negSet [wordChars])) :: t) o ↔
      Runs C s lb cur f c (.re (.boundary wordChars) :: t) o := by
  rw [C18_not_boundary_meaning C s lb cur f c t o (by omega), C18_word_boundary C s lb cur f c t o (by omega)]
  have h2 : cur - 1 < s.length := by omega
  have h3 : (¬ wordAt s (cur - 1) ↔ ¬ wordAt s cur) ↔ (wordAt s (cur - 1) ↔ wordAt s cur) := by
    by_cases h4 : wordAt s (cur - 1) <;> by_cases h5 : wordAt s cur <;> simp [h4, h5]
  simp only [h0, h1, h2, true_and, h3]

/-- C18, the defect on the empty subject: neither `\b` nor the parsed `\B` holds. -/
theorem C18_fails_on_empty_subject :
    Runs C [] lb 0 f c (.re (.boundary (.negSet [wordChars])) :: t) .fail ∧
    Runs C [] lb 0 f c (.re (.boundary wordChars) :: t) .fail := by
  rw [C18_not_boundary_meaning C [] lb 0 f c t .fail (by simp), C18_word_boundary C [] lb 0 f c t .fail (by simp)]
  simp [wordAt]

/-- The tree node `not_boundary`, which the parser never builds, is the complement of `\b`. -/
theorem C18_not_boundary_node : Asserts (.notBoundary wordChars) fun _ s cur _ =>
    ((0 < cur ∧ wordAt s (cur - 1)) ↔ wordAt s cur) := by
  have h := asserts_of (r := .notBoundary wordChars) rfl
  intro C s lb cur f c t o hp
  have := h C s lb cur f c t o hp
  simpa only [Holds, atBoundary, MState.start, inClass_wordChars, Classical.not_not] using this

/-! ### C16 -/


/-- C16: a backreference to a captured group takes exactly the captured text, and fails if the subject
does not go on with that text. -/
theorem C16_backreference {id b e : Nat} (hp : cur ≤ s.length) (hbe : b ≤ e) (he : e ≤ s.length)
    (hg : c.get id = some ⟨some b, some e, true⟩) :
    Runs C s false cur f c (.re (.bref id) :: t) o ↔
      (text s cur (cur + (e - b)) = text s b e ∧
        Runs C s false (cur + (e - b)) (f.consumed (decide (b ≠ e))) c t o) ∨
      (text s cur (cur + (e - b)) ≠ text s b e ∧ o = .fail) :=
  runs_bref_text hp hbe he fun n => by rw [eval_bref, hg]; rfl

/-- C16 for a backreference by name. -/
theorem C16_named_backreference {name : List Nat} {b e : Nat} (hp : cur ≤ s.length) (hbe : b ≤ e)
    (he : e ≤ s.length) (hg : c.getName name = some ⟨some b, some e, true⟩) :
    Runs C s false cur f c (.re (.brefName name) :: t) o ↔
      (text s cur (cur + (e - b)) = text s b e ∧
        Runs C s false (cur + (e - b)) (f.consumed (decide (b ≠ e))) c t o) ∨
      (text s cur (cur + (e - b)) ≠ text s b e ∧ o = .fail) :=
  runs_bref_text hp hbe he fun n => by rw [eval_brefName, hg]; rfl

/-- C16: a backreference to a group that has not been captured fails. -/
theorem C16_unset_group {id : Nat} {sl : Slot} (hg : c.get id = some sl) (hm : sl.matched = false) :
    Runs C s false cur f c (.re (.bref id) :: t) o ↔ o = .fail :=
  runs_of_end (by simp) fun n => by rw [eval_bref, hg]; simp [brefCmp, hm]

theorem C16_unset_named_group {name : List Nat} {sl : Slot} (hg : c.getName name = some sl)
    (hm : sl.matched = false) : Runs C s false cur f c (.re (.brefName name) :: t) o ↔ o = .fail :=
  runs_of_end (by simp) fun n => by rw [eval_brefName, hg]; simp [brefCmp, hm]

/-- C16: case-insensitive mode is not honoured: `(a)\1` does not match "aA". -/
theorem C16_ignores_case_insensitive :
    cMatch {} 30 [97, 65] { ci := true } (.seq [.cap 1 none [.cc (.chr 97)], .bref 1]) =
      .done { groups := [{ id := 1 }] } ∧
    cMatch {} 30 [97, 65] { ci := true } (.seq [.cap 1 none [.cc (.chr 97)], .cc (.chr 97)]) =
      .done { whole := ⟨some 0, some 2, true⟩, groups := [{ id := 1, slot := ⟨some 0, some 1, true⟩ }] } := by
  decide +kernel

/-! ### Cases -/

-- in "a\nb", multiline: `^` holds at 2, `$` at 1; not multiline: neither
example : ((2 : Nat) = 0 ∨ ((Flags.mk false true false).ml = true ∧ ([97, 10, 98] : List Ch)[2 - 1]? = some 10)) := by
  decide
example : Runs {} [97, 10, 98] false 2 { ml := true } {} [.re .lBegin, .accept] (.ok { whole := ⟨none, none, true⟩ }) :=
  ⟨by simp, 3, by decide +kernel⟩
example : Runs {} [97, 10, 98] false 2 {} {} [.re .lBegin, .accept] .fail := ⟨by simp, 3, by decide +kernel⟩
-- in "ab", position 1: both neighbours are word characters, yet the parsed `\B` fails
example : Runs {} [97, 98] false 1 {} {} [.re (.boundary (.negSet [wordChars])), .accept] .fail :=
  ⟨by simp, 3, by decide +kernel⟩
-- `\1` at position 2 of "abab" with group 1 = "ab"
example : (Caps.get { groups := [{ id := 1, slot := ⟨some 0, some 2, true⟩ }] } 1) = some ⟨some 0, some 2, true⟩ := rfl
example : Runs {} [97, 98, 97, 98] false 2 {} { groups := [{ id := 1, slot := ⟨some 0, some 2, true⟩ }] }
    [.re (.bref 1), .accept]
    (.ok { whole := ⟨none, none, true⟩, groups := [{ id := 1, slot := ⟨some 0, some 2, true⟩ }] }) :=
  ⟨by simp, 3, by decide +kernel⟩

end Ctre
