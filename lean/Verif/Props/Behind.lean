import Verif.Lemmas.Behind
import Verif.Model.Parser
import Verif.Model.Wrapper

/-
C15: lookbehind.
-/
namespace Ctre

section
variable {C : Cfg} {s : List Ch} {lb : Bool} {cur : Nat} {f : Flags} {c : Caps} {t : Stack} {o : Out}

/-- The compiled lookbehind content on the reversed subject says whether the written content matches some
stretch that ends at the current position. -/
theorem behind_iff_before {l l' : List Re} (hl : backwardAll l = true) (hne : l ≠ []) (hr : rotateList l = some l')
    {E : Env} (hE : E.uni = C.uni) (hcur : cur ≤ s.length) (hc : c.whole.matched = false) :
    (Before E l s f cur → Runs C s.reverse true (s.length - cur) f c [.re (.seq l'.reverse), .endBehind] (.ok c.setMatched)) ∧
    (¬ Before E l s f cur → Runs C s.reverse true (s.length - cur) f c [.re (.seq l'.reverse), .endBehind] .fail) := by
  have hpl : (Re.seq l).backward = true := by simp [Re.backward, hl, hne]
  obtain ⟨h1, h2⟩ := rotate_span (E := E) hpl (.seq l'.reverse) (by simp [Re.rotate, hr])
  simp only [Re.backward, Bool.and_eq_true, Bool.not_eq_true', List.isEmpty_eq_false_iff] at h1
  have hp : s.length - cur ≤ s.reverse.length := by simp
  obtain ⟨h3, h4⟩ := behind_content (E := E) (C := C) (lb := true) (f := f) hE h1.2 h1.1 hc hp
  have key : Before E l s f cur ↔ ∃ e, SpanAll E l'.reverse s.reverse f (s.length - cur) e := by
    constructor
    · rintro ⟨b, hb, hm⟩
      refine ⟨s.length - b, ?_⟩
      have := (h2 (s := s) (f := f) hb hcur).2 (by simpa only [Span, Re.Match] using hm)
      simpa only [Span, SpanAll, Re.Match] using this
    · rintro ⟨e, he⟩
      obtain ⟨_, g1, g2⟩ := backwardAll_match h1.2 he hp
      simp only [MState.start, List.length_reverse] at g1 g2
      refine ⟨s.length - e, by omega, ?_⟩
      have := (h2 (s := s) (f := f) (b := s.length - e) (e := cur) (by omega) hcur).1
      rw [show s.length - (s.length - e) = e by omega] at this
      simpa only [Span, Re.Match] using this (by simpa only [Span, SpanAll, Re.Match] using he)
  rw [key]
  exact ⟨h3, h4⟩

/-- C15, positive lookbehind: matching goes on at the same position, with the same captures, exactly when
some stretch of the subject ending at the current position matches the content read left to right. -/
theorem C15_positive {l l' : List Re} (hl : backwardAll l = true) (hne : l ≠ []) (hr : rotateList l = some l')
    {E : Env} (hE : E.uni = C.uni) (hcur : cur ≤ s.length) (hc : c.whole.matched = false) :
    (Before E l s f cur → (Runs C s lb cur f c (.re (.behind true l'.reverse) :: t) o ↔ Runs C s lb cur f c t o)) ∧
    (¬ Before E l s f cur → (Runs C s lb cur f c (.re (.behind true l'.reverse) :: t) o ↔ o = .fail)) := by
  obtain ⟨h1, h2⟩ := behind_iff_before (C := C) (f := f) hl hne hr hE hcur hc
  exact ⟨fun h => runs_behind.1 (h1 h) hc, fun h => runs_behind.2 (h2 h)⟩

/-- C15, negative lookbehind. -/
theorem C15_negative {l l' : List Re} (hl : backwardAll l = true) (hne : l ≠ []) (hr : rotateList l = some l')
    {E : Env} (hE : E.uni = C.uni) (hcur : cur ≤ s.length) (hc : c.whole.matched = false) :
    (¬ Before E l s f cur → (Runs C s lb cur f c (.re (.behind false l'.reverse) :: t) o ↔ Runs C s lb cur f c t o)) ∧
    (Before E l s f cur → (Runs C s lb cur f c (.re (.behind false l'.reverse) :: t) o ↔ o = .fail)) := by
  obtain ⟨h1, h2⟩ := behind_iff_before (C := C) (f := f) hl hne hr hE hcur hc
  exact ⟨fun h => runs_behind.2 (h2 h), fun h => runs_behind.1 (h1 h) hc⟩

/-- C15: every content made of characters, classes, strings, boundaries, concatenations and alternations is
accepted by the translation, so the two theorems above apply to it. -/
theorem C15_translated {l : List Re} : backwardAll l = true → ∃ l', rotateList l = some l' := by
  have key : ∀ r : Re, r.backward = true → ∃ r', r.rotate = some r' := by
    intro r
    induction r using Re.rec (motive_2 := fun l => backwardAll l = true → ∃ l', rotateList l = some l') with
    | sel l ih => intro h; simp only [Re.backward] at h; obtain ⟨l', h'⟩ := ih h; simp [Re.rotate, h']
    | seq l ih =>
      intro h; simp only [Re.backward, Bool.and_eq_true] at h; obtain ⟨l', h'⟩ := ih h.2; simp [Re.rotate, h']
    | nil => exact ⟨[], rfl⟩
    | cons r l ih1 ih2 =>
      rename_i h
      simp only [backwardAll, Bool.and_eq_true] at h
      obtain ⟨r', h1⟩ := ih1 h.1
      obtain ⟨l', h2⟩ := ih2 h.2
      exact ⟨r' :: l', by simp [rotateList, h1, h2]⟩
    | reject own => intro h; simp only [Re.backward] at h; subst h; exact ⟨_, rfl⟩
    | _ => intro h; first | simp [Re.backward] at h; done | simp [Re.rotate]
  induction l with
  | nil => intro _; exact ⟨[], rfl⟩
  | cons r l ih =>
    intro h
    simp only [backwardAll, Bool.and_eq_true] at h
    obtain ⟨r', h1⟩ := key r h.1
    obtain ⟨l', h2⟩ := ih h.2
    exact ⟨r' :: l', by simp [rotateList, h1, h2]⟩
end

/-- C15, the claim fails for anchors: they are not mirrored when the content is reversed, so `(?<=^a)b` does
not match inside "ab" although "a" starts the line. -/
theorem C15_fails_for_anchors :
    Parse.build {} [40, 63, 60, 61, 94, 97, 41, 98] = .pattern (.seq [.behind true [.cc (.chr 97), .lBegin], .cc (.chr 98)]) ∧
    cSearch {} 30 [97, 98] {} (.seq [.behind true [.cc (.chr 97), .lBegin], .cc (.chr 98)]) =
      .done { whole := ⟨none, some 2, false⟩ } := by
  exact ⟨by rfl, by decide +kernel⟩

/-! ### Cases -/

-- `(?<=ab|c)d`
example : Parse.build {} [40, 63, 60, 61, 97, 98, 124, 99, 41, 100] =
    .pattern (.seq [.behind true [.sel [.str [98, 97], .cc (.chr 99)]], .cc (.chr 100)]) := by rfl
example : rotateList [.sel [.str [97, 98], .cc (.chr 99)]] = some [.sel [.str [98, 97], .cc (.chr 99)]] := by rfl
example : backwardAll [.sel [.str [97, 98], .cc (.chr 99)]] = true := by decide
example : cSearch {} 30 [120, 97, 98, 100] {} (.seq [.behind true [.sel [.str [98, 97], .cc (.chr 99)]], .cc (.chr 100)]) =
    .done { whole := ⟨some 3, some 4, true⟩ } := by decide +kernel
example : cSearch {} 30 [120, 98, 97, 100] {} (.seq [.behind true [.sel [.str [98, 97], .cc (.chr 99)]], .cc (.chr 100)]) =
    .done { whole := ⟨none, some 4, false⟩ } := by decide +kernel
-- "ab" ends at position 3 of "xab"
example : Before ⟨fun _ _ => false, fun _ => none⟩ [.sel [.str [97, 98], .cc (.chr 99)]] [120, 97, 98, 100] {} 3 := by
  refine ⟨1, by omega, .start 3 {}, ?_, rfl⟩
  simp only [Re.Match, MatchAny]
  left
  refine ⟨fun i h => ?_, rfl⟩
  simp only [List.length_cons, List.length_nil] at h
  rcases i with _ | _ | i
  · exact ⟨97, rfl, rfl⟩
  · exact ⟨98, rfl, rfl⟩
  · omega

end Ctre
