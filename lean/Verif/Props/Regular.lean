import Verif.Lemmas.Language
import Verif.Props.Preference
import Verif.Props.Soundness
/-
C58: matching decides the formal language of the pattern.
-/
namespace Ctre

/-- The pattern has the word in its language, in the modes of the call. -/
def Re.Accepts (C : Cfg) (f : Flags) (r : Re) (w : List Ch) : Prop := w ∈ r.lang C.uni f.ml f.ci

theorem text_zero (s : List Ch) : text s 0 s.length = s := by simp [text]

theorem lang_of_match {C : Cfg} {f : Flags} {r : Re} {s : List Ch} {p : Nat} (hg : r.regular = true) (hp : p ≤ s.length) {τ : MState}
    (h : r.Match (envOf C r) s (MState.start p f) τ) : p ≤ τ.pos ∧ τ.pos ≤ s.length ∧ r.Accepts C f (text s p τ.pos) := by
  obtain ⟨a1, a2, _, a4⟩ := (Re.speaks (envOf C r) s r hg).sound _ _ hp h
  exact ⟨a1, a2, a4⟩

theorem match_of_lang {C : Cfg} {f : Flags} {r : Re} {s : List Ch} {p e : Nat} (hg : r.regular = true) (hp : p ≤ e) (he : e ≤ s.length)
    (h : r.Accepts C f (text s p e)) : ∃ τ, r.Match (envOf C r) s (MState.start p f) τ ∧ τ.pos = e :=
  (Re.speaks (envOf C r) s r hg).complete (MState.start p f) e hp he h

/-- C58: if `match` succeeds, the subject is in the language of the pattern. -/
theorem C58_match_sound {C : Cfg} {n : Nat} {s : List Ch} {f : Flags} {r : Re} {c : Caps} (hr : r.WellNumbered)
    (hg : r.regular = true) (h : cMatch C n s f r = .done c) (hm : c.whole.matched = true) : r.Accepts C f s := by
  obtain ⟨τ, h1, h2, _⟩ := C01_match_sound hr (.inl (Re.regular_noNegLook r hg)) (Nat.zero_le _) h hm
  have := (lang_of_match hg (Nat.zero_le _) h1).2.2
  rwa [h2, text_zero] at this

/-- C58: if `starts_with` succeeds, `get<0>()` is a beginning of the subject in the language of the pattern. -/
theorem C58_starts_with_sound {C : Cfg} {n : Nat} {s : List Ch} {f : Flags} {r : Re} {c : Caps} (hr : r.WellNumbered)
    (hg : r.regular = true) (h : cStartsWith C n s f r = .done c) (hm : c.whole.matched = true) :
    ∃ u v, s = u ++ v ∧ r.Accepts C f u ∧ c.get 0 = some ⟨some 0, some u.length, true⟩ := by
  obtain ⟨τ, h1, h2⟩ := C01_starts_with_sound hr (.inl (Re.regular_noNegLook r hg)) (Nat.zero_le _) h hm
  obtain ⟨a1, a2, a3⟩ := lang_of_match hg (Nat.zero_le _) h1
  refine ⟨text s 0 τ.pos, text s τ.pos s.length, ?_, a3, ?_⟩
  · rw [stretch_append a1 a2, text_zero]
  · rw [stretch_length a1 a2, Nat.sub_zero]
    exact h2.whole

/-- C58: if `search` succeeds, `get<0>()` is a part of the subject in the language of the pattern. -/
theorem C58_search_sound {C : Cfg} {n : Nat} {s : List Ch} {f : Flags} {r : Re} {c : Caps} (hr : r.WellNumbered)
    (hg : r.regular = true) (h : cSearch C n s f r = .done c) (hm : c.whole.matched = true) :
    ∃ u v w, s = u ++ v ++ w ∧ r.Accepts C f v ∧ c.get 0 = some ⟨some u.length, some (u.length + v.length), true⟩ := by
  obtain ⟨b, τ, _, h0, h1, h2⟩ := C01_search_sound hr (.inl (Re.regular_noNegLook r hg)) (Nat.zero_le _) h hm
  obtain ⟨a1, a2, a3⟩ := lang_of_match hg h0 h1
  refine ⟨text s 0 b, text s b τ.pos, text s τ.pos s.length, ?_, a3, ?_⟩
  · rw [stretch_append (Nat.zero_le _) a1, stretch_append (by omega) a2, text_zero]
  · rw [stretch_length a1 a2, stretch_length (Nat.zero_le _) h0, Nat.sub_zero, show b + (τ.pos - b) = τ.pos by omega]
    exact h2.whole

/-- C58: `match` succeeds exactly on the words of the language. -/
theorem C58_match {C : Cfg} {n : Nat} {s : List Ch} {f : Flags} {r : Re} {c : Caps} (hr : r.WellNumbered)
    (hg : r.regular = true) (hc : Complete C r) (h : cMatch C n s f r = .done c) : c.whole.matched = true ↔ r.Accepts C f s := by
  refine ⟨C58_match_sound hr hg h, fun ha => ?_⟩
  rw [← text_zero s] at ha
  obtain ⟨τ, h1, h2⟩ := match_of_lang hg (Nat.zero_le _) (Nat.le_refl _) ha
  exact C02_match_complete hr hc (Nat.zero_le _) h h1 h2

/-- C58: `starts_with` succeeds exactly on the subjects that begin with a word of the language. -/
theorem C58_starts_with {C : Cfg} {n : Nat} {s : List Ch} {f : Flags} {r : Re} {c : Caps} (hr : r.WellNumbered)
    (hg : r.regular = true) (hc : Complete C r) (h : cStartsWith C n s f r = .done c) :
    c.whole.matched = true ↔ ∃ u v, s = u ++ v ∧ r.Accepts C f u := by
  constructor
  · intro hm
    obtain ⟨u, v, h1, h2, _⟩ := C58_starts_with_sound hr hg h hm
    exact ⟨u, v, h1, h2⟩
  · rintro ⟨u, v, rfl, hu⟩
    have : text (u ++ v) 0 u.length = u := by simp [text]
    rw [← this] at hu
    obtain ⟨τ, h1, h2⟩ := match_of_lang hg (Nat.zero_le _) (by simp) hu
    exact C02_starts_with_complete hr hc (Nat.zero_le _) h h1

/-- C58: `search` succeeds exactly on the subjects that contain a word of the language. -/
theorem C58_search {C : Cfg} {n : Nat} {s : List Ch} {f : Flags} {r : Re} {c : Caps} (hr : r.WellNumbered)
    (hg : r.regular = true) (hc : Complete C r) (h : cSearch C n s f r = .done c) :
    c.whole.matched = true ↔ ∃ u v w, s = u ++ v ++ w ∧ r.Accepts C f v := by
  constructor
  · intro hm
    obtain ⟨u, v, w, h1, h2, _⟩ := C58_search_sound hr hg h hm
    exact ⟨u, v, w, h1, h2⟩
  · rintro ⟨u, v, w, rfl, hv⟩
    have : text (u ++ v ++ w) u.length (u.length + v.length) = v := by simp [text, List.append_assoc]
    rw [← this] at hv
    obtain ⟨τ, h1, h2⟩ := match_of_lang hg (by omega) (by simp) hv
    exact C02_search_complete hr hc (Re.regular_anchor f r hg) h (Nat.zero_le _) (by simp) h1

/-- C58 with the optimisation of greedy repetitions: for patterns that compile, every call returns, and `match` decides the
language. -/
theorem C58_decides {C : Cfg} {ml : Bool} {n : Nat} {s : List Ch} {f : Flags} {r : Re} (hr : r.WellNumbered) (hg : r.regular = true)
    (hc : Compiles C r) (hpl : r.plain = true) (hst : r.steady ml false false = true) (hs : ∀ v ∈ s, IsCh v) (hb : f.blk = false)
    (hci : r.CaseSafe f.ci) (hml : f.ml = true → ml = true) (hn : r.weight + s.length + 7 ≤ n) :
    (∃ c, cMatch C n s f r = .done c ∧ (c.whole.matched = true ↔ r.Accepts C f s)) ∧
    (∃ c, cStartsWith C n s f r = .done c ∧ (c.whole.matched = true ↔ ∃ u v, s = u ++ v ∧ r.Accepts C f u)) ∧
    (∃ c, cSearch C n s f r = .done c ∧ (c.whole.matched = true ↔ ∃ u v w, s = u ++ v ++ w ∧ r.Accepts C f v)) := by
  obtain ⟨e1, e2, e3⟩ := C34_same_results hc hr.numbered hst hs hb hci hml (Nat.zero_le _) hn
  obtain ⟨⟨c1, h1⟩, ⟨c2, h2⟩, ⟨c3, h3⟩⟩ :=
    C44_every_call_yields_a_result hc.plain hr.numbered (Re.steady.progressive r hst) s f (Nat.zero_le _) hn
  have hcp : Complete C.plain r := C02_fragment rfl (Re.tame_capsIn hc.tame) hpl
  exact ⟨⟨c1, e1.trans h1, C58_match (C := C.plain) hr hg hcp h1⟩, ⟨c2, e2.trans h2, C58_starts_with (C := C.plain) hr hg hcp h2⟩,
    ⟨c3, e3.trans h3, C58_search (C := C.plain) hr hg hcp h3⟩⟩

/-- C58: two patterns with the same language succeed on the same subjects. -/
theorem C58_same_language {C : Cfg} {n n' : Nat} {s : List Ch} {f : Flags} {r r' : Re} {c c' : Caps} (hr : r.WellNumbered)
    (hr' : r'.WellNumbered) (hg : r.regular = true) (hg' : r'.regular = true) (hc : Complete C r) (hc' : Complete C r')
    (hl : r.lang C.uni f.ml f.ci = r'.lang C.uni f.ml f.ci) :
    (cMatch C n s f r = .done c → cMatch C n' s f r' = .done c' → c.whole.matched = c'.whole.matched) ∧
    (cStartsWith C n s f r = .done c → cStartsWith C n' s f r' = .done c' → c.whole.matched = c'.whole.matched) ∧
    (cSearch C n s f r = .done c → cSearch C n' s f r' = .done c' → c.whole.matched = c'.whole.matched) := by
  have key : ∀ w, r.Accepts C f w ↔ r'.Accepts C f w := fun w => by unfold Re.Accepts; rw [hl]
  refine ⟨fun h h' => ?_, fun h h' => ?_, fun h h' => ?_⟩
  · rw [Bool.eq_iff_iff, C58_match hr hg hc h, C58_match hr' hg' hc' h', key]
  · rw [Bool.eq_iff_iff, C58_starts_with hr hg hc h, C58_starts_with hr' hg' hc' h']
    simp only [key]
  · rw [Bool.eq_iff_iff, C58_search hr hg hc h, C58_search hr' hg' hc' h']
    simp only [key]

/-- C58 fails for repetitions with ambiguous content: `(?:a|ab)*c` has "abc" in its language, which `match` rejects. -/
theorem C58_fails_for_ambiguous_loop :
    Re.Accepts {} {} sampleAmbiguous [97, 98, 99] ∧ cMatch {} 40 [97, 98, 99] {} sampleAmbiguous = .done {} := by
  obtain ⟨⟨τ, h1, h2⟩, _, h3⟩ := C02_fails_for_ambiguous_loop
  refine ⟨?_, h3⟩
  have := (lang_of_match (C := {}) (f := {}) (r := sampleAmbiguous) (s := [97, 98, 99]) (p := 0) (by decide) (by simp) h1).2.2
  rwa [h2] at this

/-- `(?:ab|c)*(d)?e{2,3}` -/
def sampleRegular : Re := .seq [.rep .greedy 0 0 [.sel [.str [97, 98], .cc (.chr 99)]], .rep .greedy 0 1 [.cap 1 none [.cc (.chr 100)]],
  .rep .greedy 2 3 [.cc (.chr 101)]]

example : sampleRegular.regular = true := by decide
example : sampleRegular.WellNumbered := ⟨by decide, by decide, by decide⟩
example : Compiles {} sampleRegular := ⟨by decide +kernel, .inr (by decide +kernel)⟩
example : sampleRegular.plain = true := by decide +kernel
example : sampleRegular.steady false false false = true := by decide +kernel
example : (cMatch {} 60 [97, 98, 99, 100, 101, 101] {} sampleRegular).success = true := by decide +kernel
example : (cMatch {} 60 [97, 98, 99, 100, 101] {} sampleRegular).success = false := by decide +kernel

end Ctre
