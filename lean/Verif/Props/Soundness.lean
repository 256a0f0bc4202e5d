import Verif.Lemmas.Rigid
import Verif.Lemmas.SafeApi

/-
C01, C02: agreement of the matcher with the declarative meaning of patterns.
-/
namespace Ctre

/-- Conditions under which every reported match is a declarative one: either there is no negative
lookaround, or its contents have unambiguous loops and the greedy optimisation is off. -/
def SoundFor (C : Cfg) (r : Re) : Prop :=
  r.noNegLook = true ∨
    (C.greedyOpt = false ∧ r.negCaps (groupIds r.captures) = true ∧ r.NegPlain (envOf C r))

theorem SoundFor.ok {C : Cfg} {r : Re} (h : SoundFor C r) (hr : r.WellNumbered) :
    r.SndOK C (shape r.captures) ∧ r.negCaps (groupIds r.captures) = true := by
  rcases h with h | ⟨h1, h2, h3⟩
  · exact ⟨Re.noNegLook.sndOK hr.noSelf h, Re.noNegLook.negCaps h⟩
  · refine ⟨Re.NegPlain.sndOK (shapeOK_of C hr) rfl h1 hr.noSelf ?_ h3, h2⟩
    simpa [groupIds, shape, Function.comp_def] using h2

/-- C01 for `match`: the whole subject (from the start position) is a declarative match, with the reported
captures. -/
theorem C01_match_sound {C : Cfg} {n : Nat} {s : List Ch} {f : Flags} {r : Re} {p : Nat} {c : Caps}
    (hr : r.WellNumbered) (hn : SoundFor C r) (hp : p ≤ s.length)
    (h : matchAt C n s f r p = .done c) (hm : c.whole.matched = true) :
    ∃ τ, r.Match (envOf C r) s (MState.start p f) τ ∧ τ.pos = s.length ∧ Reports c p τ := by
  obtain ⟨hs, hg⟩ := hn.ok hr
  obtain ⟨y, h1, h2, h3, h4⟩ := attemptFull_sound hp hs (toExec_done h hm)
  obtain ⟨τ, h5, h6, h7⟩ := reports_of hr hg hp h1 h3 h4
  exact ⟨τ, h5, h6.trans h2, h7⟩

/-- C01 for `starts_with`. -/
theorem C01_starts_with_sound {C : Cfg} {n : Nat} {s : List Ch} {f : Flags} {r : Re} {p : Nat} {c : Caps}
    (hr : r.WellNumbered) (hn : SoundFor C r) (hp : p ≤ s.length)
    (h : startsWithAt C n s f r p = .done c) (hm : c.whole.matched = true) :
    ∃ τ, r.Match (envOf C r) s (MState.start p f) τ ∧ Reports c p τ := by
  obtain ⟨hs, hg⟩ := hn.ok hr
  obtain ⟨y, h1, h2, h3, h4⟩ := attempt_sound hp hs (toExec_done h hm)
  obtain ⟨τ, h5, _, h7⟩ := reports_of hr hg hp h1 h3 h4
  exact ⟨τ, h5, h7⟩

/-- C01 for `search`: the reported span begins at some position `b` and is a declarative match from
there. -/
theorem C01_search_sound {C : Cfg} {n : Nat} {s : List Ch} {f : Flags} {r : Re} {p : Nat} {c : Caps}
    (hr : r.WellNumbered) (hn : SoundFor C r) (hp : p ≤ s.length)
    (h : searchAt C n s f r p = .done c) (hm : c.whole.matched = true) :
    ∃ b τ, p ≤ b ∧ b ≤ s.length ∧ r.Match (envOf C r) s (MState.start b f) τ ∧ Reports c b τ := by
  obtain ⟨hs, hg⟩ := hn.ok hr
  obtain ⟨j, hj, h0, _⟩ := searchLoop_ok h hm
  have hj' : p + j ≤ s.length := by split at hj <;> omega
  obtain ⟨y, h1, h2, h3, h4⟩ := attempt_sound hj' hs h0
  obtain ⟨τ, h5, _, h7⟩ := reports_of hr hg hj' h1 h3 h4
  exact ⟨p + j, τ, by omega, hj', h5, h7⟩

/-- The pattern belongs to the fragment of C02: loop bodies are non-empty and unambiguous, possessive
repetition has a fixed count, a positive lookaround determines its captures. -/
structure Complete (C : Cfg) (r : Re) : Prop where
  noOpt : C.greedyOpt = false
  groups : r.capsIn (groupIds r.captures) = true
  plain : r.Plain (envOf C r)

theorem Complete.ok {C : Cfg} {r : Re} (h : Complete C r) (hr : r.WellNumbered) : r.CplOK C (shape r.captures) := by
  refine Re.Plain.cplOK (shapeOK_of C hr) rfl h.noOpt hr.noSelf ?_ h.plain
  have := Re.capsIn.negCaps h.groups
  simpa [groupIds, shape, Function.comp_def] using this

theorem sem_of_match {C : Cfg} {r : Re} (hr : r.WellNumbered) (hg : r.capsIn (groupIds r.captures) = true)
    {s : List Ch} {p : Nat} {f : Flags} (hp : p ≤ s.length) {τ : MState}
    (h : r.Match (envOf C r) s (MState.start p f) τ) :
    ∃ y, r.Sem C.uni s (sst p f (initCaps r)) y ∧ y.pos = τ.pos := by
  obtain ⟨y, hy, hrel, _⟩ := (Re.refine (s := s) (E := envOf C r) hr.noSelf (Re.capsIn.negCaps hg) _ _
    (rel_start C hr f hp)).2 hg τ h
  exact ⟨y, hy, hrel.pos⟩

/-- C02 for `match`: if the whole subject is a declarative match, the call reports success. -/
theorem C02_match_complete {C : Cfg} {n : Nat} {s : List Ch} {f : Flags} {r : Re} {p : Nat} {c : Caps}
    (hr : r.WellNumbered) (hc : Complete C r) (hp : p ≤ s.length)
    (h : matchAt C n s f r p = .done c) {τ : MState} (hτ : r.Match (envOf C r) s (MState.start p f) τ)
    (hl : τ.pos = s.length) : c.whole.matched = true := by
  obtain ⟨y, hy, hp'⟩ := sem_of_match hr hc.groups hp hτ
  cases ho : attemptFull C n s f r p with
  | fail => exact absurd (hp'.trans hl) (attemptFull_complete hp (hc.ok hr) ho y hy)
  | ok c' =>
    simp only [matchAt, ho, Out.toExec, Exec.done.injEq] at h
    subst h
    exact attemptFull_matched hr.numbered hp ho
  | _ => simp [matchAt, ho, Out.toExec] at h

/-- C02 for `starts_with`: if some prefix is a declarative match, the call reports success. -/
theorem C02_starts_with_complete {C : Cfg} {n : Nat} {s : List Ch} {f : Flags} {r : Re} {p : Nat} {c : Caps}
    (hr : r.WellNumbered) (hc : Complete C r) (hp : p ≤ s.length)
    (h : startsWithAt C n s f r p = .done c) {τ : MState} (hτ : r.Match (envOf C r) s (MState.start p f) τ) :
    c.whole.matched = true := by
  obtain ⟨y, hy, hp'⟩ := sem_of_match hr hc.groups hp hτ
  cases ho : attempt C n s f r p with
  | fail => exact absurd hy (attempt_complete hp (hc.ok hr) ho y)
  | ok c' =>
    simp only [startsWithAt, ho, Out.toExec, Exec.done.injEq] at h
    subst h
    exact attempt_matched hr.numbered hp ho
  | _ => simp [startsWithAt, ho, Out.toExec] at h

/-- C02 for `search`, for patterns not treated as anchored: if the pattern matches declaratively from some
position, the call reports success. -/
theorem C02_search_complete {C : Cfg} {n : Nat} {s : List Ch} {f : Flags} {r : Re} {p : Nat} {c : Caps}
    (hr : r.WellNumbered) (hc : Complete C r) (ha : startsWithAnchor f r = false)
    (h : searchAt C n s f r p = .done c) {b : Nat} (hpb : p ≤ b) (hb : b ≤ s.length) {τ : MState}
    (hτ : r.Match (envOf C r) s (MState.start b f) τ) :
    c.whole.matched = true := by
  obtain ⟨y, hy, hp'⟩ := sem_of_match hr hc.groups hb hτ
  cases hm : c.whole.matched with
  | true => rfl
  | false =>
    exfalso
    unfold searchAt at h
    rw [ha] at h
    have h0 := (searchLoop_fail' hr.numbered (by simp; omega) h hm).2 (b - p) (by simp; omega)
    rw [show p + (b - p) = b by omega] at h0
    exact attempt_complete hb (hc.ok hr) h0 y hy

/-- The fragment contains a decidable class: loop bodies built from characters, strings, groups and
alternatives that begin with different characters. -/
theorem C02_fragment {C : Cfg} {r : Re} (h1 : C.greedyOpt = false)
    (h2 : r.capsIn (groupIds r.captures) = true) (h3 : r.plain = true) : Complete C r :=
  ⟨h1, h2, Re.plain_Plain h3⟩

/-! ### Cases -/

/-- `(a(?:bc|d)*)(?!x)(?=e)` -/
def sampleSound : Re := .seq [.cap 1 none [.cc (.chr 97), .rep .greedy 0 0 [.sel [.str [98, 99], .cc (.chr 100)]]],
  .ahead false [.cc (.chr 120)], .ahead true [.cc (.chr 101)]]

example : sampleSound.WellNumbered := ⟨by decide, by decide, by decide⟩
example : Complete { greedyOpt := false } sampleSound := C02_fragment rfl (by decide) (by decide)
example : SoundFor { greedyOpt := false } sampleSound :=
  .inr ⟨rfl, by decide, by
    simp only [sampleSound, Re.NegPlain, NegPlainList, PlainList, Re.Plain, and_true, true_and]
    trivial⟩
example : cSearch { greedyOpt := false } 60 [120, 97, 98, 99, 100, 101] {} sampleSound =
    .done { whole := ⟨some 1, some 5, true⟩, groups := [{ id := 1, slot := ⟨some 1, some 5, true⟩ }] } := by
  decide +kernel

/-- `(?:a|ab)*c` -/
def sampleAmbiguous : Re :=
  .seq [.rep .greedy 0 0 [.sel [.cc (.chr 97), .str [97, 98]]], .cc (.chr 99)]

/-- Without unambiguous loop bodies completeness fails: "abc" is a declarative match of `(?:a|ab)*c`,
but `match` reports failure. -/
theorem C02_fails_for_ambiguous_loop :
    (∃ τ, sampleAmbiguous.Match (envOf {} sampleAmbiguous) [97, 98, 99] (MState.start 0 {}) τ ∧ τ.pos = 3) ∧
    cMatch { greedyOpt := false } 40 [97, 98, 99] {} sampleAmbiguous = .done {} ∧
    cMatch {} 40 [97, 98, 99] {} sampleAmbiguous = .done {} := by
  refine ⟨⟨{ MState.start 0 {} with pos := 3 }, ?_, rfl⟩, by decide +kernel, by decide +kernel⟩
  simp only [sampleAmbiguous, Re.Match, MatchAll]
  refine ⟨{ MState.start 0 {} with pos := 2 }, ⟨1, by omega, .inl trivial, .succ ⟨{ MState.start 0 {} with pos := 2 }, ?_, rfl⟩
    (.zero _)⟩, ⟨_, ⟨⟨99, rfl, by decide⟩, rfl⟩, rfl⟩⟩
  refine ⟨_, ?_, rfl⟩
  simp only [MatchAny, Re.Match]
  refine .inr (.inl ⟨?_, rfl⟩)
  intro i hi
  match i, hi with
  | 0, _ => exact ⟨97, rfl, rfl⟩
  | 1, _ => exact ⟨98, rfl, rfl⟩

end Ctre
