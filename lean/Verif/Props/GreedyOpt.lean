import Verif.Lemmas.Written
import Verif.Lemmas.GreedyOpt
import Verif.Props.Compiles
import Verif.Props.Soundness

/-
C34: replacing a greedy repetition by a possessive one, if its first characters cannot follow it.
-/
namespace Ctre

/-- The same configuration without the optimisation (`CTRE_DISABLE_GREEDY_OPT`). -/
def Cfg.plain (C : Cfg) : Cfg := { C with greedyOpt := false }

theorem attempt_agree {C : Cfg} {ml : Bool} {s : List Ch} {f : Flags} {r : Re} (hr : r.steady ml false false = true)
    (hs : ∀ v ∈ s, IsCh v) (hb : f.blk = false) (hci : r.CaseSafe f.ci) (hml : f.ml = true → ml = true) (n n' : Nat) {p : Nat}
    (hp : p ≤ s.length) : Agree (attempt C n s f r p) (attempt C.plain n' s f r p) := by
  obtain ⟨up, hci⟩ := hci.oneCase
  exact eval_agree (C := C) (D := C.plain) rfl rfl n n' s false p f (initCaps r) [.startMark, .re r, .endMark, .accept] hs hp
    (up := up) (hci.mono (by simp [leavesSt])) hml
    (by simpa [steadySt, movesSt, testsSt] using hr) rfl (.inl hb)

theorem attemptFull_agree {C : Cfg} {ml : Bool} {s : List Ch} {f : Flags} {r : Re} (hr : r.steady ml false false = true)
    (hs : ∀ v ∈ s, IsCh v) (hb : f.blk = false) (hci : r.CaseSafe f.ci) (hml : f.ml = true → ml = true) (n n' : Nat) {p : Nat}
    (hp : p ≤ s.length) : Agree (attemptFull C n s f r p) (attemptFull C.plain n' s f r p) := by
  obtain ⟨up, hci⟩ := hci.oneCase
  refine eval_agree (C := C) (D := C.plain) rfl rfl n n' s false p f (initCaps r) [.startMark, .re r, .re .sEnd, .endMark, .accept] hs hp
    (up := up) ?_ hml
    (by simpa [steadySt, movesSt, testsSt, Re.tests, Re.moves, Re.steady] using hr) rfl (.inl hb)
  rcases hci with h | h
  · exact .inl (by simpa [leavesSt, Re.leaves] using h)
  · exact .inr (by simpa [leavesSt, Re.leaves] using h)

theorem Agree.done {o o' : Out} {r : Re} {c c' : Caps} (h : Agree o o') (h1 : o.toExec r = .done c)
    (h2 : o'.toExec r = .done c') : c = c' := by
  have : o = o' := by
    apply h
    · cases o <;> first | rfl | simp [Out.toExec] at h1
    · cases o' <;> first | rfl | simp [Out.toExec] at h2
  subst this
  rw [h1] at h2
  exact Exec.done.inj h2

/-- C34 for `match`: with and without the optimisation, calls that return return the same result. -/
theorem C34_match {C : Cfg} {ml : Bool} {s : List Ch} {f : Flags} {r : Re} (hr : r.steady ml false false = true)
    (hs : ∀ v ∈ s, IsCh v) (hb : f.blk = false) (hci : r.CaseSafe f.ci) (hml : f.ml = true → ml = true) {n n' p : Nat} {c c' : Caps}
    (hp : p ≤ s.length) (h : matchAt C n s f r p = .done c) (h' : matchAt C.plain n' s f r p = .done c') : c = c' :=
  (attemptFull_agree hr hs hb hci hml n n' hp).done h h'

/-- C34 for `starts_with`. -/
theorem C34_starts_with {C : Cfg} {ml : Bool} {s : List Ch} {f : Flags} {r : Re} (hr : r.steady ml false false = true)
    (hs : ∀ v ∈ s, IsCh v) (hb : f.blk = false) (hci : r.CaseSafe f.ci) (hml : f.ml = true → ml = true) {n n' p : Nat} {c c' : Caps}
    (hp : p ≤ s.length) (h : startsWithAt C n s f r p = .done c) (h' : startsWithAt C.plain n' s f r p = .done c') : c = c' :=
  (attempt_agree hr hs hb hci hml n n' hp).done h h'

/-- C34 for `search`. -/
theorem C34_search {C : Cfg} {ml : Bool} {s : List Ch} {f : Flags} {r : Re} (hr : r.steady ml false false = true)
    (hs : ∀ v ∈ s, IsCh v) (hb : f.blk = false) (hci : r.CaseSafe f.ci) (hml : f.ml = true → ml = true) {n n' p : Nat} {c c' : Caps}
    (hp : p ≤ s.length) (h : searchAt C n s f r p = .done c) (h' : searchAt C.plain n' s f r p = .done c') : c = c' := by
  have loop : ∀ k p, p + k ≤ s.length → searchLoop C n s f r k p = .done c →
      searchLoop C.plain n' s f r k p = .done c' → c = c' := by
    intro k
    induction k with
    | zero =>
      intro p hp h h'
      have ha := attempt_agree (C := C) hr hs hb hci hml n n' (p := p) (by omega)
      unfold searchLoop at h h'
      cases ho : attempt C n s f r p <;> rw [ho] at h ha <;> cases ho' : attempt C.plain n' s f r p <;> rw [ho'] at h' ha <;>
        first
        | (simp [Out.toExec] at h; done)
        | (simp [Out.toExec] at h'; done)
        | (have := ha rfl rfl; simp at this; done)
        | (dsimp only at h h'; rw [h] at h'; exact Exec.done.inj h')
        | exact ha.done h h'
    | succ k ih =>
      intro p hp h h'
      have ha := attempt_agree (C := C) hr hs hb hci hml n n' (p := p) (by omega)
      unfold searchLoop at h h'
      cases ho : attempt C n s f r p <;> rw [ho] at h ha <;> cases ho' : attempt C.plain n' s f r p <;> rw [ho'] at h' ha <;>
        first
        | (simp [Out.toExec] at h; done)
        | (simp [Out.toExec] at h'; done)
        | (have := ha rfl rfl; simp at this; done)
        | exact ih (p+1) (by omega) h h'
        | exact ha.done h h'
  unfold searchAt at h h'
  refine loop _ p ?_ h h'
  split <;> omega

mutual
theorem Re.steady.progressive {ml : Bool} : ∀ (r : Re) {M K : Bool}, r.steady ml M K = true → r.progressive = true
  | .sel l, M, K, h => by simp only [Re.steady] at h; simp only [Re.progressive]; exact steadyEach.progressive l h
  | .seq l, M, K, h | .cap _ _ l, M, K, h => by
    simp only [Re.steady] at h; simp only [Re.progressive]; exact steadyAll.progressive l h
  | .ahead _ l, M, K, h => by simp only [Re.steady] at h; simp only [Re.progressive]; exact steadyAll.progressive l h
  | .atomic l, M, K, h => by
    simp only [Re.steady, Bool.and_eq_true] at h; simp only [Re.progressive]; exact steadyAll.progressive l h.2
  | .rep k a b l, M, K, h => by
    simp only [Re.steady, Bool.and_eq_true] at h
    simp [Re.progressive, h.1.1, steadyAll.progressive l h.2]
  | .cc _, _, _, _ | .any, _, _, _ | .str _, _, _, _ | .empty, _, _, _ | .bref _, _, _, _ | .brefName _, _, _, _
  | .behind _ _, _, _, _ | .boundary _, _, _, _ | .notBoundary _, _, _, _ | .sBegin, _, _, _ | .sEnd, _, _, _
  | .sEndLine, _, _, _ | .lBegin, _, _, _ | .lEnd, _, _, _ | .mode _, _, _, _ | .reject _, _, _, _ => by simp [Re.progressive]

theorem steadyAll.progressive {ml : Bool} : ∀ (l : List Re) {M K : Bool}, steadyAll ml M K l = true → progressiveAll l = true
  | [], _, _, _ => rfl
  | r :: l, M, K, h => by
    simp only [steadyAll, Bool.and_eq_true] at h
    simp [progressiveAll, Re.steady.progressive r h.1, steadyAll.progressive l h.2]

theorem steadyEach.progressive {ml : Bool} : ∀ (l : List Re) {M K : Bool}, steadyEach ml M K l = true → progressiveAll l = true
  | [], _, _, _ => rfl
  | r :: l, M, K, h => by
    simp only [steadyEach, Bool.and_eq_true] at h
    simp [progressiveAll, Re.steady.progressive r h.1, steadyEach.progressive l h.2]
end

theorem Compiles.plain {C : Cfg} {r : Re} (h : Compiles C r) : Compiles C.plain r := ⟨h.tame, .inl rfl⟩

/-- C34: for a pattern that compiles, both calls return, with the same result. -/
theorem C34_same_results {C : Cfg} {ml : Bool} {s : List Ch} {f : Flags} {r : Re} (hc : Compiles C r) (hn : r.Numbered)
    (hr : r.steady ml false false = true) (hs : ∀ v ∈ s, IsCh v) (hb : f.blk = false) (hci : r.CaseSafe f.ci)
    (hml : f.ml = true → ml = true) {n p : Nat} (hp : p ≤ s.length) (hw : r.weight + s.length + 7 ≤ n) :
    matchAt C n s f r p = matchAt C.plain n s f r p ∧ startsWithAt C n s f r p = startsWithAt C.plain n s f r p ∧
      searchAt C n s f r p = searchAt C.plain n s f r p := by
  obtain ⟨⟨a, ha⟩, ⟨b, hb'⟩, ⟨c, hc'⟩⟩ := C44_every_call_yields_a_result hc hn (Re.steady.progressive r hr) s f hp hw
  obtain ⟨⟨a1, ha1⟩, ⟨b1, hb1⟩, ⟨c1, hc1⟩⟩ := C44_every_call_yields_a_result hc.plain hn (Re.steady.progressive r hr) s f hp hw
  rw [ha, ha1, hb', hb1, hc', hc1, C34_match hr hs hb hci hml hp ha ha1, C34_starts_with hr hs hb hci hml hp hb' hb1,
    C34_search hr hs hb hci hml hp hc' hc1]
  exact ⟨rfl, rfl, rfl⟩

/-- Consequence for C01 and C02: with the optimisation enabled, `match` succeeds exactly if the pattern matches the
whole text, for steady patterns of the fragment of C02. -/
theorem C34_match_iff {C : Cfg} {ml : Bool} {s : List Ch} {f : Flags} {r : Re} (hw : r.WellNumbered) (hc : Compiles C r)
    (hr : r.steady ml false false = true) (hs : ∀ v ∈ s, IsCh v) (hb : f.blk = false) (hci : r.CaseSafe f.ci)
    (hml : f.ml = true → ml = true) (hf : Complete C.plain r) (hsn : SoundFor C.plain r) {n p : Nat} (hp : p ≤ s.length)
    (hn : r.weight + s.length + 7 ≤ n) :
    (matchAt C n s f r p).success = true ↔ ∃ τ, r.Match (envOf C r) s (MState.start p f) τ ∧ τ.pos = s.length := by
  rw [(C34_same_results hc hw.numbered hr hs hb hci hml hp hn).1]
  obtain ⟨⟨c, h⟩, _⟩ := C44_every_call_yields_a_result hc.plain hw.numbered (Re.steady.progressive r hr) s f hp hn
  rw [h]
  constructor
  · intro hm
    obtain ⟨τ, h1, h2, _⟩ := C01_match_sound hw hsn hp h hm
    exact ⟨τ, h1, h2⟩
  · rintro ⟨τ, h1, h2⟩
    exact C02_match_complete hw hf hp h h1 h2

/-- The same for `starts_with`. -/
theorem C34_starts_with_iff {C : Cfg} {ml : Bool} {s : List Ch} {f : Flags} {r : Re} (hw : r.WellNumbered) (hc : Compiles C r)
    (hr : r.steady ml false false = true) (hs : ∀ v ∈ s, IsCh v) (hb : f.blk = false) (hci : r.CaseSafe f.ci)
    (hml : f.ml = true → ml = true) (hf : Complete C.plain r) (hsn : SoundFor C.plain r) {n p : Nat} (hp : p ≤ s.length)
    (hn : r.weight + s.length + 7 ≤ n) :
    (startsWithAt C n s f r p).success = true ↔ ∃ τ, r.Match (envOf C r) s (MState.start p f) τ := by
  rw [(C34_same_results hc hw.numbered hr hs hb hci hml hp hn).2.1]
  obtain ⟨_, ⟨c, h⟩, _⟩ := C44_every_call_yields_a_result hc.plain hw.numbered (Re.steady.progressive r hr) s f hp hn
  rw [h]
  constructor
  · intro hm
    obtain ⟨τ, h1, _⟩ := C01_starts_with_sound hw hsn hp h hm
    exact ⟨τ, h1⟩
  · rintro ⟨τ, h1⟩
    exact C02_starts_with_complete hw hf hp h h1

/-- The same for `search`, for patterns not treated as anchored. -/
theorem C34_search_iff {C : Cfg} {ml : Bool} {s : List Ch} {f : Flags} {r : Re} (hw : r.WellNumbered) (hc : Compiles C r)
    (hr : r.steady ml false false = true) (hs : ∀ v ∈ s, IsCh v) (hb : f.blk = false) (hci : r.CaseSafe f.ci)
    (hml : f.ml = true → ml = true) (hf : Complete C.plain r) (hsn : SoundFor C.plain r) (ha : startsWithAnchor f r = false)
    {n p : Nat} (hp : p ≤ s.length) (hn : r.weight + s.length + 7 ≤ n) :
    (searchAt C n s f r p).success = true ↔ ∃ b τ, p ≤ b ∧ b ≤ s.length ∧ r.Match (envOf C r) s (MState.start b f) τ := by
  rw [(C34_same_results hc hw.numbered hr hs hb hci hml hp hn).2.2]
  obtain ⟨_, _, c, h⟩ := C44_every_call_yields_a_result hc.plain hw.numbered (Re.steady.progressive r hr) s f hp hn
  rw [h]
  constructor
  · intro hm
    have := C01_search_sound hw hsn hp h hm
    obtain ⟨b, τ, h1, h2, h3, _⟩ := this
    exact ⟨b, τ, h1, h2, h3⟩
  · rintro ⟨b, τ, h1, h2, h3⟩
    exact C02_search_complete hw hf ha h h1 h2 h3

/-! ### Cases -/

/-- `(?:[a-f]+,)*[^,]*(?=;)` -/
def sampleSteady : Re := .seq [.rep .greedy 0 0 [.rep .greedy 1 0 [.cc (.range 97 102)], .cc (.chr 44)],
  .rep .greedy 0 0 [.cc (.negSet [.chr 44])], .ahead true [.cc (.chr 59)]]

example : sampleSteady.steady false false false = true := by decide +kernel
example : Compiles {} sampleSteady := ⟨by decide +kernel, .inr (by decide +kernel)⟩
example : sampleSteady.Numbered := ⟨by decide +kernel, by decide +kernel⟩
-- no matter whether case is ignored, since the letters are all in lower case
example (ci : Bool) : sampleSteady.CaseSafe ci := by
  refine .inr ⟨false, ?_⟩
  simp only [sampleSteady, Re.leaves, leavesAll, List.append_nil, List.cons_append, List.nil_append, List.mem_cons, Re.cc.injEq,
    List.not_mem_nil, or_false]
  rintro c (rfl | rfl | rfl | rfl) <;> exact CC.Folds.of_check (fun _ _ _ _ => rfl) (by decide +kernel)
-- the inner repetition is replaced, the others are not
example : loopCollides [.cc (.range 97 102)] [.re (.cc (.chr 44)), .endCycle] = some false := by decide +kernel
example : (cStartsWith {} 100 [97, 98, 44, 120, 59] {} sampleSteady).success = true := by decide +kernel
-- `a*b` satisfies all hypotheses of `C34_match_iff`
example : Complete (Cfg.plain {}) (.seq [.rep .greedy 0 0 [.cc (.chr 97)], .cc (.chr 98)]) ∧
    SoundFor (Cfg.plain {}) (.seq [.rep .greedy 0 0 [.cc (.chr 97)], .cc (.chr 98)]) :=
  ⟨C02_fragment rfl (by decide) (by decide), .inl (by decide)⟩

/-! ### The optimisation changes results of other patterns -/

/-- `a*A` in case-insensitive mode on "aa". -/
theorem C34_fails_caseless :
    (cMatch {} 30 [97, 97] { ci := true } (.seq [.rep .greedy 0 0 [.cc (.chr 97)], .cc (.chr 65)])).success = false ∧
    (cMatch { greedyOpt := false } 30 [97, 97] { ci := true } (.seq [.rep .greedy 0 0 [.cc (.chr 97)], .cc (.chr 65)])).success = true := by
  decide +kernel

/-- `[a ]*\b` at the beginning of "a  ". -/
theorem C34_fails_boundary :
    (cStartsWith {} 30 [97, 32, 32] {} (.seq [.rep .greedy 0 0 [.cc (.set [.chr 97, .chr 32])], .boundary wordChars])).success = false ∧
    (cStartsWith { greedyOpt := false } 30 [97, 32, 32] {} (.seq [.rep .greedy 0 0 [.cc (.set [.chr 97, .chr 32])], .boundary wordChars])).success = true := by
  decide +kernel

/-- `a*\A` at the beginning of "a". -/
theorem C34_fails_begin :
    (cStartsWith {} 30 [97] {} (.seq [.rep .greedy 0 0 [.cc (.chr 97)], .sBegin])).success = false ∧
    (cStartsWith { greedyOpt := false } 30 [97] {} (.seq [.rep .greedy 0 0 [.cc (.chr 97)], .sBegin])).success = true := by
  decide +kernel

/-- `[a\n]*$\n` in multiline mode on "a\n". -/
theorem C34_fails_line_end :
    (cMatch {} 30 [97, 10] { ml := true } (.seq [.rep .greedy 0 0 [.cc (.set [.chr 97, .chr 10])], .lEnd, .cc (.chr 10)])).success = false ∧
    (cMatch { greedyOpt := false } 30 [97, 10] { ml := true } (.seq [.rep .greedy 0 0 [.cc (.set [.chr 97, .chr 10])], .lEnd, .cc (.chr 10)])).success = true := by
  decide +kernel

/-- `(?:a*){1}` on the empty text. -/
theorem C34_fails_empty_iteration :
    (cMatch {} 30 [] {} (.rep .greedy 1 1 [.rep .greedy 0 0 [.cc (.chr 97)]])).success = false ∧
    (cMatch { greedyOpt := false } 30 [] {} (.rep .greedy 1 1 [.rep .greedy 0 0 [.cc (.chr 97)]])).success = true := by
  decide +kernel

end Ctre
