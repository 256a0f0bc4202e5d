import Verif.Lemmas.Sharpened
import Verif.Props.Default

/-
C88: the default build matches the pattern in which the greedy repetitions that cannot begin like what follows them are
possessive.
-/
namespace Ctre
open Parse Surface

/-! ### The sharpened pattern has the same groups and compiles -/

theorem Re.WellNumbered.sharpen {r : Re} (h : r.WellNumbered) (t : Stack) : (r.sharpen t).WellNumbered where
  distinct := by rw [Re.sharpen_captures]; exact h.distinct
  positive := by rw [Re.sharpen_captures]; exact h.positive
  noSelf := by rw [Re.sharpen_captures, Re.sharpen_noSelf]; exact h.noSelf

theorem Re.Numbered.sharpen {r : Re} (h : r.Numbered) (t : Stack) : (r.sharpen t).Numbered where
  distinct := by rw [Re.sharpen_captures]; exact h.distinct
  nested := by rw [Re.sharpen_noReopen]; exact h.nested

theorem Compiles.sharpen {C : Cfg} {r : Re} (h : Compiles C r) (t : Stack) : Compiles C.plain (r.sharpen t) :=
  ⟨by rw [Re.sharpen_captures, Re.sharpen_tame]; exact h.tame, .inl rfl⟩

theorem initCaps_sharpen (r : Re) (t : Stack) : initCaps (r.sharpen t) = initCaps r := by
  unfold initCaps; rw [Re.sharpen_captures]

theorem toExec_sharpen (r : Re) (t : Stack) (o : Out) : o.toExec (r.sharpen t) = o.toExec r := by
  cases o <;> simp only [Out.toExec, initCaps_sharpen]

theorem attempt_sharp {C : Cfg} (hC : C.greedyOpt = true) (n n' : Nat) {s : List Ch} (f : Flags) (r : Re) {p : Nat} (hp : p ≤ s.length) :
    Agree (attempt C n s f r p) (attempt C.plain n' s f r.sharp p) := by
  unfold attempt Re.sharp
  rw [initCaps_sharpen]
  exact eval_sharpen (C := C) (D := C.plain) rfl hC rfl n n' s false p f (initCaps r) [.startMark, .re r, .endMark, .accept] hp

theorem attemptFull_sharp {C : Cfg} (hC : C.greedyOpt = true) (n n' : Nat) {s : List Ch} (f : Flags) (r : Re) {p : Nat} (hp : p ≤ s.length) :
    Agree (attemptFull C n s f r p) (attemptFull C.plain n' s f r.sharpFull p) := by
  unfold attemptFull Re.sharpFull
  rw [initCaps_sharpen]
  exact eval_sharpen (C := C) (D := C.plain) rfl hC rfl n n' s false p f (initCaps r) [.startMark, .re r, .re .sEnd, .endMark, .accept] hp

/-! ### The property -/

/-- C88 for `match`: a call with the optimisation and a call without it for the sharpened pattern that return return the
same result. -/
theorem C88_match {C : Cfg} (hC : C.greedyOpt = true) {s : List Ch} {f : Flags} {r : Re} {n n' p : Nat} {c c' : Caps}
    (hp : p ≤ s.length) (h : matchAt C n s f r p = .done c) (h' : matchAt C.plain n' s f r.sharpFull p = .done c') : c = c' := by
  unfold matchAt at h h'
  rw [show r.sharpFull = r.sharpen _ from rfl, toExec_sharpen] at h'
  exact (attemptFull_sharp hC n n' f r hp).done h h'

/-- C88 for `starts_with`. -/
theorem C88_starts_with {C : Cfg} (hC : C.greedyOpt = true) {s : List Ch} {f : Flags} {r : Re} {n n' p : Nat} {c c' : Caps}
    (hp : p ≤ s.length) (h : startsWithAt C n s f r p = .done c) (h' : startsWithAt C.plain n' s f r.sharp p = .done c') : c = c' := by
  unfold startsWithAt at h h'
  rw [show r.sharp = r.sharpen _ from rfl, toExec_sharpen] at h'
  exact (attempt_sharp hC n n' f r hp).done h h'

/-- C88 for `search`, if the sharpened pattern is treated as anchored as the pattern is. -/
theorem C88_search {C : Cfg} (hC : C.greedyOpt = true) {s : List Ch} {f : Flags} {r : Re} {n n' p : Nat} {c c' : Caps}
    (hp : p ≤ s.length) (ha : startsWithAnchor f r.sharp = startsWithAnchor f r) (h : searchAt C n s f r p = .done c)
    (h' : searchAt C.plain n' s f r.sharp p = .done c') : c = c' := by
  have loop : ∀ k p, p + k ≤ s.length → searchLoop C n s f r k p = .done c →
      searchLoop C.plain n' s f r.sharp k p = .done c' → c = c' := by
    intro k
    induction k with
    | zero =>
      intro p hp h h'
      have ha := attempt_sharp hC n n' f r (p := p) (s := s) (by omega)
      unfold searchLoop at h h'
      cases ho : attempt C n s f r p <;> rw [ho] at h ha <;> cases ho' : attempt C.plain n' s f r.sharp p <;> rw [ho'] at h' ha <;>
        first
        | (simp [Out.toExec] at h; done)
        | (simp [Out.toExec] at h'; done)
        | (have := ha rfl rfl; simp at this; done)
        | (dsimp only at h h'; rw [show r.sharp = r.sharpen _ from rfl, initCaps_sharpen, h] at h'; exact Exec.done.inj h')
        | exact ha.done h ((toExec_sharpen r _ _).symm.trans h')
    | succ k ih =>
      intro p hp h h'
      have ha := attempt_sharp hC n n' f r (p := p) (s := s) (by omega)
      unfold searchLoop at h h'
      cases ho : attempt C n s f r p <;> rw [ho] at h ha <;> cases ho' : attempt C.plain n' s f r.sharp p <;> rw [ho'] at h' ha <;>
        first
        | (simp [Out.toExec] at h; done)
        | (simp [Out.toExec] at h'; done)
        | (have := ha rfl rfl; simp at this; done)
        | exact ih (p+1) (by omega) h h'
        | exact ha.done h ((toExec_sharpen r _ _).symm.trans h')
  unfold searchAt at h h'
  rw [ha] at h'
  refine loop _ p ?_ h h'
  split <;> omega

/-- C88: for patterns that compile and make progress the calls return, with the same result. -/
theorem C88_same_results {C : Cfg} (hC : C.greedyOpt = true) {s : List Ch} {f : Flags} {r : Re} (hc : Compiles C r) (hn : r.Numbered)
    (hpr : r.progressive = true) {n p : Nat} (hp : p ≤ s.length) (hw : r.weight + s.length + 7 ≤ n) :
    (∃ c, matchAt C n s f r p = .done c ∧ matchAt C.plain n s f r.sharpFull p = .done c) ∧
    (∃ c, startsWithAt C n s f r p = .done c ∧ startsWithAt C.plain n s f r.sharp p = .done c) ∧
    (startsWithAnchor f r.sharp = startsWithAnchor f r →
      ∃ c, searchAt C n s f r p = .done c ∧ searchAt C.plain n s f r.sharp p = .done c) := by
  have w1 := Re.sharpen_weight r [.endMark, .accept]
  have w2 := Re.sharpen_weight r [.re .sEnd, .endMark, .accept]
  obtain ⟨⟨a, ha⟩, ⟨b, hb⟩, ⟨c, hc'⟩⟩ := C44_every_call_yields_a_result hc hn hpr s f hp hw
  obtain ⟨⟨a1, ha1⟩, _⟩ := C44_every_call_yields_a_result (n := n) (hc.sharpen [.re .sEnd, .endMark, .accept]) (hn.sharpen _)
    (Re.sharpen_progressive r _ hpr) s f hp (by omega)
  obtain ⟨_, ⟨b1, hb1⟩, ⟨c1, hc1⟩⟩ := C44_every_call_yields_a_result (n := n) (hc.sharpen [.endMark, .accept]) (hn.sharpen _)
    (Re.sharpen_progressive r _ hpr) s f hp (by omega)
  refine ⟨⟨a, ha, ?_⟩, ⟨b, hb, ?_⟩, fun e => ⟨c, hc', ?_⟩⟩
  · rw [C88_match hC hp ha ha1]; exact ha1
  · rw [C88_starts_with hC hp hb hb1]; exact hb1
  · rw [C88_search hC hp e hc' hc1]; exact hc1

/-- C88: `match` and `starts_with` report the first of the ways of matching the sharpened pattern, with its possessive
repetitions, in every mode and for every sequence of characters. -/
theorem C88_first_way {C : Cfg} (hC : C.greedyOpt = true) {n : Nat} {s : List Ch} {f : Flags} {r : Re} {p : Nat}
    (hr : r.WellNumbered) (hc : Compiles C r) (ha : r.attentive = true) (hp : p ≤ s.length) (hn : r.weight + s.length + 7 ≤ n) :
    (∃ c, matchAt C n s f r p = .done c ∧ ReportsFirst c p (waysFull true C s f r.sharpFull p)) ∧
    (∃ c, startsWithAt C n s f r p = .done c ∧ ReportsFirst c p (waysFrom true C s f r.sharp p)) := by
  have hpr := attentive_progressive ha
  obtain ⟨⟨a, h1, h2⟩, ⟨b, h3, h4⟩, _⟩ := C88_same_results (f := f) hC hc hr.numbered hpr hp hn
  exact ⟨⟨a, h1, C46_match (C := C.plain) rfl (hr.sharpen _) (Re.tame_capsIn (hc.sharpen _).tame) (Re.sharpen_attentive r _ ha) hp h2⟩,
    ⟨b, h3, C46_starts_with (C := C.plain) rfl (hr.sharpen _) (Re.tame_capsIn (hc.sharpen _).tame) (Re.sharpen_attentive r _ ha) hp h4⟩⟩

/-- C88 for `search`: a successful search reports the first way of matching the sharpened pattern from the first position
with any; a failed one means that there is none from the first position and, unless the pattern is treated as anchored,
from any later one. -/
theorem C88_search_way {C : Cfg} (hC : C.greedyOpt = true) {n : Nat} {s : List Ch} {f : Flags} {r : Re} {p : Nat}
    (hr : r.WellNumbered) (hc : Compiles C r) (ha : r.attentive = true) (hp : p ≤ s.length) (hn : r.weight + s.length + 7 ≤ n) :
    ∃ c, searchAt C n s f r p = .done c ∧
      ((c.whole.matched = true ∧ ∃ q, p ≤ q ∧ q ≤ s.length ∧ (startsWithAnchor f r = true → q = p) ∧
        (∃ τ rest, waysFrom true C s f r.sharp q = τ :: rest ∧ Reports c q τ) ∧ ∀ i, p ≤ i → i < q → waysFrom true C s f r.sharp i = []) ∨
      (c.whole.matched = false ∧ ∀ i, p ≤ i → i ≤ s.length → (startsWithAnchor f r = true → i = p) → waysFrom true C s f r.sharp i = [])) := by
  have each : ∀ q, q ≤ s.length → (attempt C n s f r q = .fail → waysFrom true C s f r.sharp q = []) ∧
      ∀ c, attempt C n s f r q = .ok c → c.whole.matched = true ∧ ∃ τ rest, waysFrom true C s f r.sharp q = τ :: rest ∧ Reports c q τ := by
    intro q hq
    have hw := attempt_way (C := C.plain) (n := n) (s := s) (f := f) (p := q) rfl (hr.sharpen [.endMark, .accept])
      (Re.tame_capsIn (hc.sharpen _).tame) (Re.sharpen_attentive r _ ha) hq
    have hag := attempt_sharp hC n n f r hq
    have w1 := Re.sharpen_weight r [.endMark, .accept]
    obtain ⟨_, ⟨d, hd⟩, _⟩ := C44_every_call_yields_a_result (n := n) (hc.sharpen [.endMark, .accept]) (hr.numbered.sharpen _)
      (Re.sharpen_progressive r _ (attentive_progressive ha)) s f hq (by omega)
    have hset : (attempt C.plain n s f r.sharp q).settled = true := by
      unfold startsWithAt at hd
      change (attempt C.plain n s f r.sharp q).toExec _ = _ at hd
      cases ho : attempt C.plain n s f r.sharp q <;> first | rfl | simp [ho, Out.toExec] at hd
    constructor
    · intro h
      rw [h] at hag
      exact hw.1 (hag rfl hset).symm
    · intro c h
      rw [h] at hag
      exact hw.2 c (hag rfl hset).symm
  obtain ⟨_, _, c, h⟩ := C44_every_call_yields_a_result hc hr.numbered (attentive_progressive ha) s f hp hn
  refine ⟨c, h, ?_⟩
  unfold searchAt at h
  cases hm : c.whole.matched with
  | true =>
    left
    obtain ⟨j, hj, h1, h2⟩ := searchLoop_ok h hm
    have hj' : p + j ≤ s.length := by split at hj <;> omega
    refine ⟨rfl, p + j, by omega, hj', ?_, ?_, ?_⟩
    · intro e; rw [if_pos e] at hj; omega
    · exact ((each _ hj').2 c h1).2
    · intro i hi hi'
      obtain ⟨k, rfl⟩ : ∃ k, i = p + k := ⟨i - p, by omega⟩
      exact (each _ (by omega)).1 (h2 k (by omega))
  | false =>
    right
    refine ⟨rfl, ?_⟩
    intro i hi hi' he
    have h1 := (searchLoop_fail' hr.numbered (by split <;> omega) h hm).2 (i - p) (by
      split
      · rename_i e; have := he e; omega
      · omega)
    rw [show p + (i - p) = i by omega] at h1
    exact (each _ hi').1 h1

/-- C88: if every greedy repetition may begin like what follows it, the optimisation does nothing. -/
theorem C88_unchanged {C : Cfg} (hC : C.greedyOpt = true) {s : List Ch} {f : Flags} {r : Re} (hc : Compiles C r) (hn : r.Numbered)
    (hpr : r.progressive = true) (h1 : r.sharp = r) (h2 : r.sharpFull = r) {n p : Nat} (hp : p ≤ s.length) (hw : r.weight + s.length + 7 ≤ n) :
    matchAt C n s f r p = matchAt C.plain n s f r p ∧ startsWithAt C n s f r p = startsWithAt C.plain n s f r p ∧
      searchAt C n s f r p = searchAt C.plain n s f r p := by
  obtain ⟨⟨a, ha, ha'⟩, ⟨b, hb, hb'⟩, hs⟩ := C88_same_results (f := f) hC hc hn hpr hp hw
  obtain ⟨c, hc, hc'⟩ := hs (by rw [h1])
  rw [h2] at ha'
  rw [h1] at hb' hc'
  rw [ha, ha', hb, hb', hc, hc']
  exact ⟨rfl, rfl, rfl⟩

section text
variable {P : PropTable} {C : Cfg} {n : Nat} {ml : Bool} {m : Method} {mods : List Mode} {lit : PatLit} {x : Subject}
  {t t' s : List Nat} {φ : Nat → Nat} {r : Re} {b b' : Body} {f : Flags}

/-- C88 for texts: if the tree of another text is the sharpened tree, then the calls for the first text report the first
of the ways that are prescribed by the other text. -/
theorem C88_text (hC : C.greedyOpt = true) (hb : Orderly P.find t b) (hsc : (bodyTree b).scannable true = true)
    (hb' : Orderly P.find t' b') {s : List Ch} {p : Nat} (hp : p ≤ s.length) (hn : (bodyTree b).weight + s.length + 7 ≤ n) :
    (bodyTree b' = (bodyTree b).sharpFull →
      ∃ c, matchAt C n s f (bodyTree b) p = .done c ∧ ReportsFirst c p (textWaysFull C s f b' p)) ∧
    (bodyTree b' = (bodyTree b).sharp →
      ∃ c, startsWithAt C n s f (bodyTree b) p = .done c ∧ ReportsFirst c p (textWays C s f b' p)) := by
  have hw := body_wellNumbered hb.reading.1 hb.faithful hb.selfFree
  obtain ⟨⟨c, h1, h2⟩, ⟨d, h3, h4⟩⟩ := C88_first_way (C := C) (n := n) (s := s) (f := f) (p := p) hC hw ⟨hb.tame, .inr hsc⟩
    (body_attentive b hb.faithful hb.size hb.attentive) hp hn
  constructor
  · intro e
    rw [← e] at h2
    exact ⟨c, h1, reportsFirst_congr ((hb'.order hp).filter _) h2⟩
  · intro e
    rw [← e] at h4
    exact ⟨d, h3, reportsFirst_congr (hb'.order hp) h4⟩

/-- C88 for the whole calls, whatever kind of literal the pattern is written in and however the subject is represented. -/
theorem C88_calls (hC : C.greedyOpt = true) (hb : Orderly P.find t b) (hsc : (bodyTree b).scannable true = true)
    (hl : lit.Spells t) (ht : ∀ c ∈ t, IsScalar c) (hx : x.Holds s φ) (hs : ∀ c ∈ s, IsScalar c)
    (hf : (∃ u, x = .u8 u) → b.forward = true) : ∃ N, ∀ n, N ≤ n →
      (∃ y, call P C n ml .match_ mods lit x = some (.one (.done y)) ∧
        ReportsAt φ y 0 (waysFull true C (codePoints s) (callFlags ml mods) (bodyTree b).sharpFull 0)) ∧
      (∃ y, call P C n ml .startsWith mods lit x = some (.one (.done y)) ∧
        ReportsAt φ y 0 (waysFrom true C (codePoints s) (callFlags ml mods) (bodyTree b).sharp 0)) := by
  refine ⟨(bodyTree b).weight + (codePoints s).length + 7, fun n hn => ?_⟩
  have hw := body_wellNumbered hb.reading.1 hb.faithful hb.selfFree
  have hbuild : build P t = .pattern (bodyTree b) := hb.reading.2 ▸ build_print hb.reading.1
  obtain ⟨⟨c, h1, h2⟩, ⟨d, h3, h4⟩⟩ := C88_first_way (C := C) (n := n) (s := codePoints s) (f := callFlags ml mods) (p := 0) hC hw
    ⟨hb.tame, .inr hsc⟩ (body_attentive b hb.faithful hb.size hb.attentive) (Nat.zero_le _) hn
  refine ⟨⟨c.mapPos φ, ?_, c, rfl, h2⟩, ⟨d.mapPos φ, ?_, d, rfl, h4⟩⟩ <;>
    rw [Ctre.call_eq hl ht hx hs hbuild fun h => body_forward b (hf h)] <;> simp only [Method.plain, Answer.mapPos]
  · rw [cMatch, h1]; rfl
  · rw [cStartsWith, h3]; rfl

end text

/-! ### Cases -/

/-- `[a ]*+\b` -/
def sampleSharp : Body := .alt (.one (.cons (.set false [.one (.plain 97), .one (.plain 32)]) (.star .poss) (.one .wordBoundary .none)))

theorem sampleSharp_orderly : Orderly (PropTable.find {}) [91, 97, 32, 93, 42, 43, 92, 98] sampleSharp where
  reading := by
    refine ⟨?_, rfl⟩
    simp [sampleSharp, Body.WF, Alt.WF, Cat.WF, Atom.WF, Char1.WF, special, Quant.WF, Atom.groups, Cat.groups, Alt.groups, Body.groups, SetWF, SetItem.WF, specialInSet]
  faithful := by
    simp [sampleSharp, Body.Faithful, Alt.Faithful, Cat.Faithful, Atom.Faithful, Quant.Faithful, Char1.Faithful, possessiveItem,
      Atom.possessive, Atom.leadsPossessive, Cat.leadsPossessive, Quant.kind, SetItem.Faithful]
  size := by decide +kernel
  inOrder := by decide +kernel
  selfFree := by simp [sampleSharp, Body.selfFree, Alt.selfFree, Cat.selfFree, Atom.selfFree]
  known := by decide +kernel
  attentive := by decide +kernel

/-- The hypotheses of `C88_text`: the default build treats `[a ]*\b` as `[a ]*+\b` is written, for `match` and for the other
calls. -/
theorem sampleSharp_tree : (bodyTree sampleBoundary).scannable true = true ∧ bodyTree sampleSharp = (bodyTree sampleBoundary).sharp ∧
    bodyTree sampleSharp = (bodyTree sampleBoundary).sharpFull := ⟨by decide +kernel, rfl, rfl⟩

-- in "a  " there is a way for `[a ]*\b` and none for `[a ]*+\b`; the default build reports failure
example : textWays {} [97, 32, 32] {} sampleBoundary 0 ≠ [] ∧ textWays {} [97, 32, 32] {} sampleSharp 0 = [] ∧
    (startsWithAt {} 40 [97, 32, 32] {} (bodyTree sampleBoundary) 0).success = false := by decide +kernel
-- in "a  a" both have a way, which is reported
example : (textWays {} [97, 32, 32, 97] {} sampleSharp 0).map (·.pos) = [4] ∧
    (startsWithAt {} 40 [97, 32, 32, 97] {} (bodyTree sampleBoundary) 0).success = true := by decide +kernel

/-- `(?:[a-f]+,)*[^,]*x`, in which only the inner repetition is sharpened, since the others may begin like what follows. -/
def sampleSharp2 : Re := .seq [.rep .greedy 0 0 [.rep .greedy 1 0 [.cc (.range 97 102)], .cc (.chr 44)],
  .rep .greedy 0 0 [.cc (.negSet [.chr 44])], .cc (.chr 120)]

example : sampleSharp2.sharp = .seq [.rep .greedy 0 0 [.rep .poss 1 0 [.cc (.range 97 102)], .cc (.chr 44)],
  .rep .greedy 0 0 [.cc (.negSet [.chr 44])], .cc (.chr 120)] := by rfl
example : sampleSharp2.WellNumbered := ⟨by decide +kernel, by decide +kernel, by decide +kernel⟩
example : Compiles {} sampleSharp2 := ⟨by decide +kernel, .inr (by decide +kernel)⟩
example : sampleSharp2.attentive = true ∧ startsWithAnchor {} sampleSharp2.sharp = startsWithAnchor {} sampleSharp2 := by decide +kernel
example : (cMatch {} 60 [97, 98, 44, 99, 120, 120] {} sampleSharp2).success = true := by decide +kernel

/-- `a*a`, for which nothing changes, as in `C88_unchanged`; case does not matter. -/
example : (Re.seq [.rep .greedy 0 0 [.cc (.chr 97)], .cc (.chr 97)]).sharp = .seq [.rep .greedy 0 0 [.cc (.chr 97)], .cc (.chr 97)] ∧
    (Re.seq [.rep .greedy 0 0 [.cc (.chr 97)], .cc (.chr 97)]).sharpFull = .seq [.rep .greedy 0 0 [.cc (.chr 97)], .cc (.chr 97)] ∧
    (cMatch {} 30 [65, 97] { ci := true } (.seq [.rep .greedy 0 0 [.cc (.chr 97)], .cc (.chr 97)])).success = true :=
  ⟨rfl, rfl, by decide +kernel⟩

/-! ### The condition for `search` is needed -/

/-- The condition of `C88_search`: `(?:\Aa)?b` is searched for everywhere, and `(?:\Aa)?+b` is treated as anchored.  So the
pattern that is matched at each position is the sharpened one, but it is not the one which decides where to look. -/
theorem C88_fails_anchored :
    startsWithAnchor {} (.seq [.rep .greedy 0 1 [.sBegin, .cc (.chr 97)], .cc (.chr 98)]) = false ∧
    startsWithAnchor {} (Re.sharp (.seq [.rep .greedy 0 1 [.sBegin, .cc (.chr 97)], .cc (.chr 98)])) = true ∧
    (cSearch {} 40 [99, 98] {} (.seq [.rep .greedy 0 1 [.sBegin, .cc (.chr 97)], .cc (.chr 98)])).success = true ∧
    (cSearch (Cfg.plain {}) 40 [99, 98] {} (Re.sharp (.seq [.rep .greedy 0 1 [.sBegin, .cc (.chr 97)], .cc (.chr 98)]))).success = false := by
  decide +kernel

end Ctre
