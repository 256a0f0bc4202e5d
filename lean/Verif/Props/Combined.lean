import Verif.Spec.Combined
import Verif.Model.Access
import Verif.Props.Respell
import Verif.Props.Indifferent

/-
C90: patterns joined by the operators `|` and `>>` give the results of the pattern text `(?:a)|(?:b)` or `(?:a)(?:b)`.
-/
namespace Ctre
open Parse Surface

/-- The expression has the type with the tree `r`: pattern texts, joined by the operators in any way.  `b` is the pattern text that is
expected to mean the same. -/
inductive Joined (P : PropTable) : Re → Body → Prop
  | text {t : List Nat} {r : Re} {b : Body} : build P t = .pattern r → Reading P.find t b → Joined P r b
  | or {r r' : Re} {b b' : Body} : Joined P r b → Joined P r' b' → Joined P (orPattern r r') (orBody b b')
  | andThen {r r' : Re} {b b' : Body} : Joined P r b → Joined P r' b' → Joined P (andThen r r') (thenBody b b')

variable {P : PropTable} {T : List Nat} {r R : Re} {b : Body}

theorem Joined.captures (h : Joined P r b) : ∀ {k : Nat}, b.WF P.find k → r.captures = b.visible.map toGroup := by
  induction h with
  | text h hb => intro k hw; rw [reading_tree h hb]; exact captures_body _ hw
  | or h1 h2 i1 i2 =>
    intro k hw
    simp only [orBody, Body.WF, Alt.WF, Cat.WF, Atom.WF] at hw
    simp only [orPattern, Re.captures, capturesList, orBody, Body.visible, Alt.visible, Cat.visible, Atom.visible, List.map_append, List.append_nil]
    rw [i1 hw.1.1, i2 hw.2.1]
  | andThen h1 h2 i1 i2 =>
    intro k hw
    simp only [thenBody, Body.WF, Alt.WF, Cat.WF, Atom.WF] at hw
    simp only [Ctre.andThen, Re.captures, capturesList, thenBody, Body.visible, Alt.visible, Cat.visible, Atom.visible, List.map_append, List.append_nil]
    rw [i1 hw.1, i2 hw.2.2.2.1]

theorem Joined.noSelf (h : Joined P r b) {num : List Nat → Option Nat} : ∀ {k : Nat}, b.WF P.find k → b.Faithful → b.selfFree num [] →
    r.noSelf num [] = true := by
  induction h with
  | text h hb => intro k hw hf hs; rw [reading_tree h hb]; exact noSelf_body _ hw hf (by simp) hs
  | or h1 h2 i1 i2 =>
    intro k hw hf hs
    simp only [orBody, Body.WF, Alt.WF, Cat.WF, Atom.WF] at hw
    simp only [orBody, Body.Faithful, Alt.Faithful, Cat.Faithful, Atom.Faithful] at hf
    simp only [orBody, Body.selfFree, Alt.selfFree, Cat.selfFree, Atom.selfFree] at hs
    simp only [orPattern, Re.noSelf, noSelfList, i1 hw.1.1 hf.1.1 hs.1, i2 hw.2.1 hf.2.1 hs.2, Bool.and_self]
  | andThen h1 h2 i1 i2 =>
    intro k hw hf hs
    simp only [thenBody, Body.WF, Alt.WF, Cat.WF, Atom.WF] at hw
    simp only [thenBody, Body.Faithful, Alt.Faithful, Cat.Faithful, Atom.Faithful] at hf
    simp only [thenBody, Body.selfFree, Alt.selfFree, Cat.selfFree, Atom.selfFree] at hs
    simp only [Ctre.andThen, Re.noSelf, noSelfList, i1 hw.1 hf.1 hs.1, i2 hw.2.2.2.1 hf.2.2.1.1 hs.2, Bool.and_self]

theorem Joined.tame (h : Joined P r b) {gs : List (Nat × Option (List Nat))} : b.Faithful → b.known gs = true →
    r.tame (gs.map Prod.fst) (gs.filterMap Prod.snd) false = true := by
  induction h with
  | text h hb => intro hf hs; rw [reading_tree h hb]; exact body_tame _ hf hs
  | or h1 h2 i1 i2 =>
    intro hf hs
    simp only [orBody, Body.Faithful, Alt.Faithful, Cat.Faithful, Atom.Faithful] at hf
    simp only [orBody, Body.known, Alt.known, Cat.known, Atom.known, Bool.and_eq_true] at hs
    simp only [orPattern, Re.tame, tameAll, i1 hf.1.1 hs.1, i2 hf.2.1 hs.2, Bool.and_self]
  | andThen h1 h2 i1 i2 =>
    intro hf hs
    simp only [thenBody, Body.Faithful, Alt.Faithful, Cat.Faithful, Atom.Faithful] at hf
    simp only [thenBody, Body.known, Alt.known, Cat.known, Atom.known, Bool.and_eq_true] at hs
    simp only [Ctre.andThen, Re.tame, tameAll, i1 hf.1 hs.1, i2 hf.2.2.1.1 hs.2, Bool.and_self]

theorem Joined.attentive (h : Joined P r b) : b.Faithful → b.size < szMod → b.attentive = true → r.attentive = true := by
  induction h with
  | text h hb => intro hf hz hs; rw [reading_tree h hb]; exact body_attentive _ hf hz hs
  | or h1 h2 i1 i2 =>
    intro hf hz hs
    simp only [orBody, Body.Faithful, Alt.Faithful, Cat.Faithful, Atom.Faithful] at hf
    simp only [orBody, Body.size, Alt.size, Cat.size, Atom.size] at hz
    simp only [orBody, Body.attentive, Alt.attentive, Cat.attentive, Atom.attentive, Bool.and_eq_true] at hs
    simp only [orPattern, Re.attentive, attentiveAll, i1 hf.1.1 (by omega) hs.1.2, i2 hf.2.1 (by omega) hs.2.2, Bool.and_self]
  | andThen h1 h2 i1 i2 =>
    intro hf hz hs
    simp only [thenBody, Body.Faithful, Alt.Faithful, Cat.Faithful, Atom.Faithful] at hf
    simp only [thenBody, Body.size, Alt.size, Cat.size, Atom.size] at hz
    simp only [thenBody, Body.attentive, Alt.attentive, Cat.attentive, Atom.attentive, Bool.and_eq_true] at hs
    simp only [Ctre.andThen, Re.attentive, attentiveAll, i1 hf.1 (by omega) hs.1.2, i2 hf.2.2.1.1 (by omega) hs.2.2, Bool.and_self,
      List.isEmpty_cons, Bool.not_false]

theorem Joined.order (h : Joined P r b) {E : Env} {s : List Ch} : b.Faithful → b.size < szMod → b.inOrder = true → ∀ {σ : MState}, σ.pos ≤ s.length →
    FirstSame (r.ways true E s σ) (b.ways true E s σ) := by
  induction h with
  | text h hb => intro hf hz ho σ hp; rw [reading_tree h hb]; exact body_order _ hf hz ho hp
  | or h1 h2 i1 i2 =>
    intro hf hz ho σ hp
    simp only [orBody, Body.Faithful, Alt.Faithful, Cat.Faithful, Atom.Faithful] at hf
    simp only [orBody, Body.size, Alt.size, Cat.size, Atom.size] at hz
    simp only [orBody, Body.inOrder, Alt.inOrder, Cat.inOrder, Atom.inOrder, Bool.and_eq_true] at ho
    simp only [orPattern, Re.ways, waysAny, orBody, Body.ways, Alt.ways, Cat.ways, Atom.ways, List.append_nil]
    exact (i1 hf.1.1 (by omega) ho.1.1 hp).append (i2 hf.2.1 (by omega) ho.2.1 hp)
  | andThen h1 h2 i1 i2 =>
    intro hf hz ho σ hp
    simp only [thenBody, Body.Faithful, Alt.Faithful, Cat.Faithful, Atom.Faithful] at hf
    simp only [thenBody, Body.size, Alt.size, Cat.size, Atom.size] at hz
    simp only [thenBody, Body.inOrder, Alt.inOrder, Cat.inOrder, Atom.inOrder, Bool.and_eq_true] at ho
    simp only [Ctre.andThen, Re.ways, waysAll, thenBody, Body.ways, Alt.ways, Cat.ways, Atom.ways]
    refine (i1 hf.1 (by omega) ho.1.1 hp).flatMap fun ρ hρ => ?_
    have := i2 hf.2.2.1.1 (by omega) ho.2.1 (Re.ways_fwd hρ hp).2
    simpa using this

theorem Joined.first (h : Joined P r b) (hb : Orderly P.find T b) {C : Cfg} {s : List Ch} {f : Flags} {p : Nat} (hp : p ≤ s.length) :
    FirstSame (waysFrom true C s f r p) (textWays C s f b p) := by
  unfold waysFrom textWays
  have : envOf C r = b.env C := by
    have : groupNumber r.captures = numberOf b.visible := by
      funext n; rw [h.captures hb.reading.1, groupNumber_visible]
    simp only [envOf, Body.env, this]
  rw [this]
  exact h.order hb.faithful hb.size hb.inOrder hp

theorem Joined.wellNumbered (h : Joined P r b) (hb : Orderly P.find T b) : r.WellNumbered := by
  have hc := h.captures hb.reading.1
  have hw := body_wellNumbered hb.reading.1 hb.faithful hb.selfFree
  have hc' := captures_body b hb.reading.1
  refine ⟨by rw [hc, ← hc']; exact hw.distinct, by rw [hc, ← hc']; exact hw.positive, ?_⟩
  have : groupNumber r.captures = numberOf b.visible := by
    funext n; rw [hc, groupNumber_visible]
  rw [this]
  exact h.noSelf hb.reading.1 hb.faithful hb.selfFree

theorem Joined.tames (h : Joined P r b) (hb : Orderly P.find T b) : r.tame (groupIds r.captures) (groupNames r.captures) false = true := by
  have h1 : groupIds r.captures = b.visible.map Prod.fst := by
    rw [h.captures hb.reading.1]; simp [groupIds, toGroup, Function.comp_def]
  have h2 : groupNames r.captures = b.visible.filterMap Prod.snd := by
    rw [h.captures hb.reading.1, groupNames, List.filterMap_map]; rfl
  rw [h1, h2]
  exact h.tame hb.faithful hb.known

/-- C90 for `match` and `starts_with`: the call returns a result and reports the first of the ways of the text. -/
theorem C90_ways (h : Joined P r b) (hb : Orderly P.find T b) {C : Cfg} (hC : C.greedyOpt = false) {n : Nat} {s : List Ch} {f : Flags}
    {p : Nat} (hp : p ≤ s.length) (hn : r.weight + s.length + 7 ≤ n) :
    (∃ c, matchAt C n s f r p = .done c ∧ ReportsFirst c p (textWaysFull C s f b p)) ∧
    (∃ c, startsWithAt C n s f r p = .done c ∧ ReportsFirst c p (textWays C s f b p)) := by
  have ha := h.attentive hb.faithful hb.size hb.attentive
  obtain ⟨⟨c, h1, h2⟩, ⟨d, h3, h4⟩⟩ := C46_first_way (n := n) (s := s) (f := f) (p := p) hC (h.wellNumbered hb)
    ⟨h.tames hb, .inl hC⟩ (attentive_progressive ha) ha hp hn
  exact ⟨⟨c, h1, reportsFirst_congr ((h.first hb hp).filter _) h2⟩, ⟨d, h3, reportsFirst_congr (h.first hb hp) h4⟩⟩

/-- C90: so the expression and the text give the same results; a reference to a group, or its number, means the same in both. -/
theorem C90_same (h : Joined P r b) (hT : build P T = .pattern R) (hb : Orderly P.find T b) {C : Cfg} (hC : C.greedyOpt = false)
    {n n' : Nat} {s : List Ch} {f : Flags} {p : Nat} (hp : p ≤ s.length) (hn : r.weight + s.length + 7 ≤ n)
    (hn' : R.weight + s.length + 7 ≤ n') :
    (∃ c c', matchAt C n s f r p = .done c ∧ matchAt C n' s f R p = .done c' ∧ SameReport c c') ∧
    (∃ c c', startsWithAt C n s f r p = .done c ∧ startsWithAt C n' s f R p = .done c' ∧ SameReport c c') := by
  obtain ⟨⟨c, h1, h2⟩, ⟨d, h3, h4⟩⟩ := C90_ways h hb hC (f := f) hp hn
  obtain ⟨⟨c', h1', h2'⟩, ⟨d', h3', h4'⟩⟩ := C75_match hT hb hC (f := f) hp hn'
  have hsh : shape r.captures = shape R.captures := by
    rw [hb.tree hT, h.captures hb.reading.1, captures_body b hb.reading.1]
  have hw := (h.wellNumbered hb).numbered
  have hw' := (hb.wellNumbered hT).numbered
  refine ⟨⟨c, c', h1, h1', sameReport_first ?_ (.refl _) h2 h2'⟩, ⟨d, d', h3, h3', sameReport_first ?_ (.refl _) h4 h4'⟩⟩
  · rw [shape_match hw hp h1, shape_match hw' hp h1', hsh]
  · rw [shape_startsWith hw hp h3, shape_startsWith hw' hp h3', hsh]

theorem Joined.beginless (h : Joined P r b) : b.noBegin = true → Re.beginless r = true := by
  induction h with
  | text h hb => intro hn; rw [reading_tree h hb]; exact body_beginless _ hn
  | or h1 h2 i1 i2 =>
    intro hn
    simp only [orBody, Body.noBegin, Alt.noBegin, Cat.noBegin, Atom.noBegin, Bool.and_eq_true] at hn
    simp only [orPattern, Re.beginless, beginlessAll, i1 hn.1, i2 hn.2, List.isEmpty_cons, Bool.not_false, Bool.and_self]
  | andThen h1 h2 i1 i2 =>
    intro hn
    simp only [thenBody, Body.noBegin, Alt.noBegin, Cat.noBegin, Atom.noBegin, Bool.and_eq_true] at hn
    simp only [Ctre.andThen, Re.beginless, beginlessAll, i1 hn.1, i2 hn.2, Bool.and_self]

/-- C90 for `search` from any position, if `^` and `\A` do not occur: the first position from which the text has a way, and the first way
from there. -/
theorem C90_search_ways (h : Joined P r b) (hb : Orderly P.find T b) {C : Cfg} (hC : C.greedyOpt = false) (hbeg : b.noBegin = true)
    {n : Nat} {s : List Ch} {f : Flags} {p : Nat} (hp : p ≤ s.length) (hn : r.weight + s.length + 7 ≤ n) :
    ∃ c, searchAt C n s f r p = .done c ∧
      ((c.whole.matched = true ∧ ∃ q τ rest, p ≤ q ∧ q ≤ s.length ∧ textWays C s f b q = τ :: rest ∧ Reports c q τ ∧
          ∀ i, p ≤ i → i < q → textWays C s f b i = []) ∨
        (c.whole.matched = false ∧ ∀ i, p ≤ i → i ≤ s.length → textWays C s f b i = [])) := by
  have ha := h.attentive hb.faithful hb.size hb.attentive
  have hw := h.wellNumbered hb
  have hnil : ∀ i, i ≤ s.length → (waysFrom true C s f r i = [] ↔ textWays C s f b i = []) := by
    intro i hi
    have := (h.first hb (C := C) (s := s) (f := f) hi).head
    cases h1 : waysFrom true C s f r i <;> cases h2 : textWays C s f b i <;> simp_all
  obtain ⟨_, _, c, hc⟩ := C44_every_call_yields_a_result (C := C) ⟨h.tames hb, .inl hC⟩ hw.numbered (attentive_progressive ha) s f hp hn
  have hna : startsWithAnchor f r = false := beginless_anchor f r (h.beginless hbeg)
  refine ⟨c, hc, ?_⟩
  rcases C46_search hC hw (Re.tame_capsIn (h.tames hb)) ha hp hc with ⟨h1, q, hpq, hq, _, ⟨τ, rest, h2, h3⟩, h4⟩ | ⟨h1, h2⟩
  · refine .inl ⟨h1, q, ?_⟩
    have := (h.first hb (C := C) (s := s) (f := f) hq).head
    rw [h2] at this
    cases h5 : textWays C s f b q with
    | nil => rw [h5] at this; simp at this
    | cons τ' rest' =>
      rw [h5] at this
      simp only [List.head?_cons, Option.some.injEq] at this
      exact ⟨τ', rest', hpq, hq, rfl, this ▸ h3, fun i hpi hi => (hnil i (by omega)).1 (h4 i hpi hi)⟩
  · exact .inr ⟨h1, fun i hpi hi => (hnil i hi).1 (h2 i hpi hi fun e => by rw [hna] at e; cases e)⟩

/-- C90: `search` gives the same result for the expression and the text. -/
theorem C90_search (h : Joined P r b) (hT : build P T = .pattern R) (hb : Orderly P.find T b) {C : Cfg} (hC : C.greedyOpt = false)
    (hbeg : b.noBegin = true) {n n' : Nat} {s : List Ch} {f : Flags} (hn : r.weight + s.length + 7 ≤ n) (hn' : R.weight + s.length + 7 ≤ n') :
    ∃ c c', cSearch C n s f r = .done c ∧ cSearch C n' s f R = .done c' ∧ SameReport c c' := by
  obtain ⟨c, h1, h2⟩ := C90_search_ways h hb hC hbeg (s := s) (f := f) (Nat.zero_le _) hn
  obtain ⟨c', h1', h2'⟩ := C75_search hT hb hC (f := f) (.inl hbeg) hn'
  refine ⟨c, c', h1, h1', sameReport_search (b := b) (b' := b) (C := C) (s := s) (f := f) (.refl _) ?_ ?_ h2'⟩
  · rw [shape_search (h.wellNumbered hb).numbered h1, shape_search (hb.wellNumbered hT).numbered h1', hb.tree hT, h.captures hb.reading.1,
      captures_body b hb.reading.1]
  · rcases h2 with ⟨m, q, τ, rest, _, hq, g1, g2, g3⟩ | ⟨m, g⟩
    · exact .inl ⟨m, q, τ, rest, hq, g1, g2, fun i hi => g3 i (Nat.zero_le _) hi⟩
    · exact .inr ⟨m, fun i hi => g i (Nat.zero_le _) hi⟩

/-- C90 in the default build, for expressions and texts that the optimisation is harmless for (see C34). -/
theorem C90_default (h : Joined P r b) (hT : build P T = .pattern R) (hb : Orderly P.find T b) {C : Cfg} {ml : Bool}
    (hC : C.greedyOpt = false ∨ r.scannable true = true) (hC' : C.greedyOpt = false ∨ R.scannable true = true)
    (hst : r.steady ml false false = true) (hst' : R.steady ml false false = true) {n n' : Nat} {s : List Ch} {f : Flags} {p : Nat}
    (hs : ∀ v ∈ s, IsCh v) (hblk : f.blk = false) (hci : r.CaseSafe f.ci) (hci' : R.CaseSafe f.ci) (hml : f.ml = true → ml = true)
    (hp : p ≤ s.length) (hn : r.weight + s.length + 7 ≤ n) (hn' : R.weight + s.length + 7 ≤ n') (hbeg : b.noBegin = true) :
    (∃ c c', matchAt C n s f r p = .done c ∧ matchAt C n' s f R p = .done c' ∧ SameReport c c') ∧
    (∃ c c', startsWithAt C n s f r p = .done c ∧ startsWithAt C n' s f R p = .done c' ∧ SameReport c c') ∧
    ∃ c c', cSearch C n s f r = .done c ∧ cSearch C n' s f R = .done c' ∧ SameReport c c' := by
  have hw := (h.wellNumbered hb).numbered
  have hw' := (hb.wellNumbered hT).numbered
  have hc : Compiles C r := ⟨h.tames hb, hC⟩
  have hc' : Compiles C R := ⟨by rw [hb.tree hT]; exact hb.tame, hC'⟩
  obtain ⟨e1, e2, _⟩ := C34_same_results (s := s) hc hw hst hs hblk hci hml hp hn
  obtain ⟨e1', e2', _⟩ := C34_same_results (s := s) hc' hw' hst' hs hblk hci' hml hp hn'
  obtain ⟨_, _, e3⟩ := C34_same_results (s := s) hc hw hst hs hblk hci hml (Nat.zero_le _) hn
  obtain ⟨_, _, e3'⟩ := C34_same_results (s := s) hc' hw' hst' hs hblk hci' hml (Nat.zero_le _) hn'
  obtain ⟨⟨c, c', k1, k2, k3⟩, ⟨d, d', k4, k5, k6⟩⟩ := C90_same h hT hb (C := C.plain) rfl (f := f) hp hn hn'
  obtain ⟨e, e', k7, k8, k9⟩ := C90_search h hT hb (C := C.plain) rfl hbeg (f := f) hn hn'
  exact ⟨⟨c, c', e1.trans k1, e1'.trans k2, k3⟩, ⟨d, d', e2.trans k4, e2'.trans k5, k6⟩, ⟨e, e', e3.trans k7, e3'.trans k8, k9⟩⟩

/-! ### Cases -/

/-- `a*` -/
def sampleJoinStar : Body := .alt (.one (.one (.ch (.plain 97)) (.star .greedy)))
/-- `(a)\1|b` -/
def sampleJoinTwice : Body := .alt (.bar (.cons (.cap 1 (.alt (.one (.one (.ch (.plain 97)) .none)))) .none (.one (.ref 49) .none))
  (.one (.one (.ch (.plain 98)) .none)))

theorem sampleJoinStar_reading : Reading (PropTable.find {}) [97, 42] sampleJoinStar :=
  ⟨by simp [sampleJoinStar, Body.WF, Alt.WF, Cat.WF, Atom.WF, Char1.WF, special, Quant.WF], rfl⟩

theorem sampleJoinTwice_reading : Reading (PropTable.find {}) [40, 97, 41, 92, 49, 124, 98] sampleJoinTwice :=
  ⟨by simp [sampleJoinTwice, Body.WF, Alt.WF, Cat.WF, Atom.WF, Char1.WF, special, Quant.WF, Cat.groups, Atom.groups, Alt.groups, Body.groups], rfl⟩

/-- `ctre::create<"a*">() >> ctre::create<"(a)\\1|b">() | ctre::create<"a*">()`, and its text `(?:(?:a*)(?:(a)\1|b))|(?:a*)` -/
def sampleCombined : Body := orBody (thenBody sampleJoinStar sampleJoinTwice) sampleJoinStar

theorem sampleCombined_joined : ∃ r r', build {} [97, 42] = .pattern r ∧ build {} [40, 97, 41, 92, 49, 124, 98] = .pattern r' ∧
    Joined {} (orPattern (andThen r r') r) sampleCombined :=
  ⟨_, _, rfl, rfl, .or (.andThen (.text rfl sampleJoinStar_reading) (.text rfl sampleJoinTwice_reading)) (.text rfl sampleJoinStar_reading)⟩

theorem sampleCombined_orderly : Orderly (PropTable.find {}) sampleCombined.print sampleCombined where
  reading := by
    refine ⟨?_, rfl⟩
    simp [sampleCombined, orBody, thenBody, sampleJoinStar, sampleJoinTwice, Body.WF, Alt.WF, Cat.WF, Atom.WF, Char1.WF, special, Quant.WF,
      Cat.groups, Atom.groups, Alt.groups, Body.groups]
  faithful := by
    simp [sampleCombined, orBody, thenBody, sampleJoinStar, sampleJoinTwice, Body.Faithful, Alt.Faithful, Cat.Faithful, Atom.Faithful, Quant.Faithful,
      Char1.Faithful, possessiveItem, Atom.possessive, Atom.leadsPossessive, Cat.leadsPossessive, Body.possessive, Alt.possessive, Cat.possessive, Body.leadsPossessive, Alt.leadsPossessive, Quant.kind]
  size := by decide +kernel
  inOrder := by decide +kernel
  selfFree := by
    simp [sampleCombined, orBody, thenBody, sampleJoinStar, sampleJoinTwice, Body.selfFree, Alt.selfFree, Cat.selfFree, Atom.selfFree]
  known := by decide +kernel
  attentive := by decide +kernel

example : sampleCombined.noBegin = true := by decide +kernel

/-- The condition that the text exists with the group numbers of the parts is needed (see also `C57_fails_numbering`): in
`(a) >> (b)\1` the reference means the second group, in `(?:(a))(?:(b)\1)` the first; "abb" and "aba". -/
theorem C90_fails_numbering : ∃ r r' R, build {} [40, 97, 41] = .pattern r ∧ build {} [40, 98, 41, 92, 49] = .pattern r' ∧
    build {} [40, 63, 58, 40, 97, 41, 41, 40, 63, 58, 40, 98, 41, 92, 49, 41] = .pattern R ∧
    (cMatch {} 60 [97, 98, 98] {} (andThen r r')).success = true ∧ (cMatch {} 60 [97, 98, 97] {} (andThen r r')).success = false ∧
    (cMatch {} 60 [97, 98, 98] {} R).success = false ∧ (cMatch {} 60 [97, 98, 97] {} R).success = true :=
  ⟨_, _, _, rfl, rfl, rfl, by decide +kernel⟩

end Ctre
