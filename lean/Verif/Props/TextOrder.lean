import Verif.Lemmas.SurfaceFit
import Verif.Lemmas.SurfaceFirm
import Verif.Props.Language
import Verif.Props.Preference
import Verif.Props.Anchored

/-
C75: which match is reported follows from the text of the pattern.
-/
namespace Ctre
open Parse Surface

/-- The text can be read as `b`, and `b` stays within the limits of C31: the counts and numbers are in range, lookbehinds have a
supported content.  No group refers to itself while it is open, every reference refers to a group of the result, no `?` is
applied to `(?:a??)`, and in every repetition the library notices whether an iteration has consumed something. -/
structure Orderly (find : List Nat → Option (List Nat) → Option Nat) (t : List Nat) (b : Body) : Prop where
  reading : Reading find t b
  faithful : b.Faithful
  size : b.size < 2 ^ 64
  inOrder : b.inOrder = true
  selfFree : b.selfFree (numberOf b.visible) []
  known : b.known b.visible = true
  attentive : b.attentive = true

/-- The ways of matching the text of the pattern from `p`, the preferred one first. -/
def textWays (C : Cfg) (s : List Ch) (f : Flags) (b : Body) (p : Nat) : List MState := b.ways true (b.env C) s (MState.start p f)

/-- The ways of matching everything from `p` to the end. -/
def textWaysFull (C : Cfg) (s : List Ch) (f : Flags) (b : Body) (p : Nat) : List MState :=
  (textWays C s f b p).filter fun τ => decide (τ.pos = s.length)

variable {P : PropTable} {t : List Nat} {r : Re} {b : Body}

theorem Orderly.tree (h : build P t = .pattern r) (hb : Orderly P.find t b) : r = bodyTree b := by
  have := build_print hb.reading.1
  rw [hb.reading.2, h] at this
  cases this; rfl

theorem Orderly.tame (hb : Orderly P.find t b) :
    (bodyTree b).tame (groupIds (bodyTree b).captures) (groupNames (bodyTree b).captures) false = true := by
  have h1 : groupIds (bodyTree b).captures = b.visible.map Prod.fst := by
    rw [captures_body b hb.reading.1]; simp [groupIds, toGroup, Function.comp_def]
  have h2 : groupNames (bodyTree b).captures = b.visible.filterMap Prod.snd := by
    rw [captures_body b hb.reading.1, groupNames, List.filterMap_map]; rfl
  rw [h1, h2]
  exact body_tame b hb.faithful hb.known

theorem Orderly.order (hb : Orderly P.find t b) {C : Cfg} {s : List Ch} {f : Flags} {p : Nat} (hp : p ≤ s.length) :
    FirstSame (waysFrom true C s f (bodyTree b) p) (textWays C s f b p) := by
  unfold waysFrom textWays
  rw [envOf_body hb.reading.1]
  exact body_order b hb.faithful hb.size hb.inOrder hp

theorem reportsFirst_congr {c : Caps} {p : Nat} {L M : List MState} (h : FirstSame L M) (hr : ReportsFirst c p L) : ReportsFirst c p M := by
  have := h.head
  cases L <;> cases M <;> simp_all [ReportsFirst]

/-- C75 for `match` and `starts_with`: the call returns a result, and it reports the first of the ways that are prescribed by
the text of the pattern, or failure if there is none. -/
theorem C75_match (h : build P t = .pattern r) (hb : Orderly P.find t b) {C : Cfg} (hC : C.greedyOpt = false) {n : Nat} {s : List Ch}
    {f : Flags} {p : Nat} (hp : p ≤ s.length) (hn : r.weight + s.length + 7 ≤ n) :
    (∃ c, matchAt C n s f r p = .done c ∧ ReportsFirst c p (textWaysFull C s f b p)) ∧
    (∃ c, startsWithAt C n s f r p = .done c ∧ ReportsFirst c p (textWays C s f b p)) := by
  obtain rfl := hb.tree h
  have ha := body_attentive b hb.faithful hb.size hb.attentive
  obtain ⟨⟨c, h1, h2⟩, ⟨d, h3, h4⟩⟩ := C46_first_way (n := n) (s := s) (f := f) (p := p) hC
    (body_wellNumbered hb.reading.1 hb.faithful hb.selfFree) ⟨hb.tame, .inl hC⟩ (attentive_progressive ha) ha hp hn
  exact ⟨⟨c, h1, reportsFirst_congr ((hb.order hp).filter _) h2⟩, ⟨d, h3, reportsFirst_congr (hb.order hp) h4⟩⟩

theorem search_reports (h : build P t = .pattern r) (hb : Orderly P.find t b) {C : Cfg} (hC : C.greedyOpt = false) {n : Nat} {s : List Ch}
    {f : Flags} (hbeg : startsWithAnchor f r = true → r.anchored f.ml false = true) (hn : r.weight + s.length + 7 ≤ n) :
    ∃ c, cSearch C n s f r = .done c ∧
      ((c.whole.matched = true ∧ ∃ q τ rest, q ≤ s.length ∧ textWays C s f b q = τ :: rest ∧ Reports c q τ ∧
          ∀ i, i < q → textWays C s f b i = []) ∨
        (c.whole.matched = false ∧ ∀ i, i ≤ s.length → textWays C s f b i = [])) := by
  obtain rfl := hb.tree h
  have ha := body_attentive b hb.faithful hb.size hb.attentive
  have hw := body_wellNumbered hb.reading.1 hb.faithful hb.selfFree
  have hnil : ∀ i, i ≤ s.length → (waysFrom true C s f (bodyTree b) i = [] ↔ textWays C s f b i = []) := by
    intro i hi
    have := (hb.order (C := C) (s := s) (f := f) hi).head
    cases h1 : waysFrom true C s f (bodyTree b) i <;> cases h2 : textWays C s f b i <;> simp_all
  have hlate : startsWithAnchor f (bodyTree b) = true → ∀ i, 0 < i → i ≤ s.length → waysFrom true C s f (bodyTree b) i = [] := by
    intro hs i h0 hi
    obtain ⟨_, ⟨d, h3, h4⟩⟩ := C46_first_way (n := n) (s := s) (f := f) (p := i) hC hw ⟨hb.tame, .inl hC⟩ (attentive_progressive ha) ha hi hn
    have := C06_anchored_matches_only_at_begin (C := C) (n := n) (hbeg hs) h0 hi
    rw [h3] at this
    cases hl : waysFrom true C s f (bodyTree b) i with
    | nil => rfl
    | cons τ rest =>
      rw [hl] at h4
      simp only [Exec.success, h4.1] at this
      simp at this
  obtain ⟨_, _, c, hc⟩ := C44_every_call_yields_a_result (C := C) ⟨hb.tame, .inl hC⟩ hw.numbered (attentive_progressive ha) s f (Nat.zero_le _) hn
  refine ⟨c, hc, ?_⟩
  rcases C46_search hC hw (Re.tame_capsIn hb.tame) ha (Nat.zero_le _) hc with ⟨h1, q, _, hq, _, ⟨τ, rest, h2, h3⟩, h4⟩ | ⟨h1, h2⟩
  · refine .inl ⟨h1, q, ?_⟩
    have := (hb.order (C := C) (s := s) (f := f) hq).head
    rw [h2] at this
    cases h5 : textWays C s f b q with
    | nil => rw [h5] at this; simp at this
    | cons τ' rest' =>
      rw [h5] at this
      simp only [List.head?_cons, Option.some.injEq] at this
      exact ⟨τ', rest', hq, rfl, this ▸ h3, fun i hi => (hnil i (by omega)).1 (h4 i (Nat.zero_le _) hi)⟩
  · refine .inr ⟨h1, fun i hi => (hnil i hi).1 ?_⟩
    by_cases hs : startsWithAnchor f (bodyTree b) = true ∧ 0 < i
    · exact hlate hs.1 i hs.2 hi
    · exact h2 i (Nat.zero_le _) hi fun e => by
        have : ¬ 0 < i := fun h0 => hs ⟨e, h0⟩
        omega

/-- C75 for `search`, if `^` and `\A` do not occur, or no repetition that may be skipped comes before the anchor: the first position
from which there is a way, and the first way from there. -/
theorem C75_search (h : build P t = .pattern r) (hb : Orderly P.find t b) {C : Cfg} (hC : C.greedyOpt = false) {n : Nat} {s : List Ch}
    {f : Flags} (hbeg : b.noBegin = true ∨ r.noStarsBefore f.ml = true) (hn : r.weight + s.length + 7 ≤ n) :
    ∃ c, cSearch C n s f r = .done c ∧
      ((c.whole.matched = true ∧ ∃ q τ rest, q ≤ s.length ∧ textWays C s f b q = τ :: rest ∧ Reports c q τ ∧
          ∀ i, i < q → textWays C s f b i = []) ∨
        (c.whole.matched = false ∧ ∀ i, i ≤ s.length → textWays C s f b i = [])) :=
  search_reports h hb hC (fun ha => hbeg.elim (fun e => absurd (body_noAnchor e f) (by rw [← hb.tree h, ha]; simp)) fun e =>
    anchored_of_anchorRe f r false false id e ha) hn

/-- C75 with the optimisation of greedy repetitions, for patterns it is harmless for (see C34). -/
theorem C75_match_optimised (h : build P t = .pattern r) (hb : Orderly P.find t b) {C : Cfg} {ml : Bool}
    (hC : C.greedyOpt = false ∨ r.scannable true = true) (hst : r.steady ml false false = true)
    {n : Nat} {s : List Ch} {f : Flags} {p : Nat} (hs : ∀ v ∈ s, IsCh v) (hblk : f.blk = false)
    (hci : r.CaseSafe f.ci) (hml : f.ml = true → ml = true) (hp : p ≤ s.length) (hn : r.weight + s.length + 7 ≤ n) :
    (∃ c, matchAt C n s f r p = .done c ∧ ReportsFirst c p (textWaysFull C s f b p)) ∧
    (∃ c, startsWithAt C n s f r p = .done c ∧ ReportsFirst c p (textWays C s f b p)) := by
  obtain rfl := hb.tree h
  have ha := body_attentive b hb.faithful hb.size hb.attentive
  obtain ⟨⟨c, h1, h2⟩, ⟨d, h3, h4⟩⟩ := C46_first_way_optimised (C := C) (n := n) (s := s) (f := f) (p := p)
    (body_wellNumbered hb.reading.1 hb.faithful hb.selfFree) ⟨hb.tame, hC⟩ hst hs hblk hci hml ha hp hn
  exact ⟨⟨c, h1, reportsFirst_congr ((hb.order hp).filter _) h2⟩, ⟨d, h3, reportsFirst_congr (hb.order hp) h4⟩⟩

theorem search_reports_optimised (h : build P t = .pattern r) (hb : Orderly P.find t b) {C : Cfg} {ml : Bool}
    (hC : C.greedyOpt = false ∨ r.scannable true = true) (hst : r.steady ml false false = true)
    {n : Nat} {s : List Ch} {f : Flags} (hs : ∀ v ∈ s, IsCh v) (hblk : f.blk = false) (hci : r.CaseSafe f.ci) (hml : f.ml = true → ml = true)
    (hbeg : startsWithAnchor f r = true → r.anchored f.ml false = true) (hn : r.weight + s.length + 7 ≤ n) :
    ∃ c, cSearch C n s f r = .done c ∧
      ((c.whole.matched = true ∧ ∃ q τ rest, q ≤ s.length ∧ textWays C s f b q = τ :: rest ∧ Reports c q τ ∧
          ∀ i, i < q → textWays C s f b i = []) ∨
        (c.whole.matched = false ∧ ∀ i, i ≤ s.length → textWays C s f b i = [])) := by
  have hr := hb.tree h
  have hw : r.WellNumbered := hr ▸ body_wellNumbered hb.reading.1 hb.faithful hb.selfFree
  have hc : Compiles C r := ⟨by rw [hr]; exact hb.tame, hC⟩
  obtain ⟨_, _, e⟩ := C34_same_results (s := s) hc hw.numbered hst hs hblk hci hml (Nat.zero_le _) hn
  obtain ⟨c, h1, h2⟩ := search_reports h hb (C := C.plain) rfl hbeg hn
  exact ⟨c, e.trans h1, h2⟩

/-- C75 for `search` with the optimisation. -/
theorem C75_search_optimised (h : build P t = .pattern r) (hb : Orderly P.find t b) {C : Cfg} {ml : Bool}
    (hC : C.greedyOpt = false ∨ r.scannable true = true) (hst : r.steady ml false false = true)
    {n : Nat} {s : List Ch} {f : Flags} (hs : ∀ v ∈ s, IsCh v) (hblk : f.blk = false) (hci : r.CaseSafe f.ci) (hml : f.ml = true → ml = true)
    (hbeg : b.noBegin = true ∨ r.noStarsBefore f.ml = true) (hn : r.weight + s.length + 7 ≤ n) :
    ∃ c, cSearch C n s f r = .done c ∧
      ((c.whole.matched = true ∧ ∃ q τ rest, q ≤ s.length ∧ textWays C s f b q = τ :: rest ∧ Reports c q τ ∧
          ∀ i, i < q → textWays C s f b i = []) ∨
        (c.whole.matched = false ∧ ∀ i, i ≤ s.length → textWays C s f b i = [])) :=
  search_reports_optimised h hb hC hst hs hblk hci hml (fun ha => hbeg.elim (fun e => absurd (body_noAnchor e f) (by rw [← hb.tree h, ha]; simp)) fun e =>
    anchored_of_anchorRe f r false false id e ha) hn

/-- The ways by the usual rule, where all the ways of the content are ways of an iteration. -/
def usualWays (C : Cfg) (s : List Ch) (f : Flags) (b : Body) (p : Nat) : List MState := b.ways false (b.env C) s (MState.start p f)

/-- C75: if whatever is repeated consumes something and matches in at most one way, the rule of the library is the usual one. -/
theorem C75_usual_order (hf : b.Faithful) (hb : b.firm = true) {C : Cfg} {s : List Ch} {f : Flags} {p : Nat} (hp : p ≤ s.length) :
    textWays C s f b p = usualWays C s f b p := body_firm hf hb hp

/-- C75: then `match` and `starts_with` report the match that is preferred in the usual order. -/
theorem C75_match_usual (h : build P t = .pattern r) (hb : Orderly P.find t b) (hfirm : b.firm = true) {C : Cfg} (hC : C.greedyOpt = false)
    {n : Nat} {s : List Ch} {f : Flags} {p : Nat} (hp : p ≤ s.length) (hn : r.weight + s.length + 7 ≤ n) :
    (∃ c, matchAt C n s f r p = .done c ∧ ReportsFirst c p ((usualWays C s f b p).filter fun τ => decide (τ.pos = s.length))) ∧
    (∃ c, startsWithAt C n s f r p = .done c ∧ ReportsFirst c p (usualWays C s f b p)) := by
  have := C75_match h hb hC (f := f) hp hn
  rwa [textWaysFull, C75_usual_order hb.faithful hfirm hp] at this

/-- C75: and `search` reports the match from the first possible position that is preferred in the usual order. -/
theorem C75_search_usual (h : build P t = .pattern r) (hb : Orderly P.find t b) (hfirm : b.firm = true) {C : Cfg} (hC : C.greedyOpt = false)
    {n : Nat} {s : List Ch} {f : Flags} (hbeg : b.noBegin = true ∨ r.noStarsBefore f.ml = true) (hn : r.weight + s.length + 7 ≤ n) :
    ∃ c, cSearch C n s f r = .done c ∧
      ((c.whole.matched = true ∧ ∃ q τ rest, q ≤ s.length ∧ usualWays C s f b q = τ :: rest ∧ Reports c q τ ∧
          ∀ i, i < q → usualWays C s f b i = []) ∨
        (c.whole.matched = false ∧ ∀ i, i ≤ s.length → usualWays C s f b i = [])) := by
  have e : ∀ i, i ≤ s.length → textWays C s f b i = usualWays C s f b i := fun i hi => C75_usual_order hb.faithful hfirm hi
  obtain ⟨c, h1, ⟨h2, q, τ, rest, hq, h3, h4, h5⟩ | ⟨h2, h3⟩⟩ := C75_search h hb hC (f := f) hbeg hn
  · exact ⟨c, h1, .inl ⟨h2, q, τ, rest, hq, e q hq ▸ h3, h4, fun i hi => e i (by omega) ▸ h5 i hi⟩⟩
  · exact ⟨c, h1, .inr ⟨h2, fun i hi => e i hi ▸ h3 i hi⟩⟩

/-- C75: without atomic groups, possessive quantifiers and groups in positive lookaheads, if whatever is repeated consumes
something, the usual ways of the text are its matches in the sense of C31. -/
theorem C75_ways_are_matches (hf : b.Faithful) (hl : b.loose = true) {C : Cfg} {s : List Ch} {f : Flags} {p : Nat} (hp : p ≤ s.length)
    (τ : MState) : τ ∈ usualWays C s f b p ↔ b.Match (b.env C) s (MState.start p f) τ := body_iff hf hl hp

/-! ### Cases -/

/-- `(?:a??)?` -/
def sampleOverLazy : Body :=
  .alt (.one (.one (.group (.alt (.one (.one (.ch (.plain 97)) (.opt .lazy))))) (.opt .greedy)))

/-- The outer `?` of `(?:a??)?` is greedy, and an iteration that consumes nothing does not count: the preferred way of matching
the beginning of "a" consumes the letter.  The library drops the outer `?` and reports the empty match. -/
theorem C75_fails_over_lazy :
    Reading (PropTable.find {}) [40, 63, 58, 97, 63, 63, 41, 63] sampleOverLazy ∧
    build {} [40, 63, 58, 97, 63, 63, 41, 63] = .pattern (.rep .lazy 0 1 [.cc (.chr 97)]) ∧
    (textWays {} [97] {} sampleOverLazy 0).map (·.pos) = [1, 0] ∧
    cStartsWith {} 20 [97] {} (.rep .lazy 0 1 [.cc (.chr 97)]) = .done { whole := ⟨some 0, some 0, true⟩ } := by
  refine ⟨⟨?_, rfl⟩, rfl, by decide +kernel, by decide +kernel⟩
  simp [sampleOverLazy, Body.WF, Alt.WF, Cat.WF, Atom.WF, Char1.WF, special, Quant.WF]

/-- `(?:a|ab)*` -/
def sampleTwoWays : Body := .alt (.one (.one (.group (.alt (.bar (.one (.ch (.plain 97)) .none)
  (.one (.cons (.ch (.plain 97)) .none (.one (.ch (.plain 98)) .none)))))) (.star .greedy)))

theorem sampleTwoWays_orderly : Orderly (PropTable.find {}) [40, 63, 58, 97, 124, 97, 98, 41, 42] sampleTwoWays where
  reading := by
    refine ⟨?_, rfl⟩
    simp [sampleTwoWays, Body.WF, Alt.WF, Cat.WF, Atom.WF, Char1.WF, special, Quant.WF]
  faithful := by
    simp [sampleTwoWays, Body.Faithful, Alt.Faithful, Cat.Faithful, Atom.Faithful, Quant.Faithful, Char1.Faithful, possessiveItem,
      Atom.possessive, Cat.leadsPossessive]
  size := by decide +kernel
  inOrder := by decide +kernel
  selfFree := by simp [sampleTwoWays, Body.selfFree, Alt.selfFree, Cat.selfFree, Atom.selfFree]
  known := by decide +kernel
  attentive := by decide +kernel

/-- The condition of `C75_match_usual` is needed: in the usual order the second alternative of `(?:a|ab)*` is tried when the first one
leads nowhere, so the whole of "ab" is matched; the library keeps the first alternative and reports failure. -/
theorem C75_fails_two_ways :
    sampleTwoWays.firm = false ∧
    ((usualWays {} [97, 98] {} sampleTwoWays 0).filter fun τ => decide (τ.pos = 2)).map (·.pos) = [2] ∧
    textWaysFull {} [97, 98] {} sampleTwoWays 0 = [] ∧
    ∃ r, build {} [40, 63, 58, 97, 124, 97, 98, 41, 42] = .pattern r ∧ (cMatch {} 20 [97, 98] {} r).success = false :=
  ⟨by decide +kernel, by decide +kernel, by decide +kernel, _, rfl, by decide +kernel⟩

/-- `(a|ab)(c|bcd)(d*)` -/
def sampleTextOrder : Body := .alt (.one (
  .cons (.cap 1 (.alt (.bar (.one (.ch (.plain 97)) .none) (.one (.cons (.ch (.plain 97)) .none (.one (.ch (.plain 98)) .none)))))) .none
  (.cons (.cap 2 (.alt (.bar (.one (.ch (.plain 99)) .none)
    (.one (.cons (.ch (.plain 98)) .none (.cons (.ch (.plain 99)) .none (.one (.ch (.plain 100)) .none))))))) .none
  (.one (.cap 3 (.alt (.one (.one (.ch (.plain 100)) (.star .greedy))))) .none))))

theorem sampleTextOrder_orderly : Orderly (PropTable.find {})
    [40, 97, 124, 97, 98, 41, 40, 99, 124, 98, 99, 100, 41, 40, 100, 42, 41] sampleTextOrder where
  reading := by
    refine ⟨?_, rfl⟩
    simp [sampleTextOrder, Body.WF, Alt.WF, Cat.WF, Atom.WF, Char1.WF, special, Quant.WF, Atom.groups, Cat.groups, Alt.groups, Body.groups,
      Atom.leadsName, Body.leadsName, Alt.leadsName, Cat.leadsName]
  faithful := by
    simp [sampleTextOrder, Body.Faithful, Alt.Faithful, Cat.Faithful, Atom.Faithful, Quant.Faithful, Char1.Faithful, possessiveItem,
      Atom.possessive, Cat.leadsPossessive]
  size := by decide +kernel
  inOrder := by decide +kernel
  selfFree := by simp [sampleTextOrder, Body.selfFree, Alt.selfFree, Cat.selfFree, Atom.selfFree]
  known := by decide +kernel
  attentive := by decide +kernel

-- the first group prefers "a", the second one "c", which is not possible, and the third one as many "d" as possible
example : (textWays { greedyOpt := false } [97, 98, 99, 100] {} sampleTextOrder 0).map (fun τ => (τ.pos, τ.cap 1, τ.cap 2, τ.cap 3)) =
    [(4, some (0, 1), some (1, 4), some (4, 4)), (4, some (0, 2), some (2, 3), some (3, 4)), (3, some (0, 2), some (2, 3), some (3, 3))] := by
  decide +kernel
example : sampleTextOrder.noBegin = true ∧ sampleTextOrder.firm = true ∧ sampleTextOrder.loose = true := by decide +kernel
example : ∃ r, build {} [40, 97, 124, 97, 98, 41, 40, 99, 124, 98, 99, 100, 41, 40, 100, 42, 41] = .pattern r ∧ r.scannable true = true ∧
    r.steady false false false = true ∧
    (cSearch {} 60 [120, 97, 98, 99, 100] {} r).success = true := ⟨_, rfl, by decide +kernel⟩

end Ctre
