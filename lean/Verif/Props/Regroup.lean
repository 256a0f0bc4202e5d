import Verif.Lemmas.Regroup
import Verif.Props.Respell
import Verif.Props.Endless

/-
C91: which groups capture, and what they are called, only matters for what can be asked of the result.
-/
namespace Ctre
open Parse Surface

variable {P : PropTable} {C : Cfg} {n : Nat} {ml : Bool} {mods : List Mode} {lit lit' : PatLit} {x : Subject}
  {t t' s : List Nat} {φ : Nat → Nat} {r r' : Re} {b b' : Body} {f : Flags} {ρ : Nat → Nat → Prop}

/-- The results agree: both are failures or both are matches, of the same stretch, and groups that are partners have captured the same
or have both captured nothing. -/
structure SamePartners (ρ : Nat → Nat → Prop) (c c' : Caps) : Prop where
  matched : c.whole.matched = c'.whole.matched
  whole : c.whole.matched = true → c.get 0 = c'.get 0
  groups : c.whole.matched = true → ∀ i j sl sl', ρ i j → i ≠ 0 → j ≠ 0 → c.get i = some sl → c'.get j = some sl' →
    sl.matched = sl'.matched ∧ (sl.matched = true → sl = sl')

theorem SamePartners.mapPos {c c' : Caps} (h : SamePartners ρ c c') (φ : Nat → Nat) : SamePartners ρ (c.mapPos φ) (c'.mapPos φ) where
  matched := h.matched
  whole m := by rw [get_mapPos, get_mapPos, h.whole m]
  groups m i j sl sl' hij hi hj h1 h2 := by
    rw [get_mapPos] at h1 h2
    cases e1 : c.get i with
    | none => rw [e1] at h1; simp at h1
    | some a =>
      cases e2 : c'.get j with
      | none => rw [e2] at h2; simp at h2
      | some a' =>
        rw [e1] at h1; rw [e2] at h2
        simp only [Option.map_some, Option.some.injEq] at h1 h2
        subst h1; subst h2
        obtain ⟨k1, k2⟩ := h.groups m i j a a' hij hi hj e1 e2
        exact ⟨k1, fun h => by rw [k2 h]⟩

theorem samePartners_of {c c' : Caps} {p : Nat} {τ τ' : MState} (ha : Partnered ρ τ τ') (h : c.whole.matched = true)
    (h' : c'.whole.matched = true) (hr : Reports c p τ) (hr' : Reports c' p τ') : SamePartners ρ c c' := by
  refine ⟨by rw [h, h'], fun _ => by rw [hr.whole, hr'.whole, ha.pos], fun _ i j sl sl' hij hi hj h1 h2 => ?_⟩
  have g := hr.group i sl hi h1
  have g' := hr'.group j sl' hj h2
  rw [ha.cap hij] at g
  cases hc : τ'.cap j with
  | none =>
    rw [hc] at g g'
    simp only at g g'
    exact ⟨by rw [g, g'], fun h => by rw [g] at h; simp at h⟩
  | some x =>
    rw [hc] at g g'
    simp only at g g'
    subst g; subst g'
    exact ⟨rfl, fun _ => rfl⟩

theorem samePartners_first {c c' : Caps} {p : Nat} {L L' : List MState} (ha : Partnereds ρ L L') (hr : ReportsFirst c p L)
    (hr' : ReportsFirst c' p L') : SamePartners ρ c c' := by
  cases ha with
  | nil =>
    have e : c.whole.matched = false := hr
    have e' : c'.whole.matched = false := hr'
    exact ⟨by rw [e, e'], fun h => by rw [e] at h; simp at h, fun h => by rw [e] at h; simp at h⟩
  | cons h _ => exact samePartners_of h hr.1 hr'.1 hr.2 hr'.2

theorem samePartners_at {c c' : Caps} {p : Nat} {L L' : List MState} (ha : Partnereds ρ L L') (hr : ReportsAt φ c p L)
    (hr' : ReportsAt φ c' p L') : SamePartners ρ c c' := by
  obtain ⟨d, rfl, h⟩ := hr
  obtain ⟨d', rfl, h'⟩ := hr'
  exact (samePartners_first ha h h').mapPos φ

/-- C91 for texts: both prescribe the same ways of matching, in the same order, up to groups without partners. -/
theorem C91_ways (hρ : OneToOne ρ) (hr : Regroup ρ (b.env C).number (b'.env C).number (.body b) (.body b')) (s : List Ch) (f : Flags) (p : Nat) :
    Partnereds ρ (textWays C s f b p) (textWays C s f b' p) :=
  regroup_ways (once := true) (E := b.env C) (E' := b'.env C) hρ rfl hr (s := s) (σ := MState.start p f) (σ' := MState.start p f)
    ⟨rfl, rfl, rfl, fun _ => rfl⟩

theorem agrees_nil {L L' : List MState} (h : Partnereds ρ L L') : L = [] ↔ L' = [] := by cases h <;> simp

theorem agrees_pick (hρ : OneToOne ρ) (hr : Regroup ρ (b.env C).number (b'.env C).number (.body b) (.body b')) (s : List Ch) (f : Flags) :
    textPick C s f b = textPick C s f b' := by
  funext p
  have := C91_ways (C := C) hρ hr s f p
  unfold textPick pick
  revert this
  generalize textWays C s f b p = L
  generalize textWays C s f b' p = L'
  intro this
  cases this with
  | nil => rfl
  | cons h _ => simp [h.pos]

/-- C91 for `match` and `starts_with`, without the optimisation of greedy repetitions. -/
theorem C91_match (hρ : OneToOne ρ) (h : build P t = .pattern r) (h' : build P t' = .pattern r') (hb : Orderly P.find t b)
    (hb' : Orderly P.find t' b') (hr : Regroup ρ (b.env C).number (b'.env C).number (.body b) (.body b')) (hC : C.greedyOpt = false)
    {n' : Nat} {s : List Ch} {p : Nat} (hp : p ≤ s.length) (hn : r.weight + s.length + 7 ≤ n) (hn' : r'.weight + s.length + 7 ≤ n') :
    (∃ c c', matchAt C n s f r p = .done c ∧ matchAt C n' s f r' p = .done c' ∧ SamePartners ρ c c') ∧
    (∃ c c', startsWithAt C n s f r p = .done c ∧ startsWithAt C n' s f r' p = .done c' ∧ SamePartners ρ c c') := by
  obtain ⟨⟨c, h1, h2⟩, ⟨d, h3, h4⟩⟩ := C75_match h hb hC (f := f) hp hn
  obtain ⟨⟨c', h1', h2'⟩, ⟨d', h3', h4'⟩⟩ := C75_match h' hb' hC (f := f) hp hn'
  have := C91_ways (C := C) hρ hr s f p
  exact ⟨⟨c, c', h1, h1', samePartners_first (forall2_filter this fun hx => by rw [hx.pos]) h2 h2'⟩,
    ⟨d, d', h3, h3', samePartners_first this h4 h4'⟩⟩

theorem samePartners_search {s : List Ch} {c c' : Caps} (hw : ∀ p, Partnereds ρ (textWays C s f b p) (textWays C s f b' p))
    (h2 : (c.whole.matched = true ∧ ∃ q τ rest, q ≤ s.length ∧ textWays C s f b q = τ :: rest ∧ Reports c q τ ∧
          ∀ i, i < q → textWays C s f b i = []) ∨
        (c.whole.matched = false ∧ ∀ i, i ≤ s.length → textWays C s f b i = []))
    (h2' : (c'.whole.matched = true ∧ ∃ q τ rest, q ≤ s.length ∧ textWays C s f b' q = τ :: rest ∧ Reports c' q τ ∧
          ∀ i, i < q → textWays C s f b' i = []) ∨
        (c'.whole.matched = false ∧ ∀ i, i ≤ s.length → textWays C s f b' i = [])) : SamePartners ρ c c' := by
  have hnil := fun i => agrees_nil (hw i)
  rcases h2 with ⟨m, q, τ, rest, hq, e, hr, hno⟩ | ⟨m, hno⟩
  · rcases h2' with ⟨m', q', τ', rest', hq', e', hr', hno'⟩ | ⟨m', hno'⟩
    · have hqq : q = q' := by
        rcases Nat.lt_trichotomy q q' with hlt | heq | hgt
        · have := (hnil q).2 (hno' q hlt); rw [e] at this; simp at this
        · exact heq
        · have := (hnil q').1 (hno q' hgt); rw [e'] at this; simp at this
      subst hqq
      have := hw q
      rw [e, e'] at this
      cases this with
      | cons h _ => exact samePartners_of h m m' hr hr'
    · have := (hnil q).2 (hno' q hq); rw [e] at this; simp at this
  · rcases h2' with ⟨m', q', τ', rest', hq', e', hr', hno'⟩ | ⟨m', hno'⟩
    · have := (hnil q').1 (hno q' hq'); rw [e'] at this; simp at this
    · exact ⟨by rw [m, m'], fun h => by rw [m] at h; simp at h, fun h => by rw [m] at h; simp at h⟩

/-- C91 for `search`, without the optimisation of greedy repetitions. -/
theorem C91_search (hρ : OneToOne ρ) (h : build P t = .pattern r) (h' : build P t' = .pattern r') (hb : Orderly P.find t b)
    (hb' : Orderly P.find t' b') (hr : Regroup ρ (b.env C).number (b'.env C).number (.body b) (.body b')) (hC : C.greedyOpt = false)
    {n' : Nat} {s : List Ch} (hbeg : b.noBegin = true ∨ r.noStarsBefore f.ml = true) (hbeg' : b'.noBegin = true ∨ r'.noStarsBefore f.ml = true)
    (hn : r.weight + s.length + 7 ≤ n) (hn' : r'.weight + s.length + 7 ≤ n') :
    ∃ c c', cSearch C n s f r = .done c ∧ cSearch C n' s f r' = .done c' ∧ SamePartners ρ c c' := by
  obtain ⟨c, h1, h2⟩ := C75_search h hb hC (f := f) hbeg hn
  obtain ⟨c', h1', h2'⟩ := C75_search h' hb' hC (f := f) hbeg' hn'
  exact ⟨c, c', h1, h1', samePartners_search (fun p => C91_ways hρ hr s f p) h2 h2'⟩

/-- C91 for calls as they are written, in every build, for texts that the optimisation of greedy repetitions is harmless for: `match`,
`starts_with` and `search`. -/
theorem C91_calls (hρ : OneToOne ρ) (hb : Steadfast P.find t b (callFlags ml mods)) (hb' : Steadfast P.find t' b' (callFlags ml mods))
    (hr : Regroup ρ (b.env C).number (b'.env C).number (.body b) (.body b'))
    (hl : lit.Spells t) (ht : ∀ c ∈ t, IsScalar c) (hl' : lit'.Spells t') (ht' : ∀ c ∈ t', IsScalar c) (hx : x.Holds s φ)
    (hs : ∀ c ∈ s, IsScalar c) (hf : (∃ u, x = .u8 u) → b.forward = true ∧ b'.forward = true) : ∃ N, ∀ n, N ≤ n →
      (∃ y y', call P C n ml .match_ mods lit x = some (.one (.done y)) ∧ call P C n ml .match_ mods lit' x = some (.one (.done y')) ∧
        SamePartners ρ y y') ∧
      (∃ y y', call P C n ml .startsWith mods lit x = some (.one (.done y)) ∧
        call P C n ml .startsWith mods lit' x = some (.one (.done y')) ∧ SamePartners ρ y y') ∧
      ((b.placed (callFlags ml mods).ml = true ∨ b.begins (callFlags ml mods).ml = true) →
        (b'.placed (callFlags ml mods).ml = true ∨ b'.begins (callFlags ml mods).ml = true) →
        ∃ y y', call P C n ml .search mods lit x = some (.one (.done y)) ∧ call P C n ml .search mods lit' x = some (.one (.done y')) ∧
          SamePartners ρ y y') := by
  have hw := C91_ways (C := C) hρ hr (codePoints s) (callFlags ml mods)
  obtain ⟨N, hN⟩ := C83_calls (C := C) hb hl ht hx hs (fun h => (hf h).1)
  obtain ⟨N', hN'⟩ := C83_calls (C := C) hb' hl' ht' hx hs (fun h => (hf h).2)
  refine ⟨max (max N N') (max ((bodyTree b).weight + (codePoints s).length + 7) ((bodyTree b').weight + (codePoints s).length + 7)),
    fun n hn => ?_⟩
  obtain ⟨⟨y, h1, h2⟩, ⟨z, h3, h4⟩⟩ := hN n (by omega)
  obtain ⟨⟨y', h1', h2'⟩, ⟨z', h3', h4'⟩⟩ := hN' n (by omega)
  refine ⟨⟨y, y', h1, h1', samePartners_at (forall2_filter (hw 0) fun hx => by rw [hx.pos]) h2 h2'⟩,
    ⟨z, z', h3, h3', samePartners_at (hw 0) h4 h4'⟩, fun hbeg hbeg' => ?_⟩
  obtain ⟨c, k1, k2⟩ := C83_search (C := C) hb hbeg (codePoints_isCh hs) (n := n) (by omega)
  obtain ⟨c', k1', k2'⟩ := C83_search (C := C) hb' hbeg' (codePoints_isCh hs) (n := n) (by omega)
  refine ⟨c.mapPos φ, c'.mapPos φ, ?_, ?_, (samePartners_search hw k2 k2').mapPos φ⟩
  · rw [hb.call_eq hl ht hx hs (fun h => (hf h).1)]
    simp only [Method.plain, Answer.mapPos]
    rw [k1]; rfl
  · rw [hb'.call_eq hl' ht' hx hs (fun h => (hf h).2)]
    simp only [Method.plain, Answer.mapPos]
    rw [k1']; rfl

theorem produces_same {W W' : Nat → List MState} {it it' : Nat → Option RIter} {l : List (Nat × Nat)} {o : Option Nat}
    (hw : ∀ p, Partnereds ρ (W p) (W' p)) (h : Produces φ W it l o) (h' : Produces φ W' it' l o) (k : Nat) :
    ∃ y y', it k = some y ∧ it' k = some y' ∧ y.isEnd = y'.isEnd ∧ (y.isEnd = false → SamePartners ρ y.result y'.result) := by
  rcases Nat.lt_or_ge k l.length with hk | hk
  · obtain ⟨y, h1, h2, h3⟩ := h.each k hk
    obtain ⟨y', h1', h2', h3'⟩ := h'.each k hk
    have := samePartners_at (hw _) h3 h3'
    exact ⟨y, y', h1, h1', by simp only [RIter.isEnd, this.matched], fun _ => this⟩
  · obtain ⟨j, rfl⟩ := Nat.exists_eq_add_of_le hk
    cases o with
    | none =>
      obtain ⟨y, h1, h2⟩ := h.ends rfl j
      obtain ⟨y', h1', h2'⟩ := h'.ends rfl j
      exact ⟨y, y', h1, h1', by rw [h2, h2'], fun e => by rw [h2] at e; simp at e⟩
    | some q =>
      obtain ⟨y, h1, h2, _, h3⟩ := h.stays q rfl j
      obtain ⟨y', h1', h2', _, h3'⟩ := h'.stays q rfl j
      exact ⟨y, y', h1, h1', by rw [h2, h2'], fun _ => samePartners_at (hw _) h3 h3'⟩

theorem producesPieces_same {it it' : Nat → Option SIter} {l : List (Nat × Nat)} {o : Option Nat} (h : ProducesPieces φ it l o)
    (h' : ProducesPieces φ it' l o) (k : Nat) :
    ∃ y y', it k = some y ∧ it' k = some y' ∧ y.isEnd = y'.isEnd ∧ (y.isEnd = false → y.result.get 0 = y'.result.get 0) := by
  rcases Nat.lt_or_ge k l.length with hk | hk
  · obtain ⟨y, h1, h2⟩ := h.each k hk
    obtain ⟨y', h1', h2'⟩ := h'.each k hk
    have e1 := h2
    have e2 := h2'
    simp only [Caps.get, if_true, Option.some.injEq] at e1 e2
    exact ⟨y, y', h1, h1', by simp only [SIter.isEnd, e1, e2], fun _ => by rw [h2, h2']⟩
  · obtain ⟨j, rfl⟩ := Nat.exists_eq_add_of_le hk
    cases o with
    | none =>
      obtain ⟨y, h1, h2⟩ := h.ends rfl j
      obtain ⟨y', h1', h2'⟩ := h'.ends rfl j
      exact ⟨y, y', h1, h1', by rw [h2, h2'], fun e => by rw [h2] at e; simp at e⟩
    | some q =>
      obtain ⟨y, h1, h2, h3⟩ := h.stays q rfl j
      obtain ⟨y', h1', h2', h3'⟩ := h'.stays q rfl j
      exact ⟨y, y', h1, h1', by rw [h2, h2'], fun _ => by rw [h3, h3']⟩

/-- C91 for `search_all`, `tokenize` and `split`: result for result. -/
theorem C91_iterations (hρ : OneToOne ρ) (hb : Steadfast P.find t b (callFlags ml mods)) (hb' : Steadfast P.find t' b' (callFlags ml mods))
    (hr : Regroup ρ (b.env C).number (b'.env C).number (.body b) (.body b'))
    (hbeg : b.unanchored (callFlags ml mods).ml = true) (hbeg' : b'.unanchored (callFlags ml mods).ml = true)
    (hl : lit.Spells t) (ht : ∀ c ∈ t, IsScalar c) (hl' : lit'.Spells t') (ht' : ∀ c ∈ t', IsScalar c) (hx : x.Holds s φ)
    (hs : ∀ c ∈ s, IsScalar c) (hf : (∃ u, x = .u8 u) → b.forward = true ∧ b'.forward = true) : ∃ N, ∀ n, N ≤ n →
      (∃ it it', call P C n ml .searchAll mods lit x = some (.many it) ∧ call P C n ml .searchAll mods lit' x = some (.many it') ∧
        ∀ k, ∃ y y', it k = some y ∧ it' k = some y' ∧ y.isEnd = y'.isEnd ∧ (y.isEnd = false → SamePartners ρ y.result y'.result)) ∧
      (∃ it it', call P C n ml .tokenize mods lit x = some (.many it) ∧ call P C n ml .tokenize mods lit' x = some (.many it') ∧
        ∀ k, ∃ y y', it k = some y ∧ it' k = some y' ∧ y.isEnd = y'.isEnd ∧ (y.isEnd = false → SamePartners ρ y.result y'.result)) ∧
      (∃ it it', call P C n ml .split mods lit x = some (.pieces it) ∧ call P C n ml .split mods lit' x = some (.pieces it') ∧
        ∀ k, ∃ y y', it k = some y ∧ it' k = some y' ∧ y.isEnd = y'.isEnd ∧ (y.isEnd = false → y.result.get 0 = y'.result.get 0)) := by
  have hw := C91_ways (C := C) hρ hr (codePoints s) (callFlags ml mods)
  have hp := agrees_pick (C := C) hρ hr (codePoints s) (callFlags ml mods)
  obtain ⟨l, o, h1, N1, h2⟩ := C86_search_all (C := C) hb (.inl (body_unanchored_placed b hbeg)) hl ht hx hs (fun h => (hf h).1)
  obtain ⟨l', o', h1', N1', h2'⟩ := C86_search_all (C := C) hb' (.inl (body_unanchored_placed b' hbeg')) hl' ht' hx hs (fun h => (hf h).2)
  obtain ⟨m, u, h3, N2, h4⟩ := C86_tokenize (C := C) hb (.inl (body_unanchored_placed b hbeg)) hl ht hx hs (fun h => (hf h).1)
  obtain ⟨m', u', h3', N2', h4'⟩ := C86_tokenize (C := C) hb' (.inl (body_unanchored_placed b' hbeg')) hl' ht' hx hs (fun h => (hf h).2)
  obtain ⟨g, v, h5, N3, h6⟩ := C86_split (C := C) hb hbeg hl ht hx hs (fun h => (hf h).1)
  obtain ⟨g', v', h5', N3', h6'⟩ := C86_split (C := C) hb' hbeg' hl' ht' hx hs (fun h => (hf h).2)
  rw [← hp] at h1' h3' h5'
  obtain ⟨rfl, rfl⟩ := h1.unique h1'
  obtain ⟨rfl, rfl⟩ := h3.unique h3'
  obtain ⟨rfl, rfl⟩ := h5.unique h5'
  refine ⟨max (max (max N1 N1') (max N2 N2')) (max N3 N3'), fun n hn => ⟨?_, ?_, ?_⟩⟩
  · obtain ⟨it, k1, k2⟩ := h2 n (by omega)
    obtain ⟨it', k1', k2'⟩ := h2' n (by omega)
    exact ⟨it, it', k1, k1', produces_same hw k2 k2'⟩
  · obtain ⟨it, k1, k2⟩ := h4 n (by omega)
    obtain ⟨it', k1', k2'⟩ := h4' n (by omega)
    exact ⟨it, it', k1, k1', produces_same hw k2 k2'⟩
  · obtain ⟨it, k1, k2⟩ := h6 n (by omega)
    obtain ⟨it', k1', k2'⟩ := h6' n (by omega)
    exact ⟨it, it', k1, k1', producesPieces_same k2 k2'⟩

/-! ### Cases -/

/-- `(?<y>a|b)(c)\g{y}` -/
def sampleGroups1 : Body := .alt (.one (.cons (.named 1 [121] (.alt (.bar (.one (.ch (.plain 97)) .none) (.one (.one (.ch (.plain 98)) .none))))) .none
  (.cons (.cap 2 (.alt (.one (.one (.ch (.plain 99)) .none)))) .none (.one (.refName [121]) .none))))

/-- `(a|b)(?:c)\1` -/
def sampleGroups2 : Body := .alt (.one (.cons (.cap 1 (.alt (.bar (.one (.ch (.plain 97)) .none) (.one (.one (.ch (.plain 98)) .none))))) .none
  (.cons (.group (.alt (.one (.one (.ch (.plain 99)) .none)))) .none (.one (.ref 49) .none))))

theorem sampleGroups_regroup : Regroup (fun i j => i = 1 ∧ j = 1) (sampleGroups1.env {}).number (sampleGroups2.env {}).number
    (.body sampleGroups1) (.body sampleGroups2) := by
  refine .bodyAlt (.altOne (.cons (.group rfl rfl (.inl ⟨1, 1, rfl, rfl, rfl, rfl⟩) ?_) (.cons (.group rfl rfl (.inr ⟨?_, ?_⟩) ?_) (.one (.ref rfl rfl ⟨rfl, rfl⟩)))))
  · exact .bodyAlt (.altBar (.one (.leaf rfl)) (.altOne (.one (.leaf rfl))))
  · rintro i h j ⟨rfl, _⟩; cases h
  · rintro i h; cases h
  · exact .bodyAlt (.altOne (.one (.leaf rfl)))

theorem sampleGroups_oneToOne : OneToOne (fun i j : Nat => i = 1 ∧ j = 1) :=
  ⟨fun h k => by rw [h.2, k.2], fun h k => by rw [h.1, k.1]⟩

theorem sampleGroups1_orderly : Orderly (PropTable.find {}) [40, 63, 60, 121, 62, 97, 124, 98, 41, 40, 99, 41, 92, 103, 123, 121, 125] sampleGroups1 where
  reading := by
    refine ⟨?_, rfl⟩
    simp [sampleGroups1, isNameStart, Body.leadsName, Alt.leadsName, Cat.leadsName, Atom.leadsName, Body.WF, Alt.WF, Cat.WF, Atom.WF, Char1.WF, special, Quant.WF, Atom.groups, Cat.groups, Alt.groups, Body.groups]
  faithful := by
    simp [sampleGroups1, Body.Faithful, Alt.Faithful, Cat.Faithful, Atom.Faithful, Quant.Faithful, Char1.Faithful, possessiveItem,
      Atom.possessive, Body.possessive, Alt.possessive, Cat.possessive, Atom.leadsPossessive, Cat.leadsPossessive, Body.leadsPossessive,
      Alt.leadsPossessive, Quant.kind]
  size := by decide +kernel
  inOrder := by decide +kernel
  selfFree := by simp [sampleGroups1, Body.selfFree, Alt.selfFree, Cat.selfFree, Atom.selfFree]
  known := by decide +kernel
  attentive := by decide +kernel

theorem sampleGroups2_orderly : Orderly (PropTable.find {}) [40, 97, 124, 98, 41, 40, 63, 58, 99, 41, 92, 49] sampleGroups2 where
  reading := by
    refine ⟨?_, rfl⟩
    simp [sampleGroups2, Body.WF, Alt.WF, Cat.WF, Atom.WF, Char1.WF, special, Quant.WF, Atom.groups, Cat.groups, Alt.groups, Body.groups]
  faithful := by
    simp [sampleGroups2, Body.Faithful, Alt.Faithful, Cat.Faithful, Atom.Faithful, Quant.Faithful, Char1.Faithful, possessiveItem,
      Atom.possessive, Body.possessive, Alt.possessive, Cat.possessive, Atom.leadsPossessive, Cat.leadsPossessive, Body.leadsPossessive,
      Alt.leadsPossessive, Quant.kind]
  size := by decide +kernel
  inOrder := by decide +kernel
  selfFree := by simp [sampleGroups2, Body.selfFree, Alt.selfFree, Cat.selfFree, Atom.selfFree]
  known := by decide +kernel
  attentive := by decide +kernel

example : Steadfast (PropTable.find {}) [40, 97, 124, 98, 41, 40, 63, 58, 99, 41, 92, 49] sampleGroups2 {} :=
  ⟨sampleGroups2_orderly, ⟨false, by decide, by decide +kernel⟩, rfl, by decide +kernel⟩

example : Steadfast (PropTable.find {}) [40, 63, 60, 121, 62, 97, 124, 98, 41, 40, 99, 41, 92, 103, 123, 121, 125] sampleGroups1 {} :=
  ⟨sampleGroups1_orderly, ⟨false, by decide, by decide +kernel⟩, rfl, by decide +kernel⟩

example : ∃ r r', build {} [40, 63, 60, 121, 62, 97, 124, 98, 41, 40, 99, 41, 92, 103, 123, 121, 125] = .pattern r ∧
    build {} [40, 97, 124, 98, 41, 40, 63, 58, 99, 41, 92, 49] = .pattern r' ∧
    cSearch {} 60 [120, 97, 99, 97] {} r =
      .done { whole := ⟨some 1, some 4, true⟩, groups := [{ id := 1, name := some [121], slot := ⟨some 1, some 2, true⟩ },
        { id := 2, slot := ⟨some 2, some 3, true⟩ }] } ∧
    cSearch {} 60 [120, 97, 99, 97] {} r' = .done { whole := ⟨some 1, some 4, true⟩, groups := [{ id := 1, slot := ⟨some 1, some 2, true⟩ }] } :=
  ⟨_, _, rfl, rfl, by decide +kernel, by decide +kernel⟩

/-- That the texts mean what they say is needed: `a*+(a++)b` does not match "ab", but `a*+(?:a++)b` does, because there the repetitions
are taken together (see C36). -/
theorem C91_fails_fusion : ∃ r r', build {} [97, 42, 43, 40, 97, 43, 43, 41, 98] = .pattern r ∧
    build {} [97, 42, 43, 40, 63, 58, 97, 43, 43, 41, 98] = .pattern r' ∧
    (cMatch {} 60 [97, 98] {} r).success = false ∧ (cMatch {} 60 [97, 98] {} r').success = true :=
  ⟨_, _, rfl, rfl, by decide +kernel, by decide +kernel⟩

end Ctre
