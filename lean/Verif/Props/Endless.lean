import Verif.Lemmas.Loops
import Verif.Props.Decides

/-
C86: what loops over `search_all`, `tokenize` and `split` yield if matches may be empty, and which of these loops end.
-/
namespace Ctre
open Parse Surface

variable {P : PropTable} {C : Cfg} {n : Nat} {ml : Bool} {mods : List Mode} {lit : PatLit} {x : Subject}
  {t s : List Nat} {φ : Nat → Nat} {b : Body} {f : Flags} {l : List (Nat × Nat)} {o : Option Nat}

/-- What a range yields at the positions `φ` of the subject: the results with the spans `l`, each with the groups of the first of the ways
`W`, and then the end (`o` is `none`) or the empty result at `q`, for ever (`o` is `some q`). -/
structure Produces (φ : Nat → Nat) (W : Nat → List MState) (it : Nat → Option RIter) (l : List (Nat × Nat)) (o : Option Nat) : Prop where
  each : ∀ i (hi : i < l.length), ∃ y, it i = some y ∧
    y.result.get 0 = some ⟨some (φ (l[i]).1), some (φ (l[i]).2), true⟩ ∧ ReportsAt φ y.result (l[i]).1 (W (l[i]).1)
  ends : o = none → ∀ j, ∃ y, it (l.length + j) = some y ∧ y.isEnd = true
  stays : ∀ q, o = some q → ∀ j, ∃ y, it (l.length + j) = some y ∧ y.isEnd = false ∧
    y.result.get 0 = some ⟨some (φ q), some (φ q), true⟩ ∧ ReportsAt φ y.result q (W q)

/-- What `split` yields: the pieces `l`, and then the end or empty pieces at `q`, for ever. -/
structure ProducesPieces (φ : Nat → Nat) (it : Nat → Option SIter) (l : List (Nat × Nat)) (o : Option Nat) : Prop where
  each : ∀ i (hi : i < l.length), ∃ y, it i = some y ∧ y.result.get 0 = some ⟨some (φ (l[i]).1), some (φ (l[i]).2), true⟩
  ends : o = none → ∀ j, ∃ y, it (l.length + j) = some y ∧ y.isEnd = true
  stays : ∀ q, o = some q → ∀ j, ∃ y, it (l.length + j) = some y ∧ y.isEnd = false ∧
    y.result.get 0 = some ⟨some (φ q), some (φ q), true⟩

theorem reports_at_mapPos {W : Nat → List MState} {c : Caps} {q : Nat} {τ : MState} {rest : List MState} (hw : W q = τ :: rest)
    (h : Reports c q τ) :
    (c.mapPos φ).get 0 = some ⟨some (φ q), some (φ τ.pos), true⟩ ∧ ReportsAt φ (c.mapPos φ) q (W q) :=
  ⟨getWhole_mapPos h.whole, c, rfl, by rw [hw]; exact ⟨by rw [whole_of_reports h], h⟩⟩

theorem YieldsResults.produces {W : Nat → List MState} {nth : Nat → Option RIter} (h : YieldsResults nth W l o) :
    Produces φ W (fun k => (nth k).map (RIter.mapPos φ)) l o where
  each i hi := by
    obtain ⟨it, τ, rest, h1, h2, h3, h4⟩ := h.each i hi
    have := reports_at_mapPos (φ := φ) h2 h4
    rw [h3] at this
    exact ⟨it.mapPos φ, by simp [h1], this⟩
  ends e j := by
    obtain ⟨it, h1, h2⟩ := h.ends e j
    exact ⟨it.mapPos φ, by simp [h1], h2⟩
  stays q e j := by
    obtain ⟨it, τ, rest, h1, h2, h3, h4⟩ := h.stays q e j
    have := reports_at_mapPos (φ := φ) h2 h4
    rw [h3] at this
    refine ⟨it.mapPos φ, by simp [h1], ?_, this⟩
    have hw := whole_of_reports h4
    show (!it.result.whole.matched) = false
    rw [hw]; rfl

theorem YieldsPieces.produces {nth : Nat → Option SIter} (h : YieldsPieces nth l o) :
    ProducesPieces φ (fun k => (nth k).map (SIter.mapPos φ)) l o where
  each i hi := by
    obtain ⟨it, h1, h2⟩ := h.each i hi
    exact ⟨it.mapPos φ, by simp [h1], getWhole_mapPos (c := it.result) (sl := ⟨some (l[i]).1, some (l[i]).2, true⟩) (by simp [Caps.get, h2])⟩
  ends e j := by
    obtain ⟨it, h1, h2⟩ := h.ends e j
    exact ⟨it.mapPos φ, by simp [h1], h2⟩
  stays q e j := by
    obtain ⟨it, h1, h2⟩ := h.stays q e j
    refine ⟨it.mapPos φ, by simp [h1], ?_, getWhole_mapPos (c := it.result) (sl := ⟨some q, some q, true⟩) (by simp [Caps.get, h2])⟩
    show (!it.result.whole.matched) = false
    rw [h2]; rfl

theorem Steadfast.trials (hb : Steadfast P.find t b f) (hbeg : b.placed f.ml = true ∨ b.begins f.ml = true) {s : List Ch}
    (hs : ∀ v ∈ s, IsCh v) (hn : (bodyTree b).weight + s.length + 7 ≤ n) : Trials C n s f (bodyTree b) (textWays C s f b) where
  numbered := (body_wellNumbered hb.orderly.reading.1 hb.orderly.faithful hb.orderly.selfFree).numbered
  late ha i h0 hi := by
    have h1 := C06_anchored_matches_only_at_begin (C := C) (n := n) (body_taken hb.orderly.faithful hb.orderly.size hbeg ha) h0 hi
    obtain ⟨c, h2, h3⟩ := (C83_match (C := C) hb hs hi hn).2
    rw [h2] at h1
    cases hw : textWays C s f b i with
    | nil => rfl
    | cons τ rest =>
      rw [hw] at h3
      simp only [Exec.success, h3.1] at h1
      cases h1
  each p hp := (C83_match hb hs hp hn).2

/-- C86 for `search_all`: a loop over the matches of the text of the pattern (`AllLoop`), with the empty ones, decides what the range
yields and whether it comes to an end. -/
theorem C86_search_all (hb : Steadfast P.find t b (callFlags ml mods))
    (hbeg : b.placed (callFlags ml mods).ml = true ∨ b.begins (callFlags ml mods).ml = true)
    (hl : lit.Spells t) (ht : ∀ c ∈ t, IsScalar c) (hx : x.Holds s φ) (hs : ∀ c ∈ s, IsScalar c)
    (hf : (∃ u, x = .u8 u) → b.forward = true) :
    ∃ l o, AllLoop (textPick C (codePoints s) (callFlags ml mods) b) s.length 0 l o ∧ ∃ N, ∀ n, N ≤ n →
      ∃ it, call P C n ml .searchAll mods lit x = some (.many it) ∧
        Produces φ (textWays C (codePoints s) (callFlags ml mods) b) it l o := by
  have key := fun n (hn : (bodyTree b).weight + (codePoints s).length + 7 ≤ n) =>
    (hb.trials (C := C) hbeg (codePoints_isCh hs) hn).all
  simp only [codePoints_length] at key
  obtain ⟨l, o, h1, _⟩ := key _ (Nat.le_refl _)
  refine ⟨l, o, h1, (bodyTree b).weight + s.length + 7, fun n hn => ?_⟩
  obtain ⟨l', o', h2, h3⟩ := key n hn
  obtain ⟨rfl, rfl⟩ := h1.unique h2
  exact ⟨_, hb.call_eq hl ht hx hs hf, h3.produces⟩

/-- C86 for `tokenize`. -/
theorem C86_tokenize (hb : Steadfast P.find t b (callFlags ml mods))
    (hbeg : b.placed (callFlags ml mods).ml = true ∨ b.begins (callFlags ml mods).ml = true)
    (hl : lit.Spells t) (ht : ∀ c ∈ t, IsScalar c) (hx : x.Holds s φ) (hs : ∀ c ∈ s, IsScalar c)
    (hf : (∃ u, x = .u8 u) → b.forward = true) :
    ∃ l o, TokenLoop (textPick C (codePoints s) (callFlags ml mods) b) s.length 0 l o ∧ ∃ N, ∀ n, N ≤ n →
      ∃ it, call P C n ml .tokenize mods lit x = some (.many it) ∧
        Produces φ (textWays C (codePoints s) (callFlags ml mods) b) it l o := by
  have key := fun n (hn : (bodyTree b).weight + (codePoints s).length + 7 ≤ n) =>
    (hb.trials (C := C) hbeg (codePoints_isCh hs) hn).tokens
  simp only [codePoints_length] at key
  obtain ⟨l, o, h1, _⟩ := key _ (Nat.le_refl _)
  refine ⟨l, o, h1, (bodyTree b).weight + s.length + 7, fun n hn => ?_⟩
  obtain ⟨l', o', h2, h3⟩ := key n hn
  obtain ⟨rfl, rfl⟩ := h1.unique h2
  exact ⟨_, hb.call_eq hl ht hx hs hf, h3.produces⟩

/-- C86 for `split`, if neither `\A` nor, outside of multiline mode, `^` occurs. -/
theorem C86_split (hb : Steadfast P.find t b (callFlags ml mods)) (hbeg : b.unanchored (callFlags ml mods).ml = true)
    (hl : lit.Spells t) (ht : ∀ c ∈ t, IsScalar c) (hx : x.Holds s φ) (hs : ∀ c ∈ s, IsScalar c)
    (hf : (∃ u, x = .u8 u) → b.forward = true) :
    ∃ l o, PieceLoop (textPick C (codePoints s) (callFlags ml mods) b) s.length 0 l o ∧ ∃ N, ∀ n, N ≤ n →
      ∃ it, call P C n ml .split mods lit x = some (.pieces it) ∧ ProducesPieces φ it l o := by
  have key := fun n (hn : (bodyTree b).weight + (codePoints s).length + 7 ≤ n) =>
    (hb.trials (C := C) (.inl (body_unanchored_placed b hbeg)) (codePoints_isCh hs) hn).pieces (unanchored_anchor _ _ (body_unanchored b hbeg))
  simp only [codePoints_length] at key
  obtain ⟨l, o, h1, _⟩ := key _ (Nat.le_refl _)
  refine ⟨l, o, h1, (bodyTree b).weight + s.length + 7, fun n hn => ?_⟩
  obtain ⟨l', o', h2, h3⟩ := key n hn
  obtain ⟨rfl, rfl⟩ := h1.unique h2
  exact ⟨_, hb.call_eq hl ht hx hs hf, h3.produces⟩

/-- C86: the loops are determined by the text of the pattern and the subject. -/
theorem C86_unique {pick : Nat → Option Nat} {len p : Nat} {l l' : List (Nat × Nat)} {o o' : Option Nat} :
    (AllLoop pick len p l o → AllLoop pick len p l' o' → l = l' ∧ o = o') ∧
    (TokenLoop pick len p l o → TokenLoop pick len p l' o' → l = l' ∧ o = o') ∧
    (PieceLoop pick len p l o → PieceLoop pick len p l' o' → l = l' ∧ o = o') :=
  ⟨fun h => h.unique, fun h => h.unique, fun h => h.unique⟩

/-- C86: a loop `for (; it != end; ++it)` ends, for `search_all` and `tokenize`, exactly if it does not come to an empty match before the end of
the subject. -/
theorem C86_ends_iff {W : Nat → List MState} {it : Nat → Option RIter} (h : Produces φ W it l o) :
    (∃ k y, it k = some y ∧ y.isEnd = true) ↔ o = none := by
  constructor
  · rintro ⟨k, y, h1, h2⟩
    cases o with
    | none => rfl
    | some q =>
      exfalso
      rcases Nat.lt_or_ge k l.length with hk | hk
      · obtain ⟨y', h3, h4, _⟩ := h.each k hk
        rw [h1] at h3
        cases h3
        simp only [Caps.get, if_true, Option.some.injEq] at h4
        simp [RIter.isEnd, h4] at h2
      · obtain ⟨y', h3, h4, _⟩ := h.stays q rfl (k - l.length)
        rw [show l.length + (k - l.length) = k by omega, h1] at h3
        cases h3
        rw [h4] at h2; cases h2
  · intro e
    obtain ⟨y, h1, h2⟩ := h.ends e 0
    exact ⟨_, y, h1, h2⟩

/-- C86: the same for `split`. -/
theorem C86_split_ends_iff {it : Nat → Option SIter} (h : ProducesPieces φ it l o) :
    (∃ k y, it k = some y ∧ y.isEnd = true) ↔ o = none := by
  constructor
  · rintro ⟨k, y, h1, h2⟩
    cases o with
    | none => rfl
    | some q =>
      exfalso
      rcases Nat.lt_or_ge k l.length with hk | hk
      · obtain ⟨y', h3, h4⟩ := h.each k hk
        rw [h1] at h3
        cases h3
        simp only [Caps.get, if_true, Option.some.injEq] at h4
        simp [SIter.isEnd, h4] at h2
      · obtain ⟨y', h3, h4, _⟩ := h.stays q rfl (k - l.length)
        rw [show l.length + (k - l.length) = k by omega, h1] at h3
        cases h3
        rw [h4] at h2; cases h2
  · intro e
    obtain ⟨y, h1, h2⟩ := h.ends e 0
    exact ⟨_, y, h1, h2⟩

/-- C86: without an empty match before the end of the subject, loops over `search_all` and `tokenize` end; with `e` positions left there
are at most `e` results, or one if `e` is 0. -/
theorem C86_ends {pick : Nat → Option Nat} {len p : Nat} (hp : p ≤ len) (he : ∀ i, i < len → pick i ≠ some i) :
    (AllLoop pick len p l o → o = none ∧ l.length ≤ max 1 (len - p)) ∧ (TokenLoop pick len p l o → o = none ∧ l.length ≤ max 1 (len - p)) := by
  constructor
  · intro h
    induction h with
    | stop p _ => exact ⟨rfl, by simp⟩
    | last p b _ _ => exact ⟨rfl, by simp⟩
    | step p b e l o h1 h2 h3 _ ih =>
      obtain ⟨k1, k2⟩ := ih (by omega)
      have := h1.1
      exact ⟨k1, by rw [List.length_cons]; omega⟩
    | stuck p b h1 h2 => exact absurd h1.2.2 (he b h2)
  · intro h
    induction h with
    | stop p _ => exact ⟨rfl, by simp⟩
    | last p _ _ => exact ⟨rfl, by simp⟩
    | step p e l o h1 h2 h3 _ ih =>
      obtain ⟨k1, k2⟩ := ih (by omega)
      exact ⟨k1, by rw [List.length_cons]; omega⟩
    | stuck p h1 h2 => exact absurd h1 (he p h2)

/-- C86: without an empty match, the loop over `split` ends. -/
theorem C86_split_ends {pick : Nat → Option Nat} {len p : Nat} (he : ∀ i, i ≤ len → pick i ≠ some i) (h : PieceLoop pick len p l o) :
    o = none := by
  induction h with
  | last p _ => rfl
  | step p b e l o h1 h2 h3 _ ih => exact ih
  | stuck p b h1 h2 => exact absurd h1.2.2 (he b h2)

/-- C86: if there is a match at the end of the subject (which has to be empty), the loop over `split` does not end, whatever precedes. -/
theorem C86_split_never_ends {pick : Nat → Option Nat} {len p : Nat} (hp : p ≤ len) (he : pick len ≠ none) (h : PieceLoop pick len p l o) :
    o ≠ none := by
  induction h with
  | last p h1 => exact fun _ => he (h1 len hp (Nat.le_refl _))
  | step p b e l o h1 h2 h3 _ ih => exact ih h3
  | stuck p b h1 h2 => simp

/-- C86 for whole calls: a text that can match at the end of the subject (as `a*` can, at the end of every subject) makes the loop over
`split` run for ever. -/
theorem C86_split_runs_forever (hb : Candid P.find t b (callFlags ml mods)) (hbeg : b.unanchored (callFlags ml mods).ml = true)
    (hl : lit.Spells t) (ht : ∀ c ∈ t, IsScalar c) (hx : x.Holds s φ) (hs : ∀ c ∈ s, IsScalar c)
    (hf : (∃ u, x = .u8 u) → b.forward = true) (he : ∃ e, b.Can C (codePoints s) (callFlags ml mods) s.length e) :
    ∃ N, ∀ n, N ≤ n → ∃ it, call P C n ml .split mods lit x = some (.pieces it) ∧ ∀ k, ∃ y, it k = some y ∧ y.isEnd = false := by
  obtain ⟨l, o, h1, N, h2⟩ := C86_split (C := C) hb.steadfast hbeg hl ht hx hs hf
  have hne : textPick C (codePoints s) (callFlags ml mods) b s.length ≠ none := by
    intro h
    obtain ⟨e, he⟩ := he
    have hnil : textWays C (codePoints s) (callFlags ml mods) b s.length = [] := by
      unfold textPick pick at h
      cases hw : textWays C (codePoints s) (callFlags ml mods) b s.length with
      | nil => rfl
      | cons τ rest => rw [hw] at h; cases h
    exact (hb.nil (by rw [codePoints_length])).1 hnil e he
  have h3 := C86_split_never_ends (Nat.zero_le _) hne h1
  refine ⟨N, fun n hn => ?_⟩
  obtain ⟨it, h4, h5⟩ := h2 n hn
  refine ⟨it, h4, fun k => ?_⟩
  obtain ⟨q, rfl⟩ := Option.ne_none_iff_exists'.1 h3
  rcases Nat.lt_or_ge k l.length with hk | hk
  · obtain ⟨y, h6, h7⟩ := h5.each k hk
    refine ⟨y, h6, ?_⟩
    simp only [Caps.get, if_true, Option.some.injEq] at h7
    simp [SIter.isEnd, h7]
  · obtain ⟨y, h6, h7, _⟩ := h5.stays q rfl (k - l.length)
    rw [show l.length + (k - l.length) = k by omega] at h6
    exact ⟨y, h6, h7⟩

/-! ### Cases -/

/-- `a*` -/
def sampleStar86 : Body := .alt (.one (.one (.ch (.plain 97)) (.star .greedy)))

theorem sampleStar86_candid : Candid (PropTable.find {}) [97, 42] sampleStar86 (callFlags false []) where
  steadfast := {
    orderly := {
      reading := by
        refine ⟨?_, rfl⟩
        simp [sampleStar86, Body.WF, Alt.WF, Cat.WF, Atom.WF, Char1.WF, special, Quant.WF]
      faithful := by
        simp [sampleStar86, Body.Faithful, Alt.Faithful, Cat.Faithful, Atom.Faithful, Quant.Faithful, Char1.Faithful, possessiveItem,
          Atom.possessive, Cat.leadsPossessive, Quant.kind]
      size := by decide +kernel
      inOrder := by decide +kernel
      selfFree := by simp [sampleStar86, Body.selfFree, Alt.selfFree, Cat.selfFree, Atom.selfFree]
      known := by decide +kernel
      attentive := by decide +kernel }
    robust := ⟨false, by decide, by decide +kernel⟩
    blk := rfl
    ci := rfl }
  firm := by decide +kernel
  loose := by decide +kernel

example : sampleStar86.unanchored false = true ∧ sampleStar86.forward = true := by decide +kernel

-- `a*` on "aab": the match "aa", and then the empty match at 2 for ever
example : AllLoop (textPick {} [97, 97, 98] (callFlags false []) sampleStar86) 3 0 [(0, 2)] (some 2) :=
  .step 0 0 2 [] _ ⟨by decide, by omega, by decide +kernel⟩ (by decide) (by decide) (.stuck 2 2 ⟨by decide, by omega, by decide +kernel⟩ (by decide))
-- on "aa": one match, and the end
example : AllLoop (textPick {} [97, 97] (callFlags false []) sampleStar86) 2 0 [(0, 2)] none :=
  .last 0 0 ⟨by decide, by omega, by decide +kernel⟩ (by decide)
-- on the empty subject: an empty match, and the end
example : AllLoop (textPick {} [] (callFlags false []) sampleStar86) 0 0 [(0, 0)] none :=
  .last 0 0 ⟨by decide, by omega, by decide +kernel⟩ (by decide)
-- `split` on "aa" finds the separator "aa", and then empty ones at the end of the subject, for ever
example : PieceLoop (textPick {} [97, 97] (callFlags false []) sampleStar86) 2 0 [(0, 0), (2, 2)] (some 2) :=
  .step 0 0 2 _ _ ⟨by decide, by omega, by decide +kernel⟩ (by decide) (by decide) (.stuck 2 2 ⟨by decide, by omega, by decide +kernel⟩ (by decide))

/-- The loop over `split` with `a*` runs for ever, for every subject. -/
theorem C86_split_star (hs : ∀ c ∈ s, IsScalar c) :
    ∃ N, ∀ n, N ≤ n → ∃ it, call {} C n false .split [] (.utf32 [97, 42]) (.view (codePoints s)) = some (.pieces it) ∧
      ∀ k, ∃ y, it k = some y ∧ y.isEnd = false := by
  refine C86_split_runs_forever sampleStar86_candid (by decide +kernel) (.utf32 _) (by decide) (.view s) hs (by simp) ⟨s.length, ?_⟩
  exact ⟨MState.start s.length _, ⟨0, by simp [Quant.admits], .zero _⟩, rfl⟩

end Ctre
