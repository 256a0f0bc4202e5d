import Verif.Lemmas.Widen
import Verif.Props.Reorder

/-
C94: what allows more succeeds more often.
-/
namespace Ctre
open Parse Surface

variable {P : PropTable} {C : Cfg} {ml : Bool} {mods : List Mode} {lit lit' : PatLit} {x : Subject}
  {t t' s : List Nat} {φ : Nat → Nat} {b b' : Body} {f : Flags}

theorem widen_can (h : Widen C.uni (.body b) (.body b')) (hv : b.visible = b'.visible) {s : List Ch} {p e : Nat} (hc : b.Can C s f p e) :
    b'.Can C s f p e := by
  have he : b.env C = b'.env C := by simp only [Body.env, hv]
  have := widen_meaning (E := b.env C) s h
  simp only [Wider] at this
  obtain ⟨τ, h1, h2⟩ := hc
  exact ⟨τ, he ▸ this _ _ h1, h2⟩

/-- C94 for `match`: if it succeeds with the one pattern, it succeeds with a wider one. -/
theorem C94_match (h : Widen C.uni (.body b) (.body b')) (hv : b.visible = b'.visible) (hb : Candid P.find t b (callFlags ml mods))
    (hb' : Candid P.find t' b' (callFlags ml mods)) (hl : lit.Spells t) (ht : ∀ c ∈ t, IsScalar c) (hl' : lit'.Spells t')
    (ht' : ∀ c ∈ t', IsScalar c) (hx : x.Holds s φ) (hs : ∀ c ∈ s, IsScalar c) (hf : (∃ u, x = .u8 u) → b.forward = true ∧ b'.forward = true) :
    ∃ N, ∀ n, N ≤ n →
      ∃ y y', call P C n ml .match_ mods lit x = some (.one (.done y)) ∧ call P C n ml .match_ mods lit' x = some (.one (.done y')) ∧
        (y.whole.matched = true → y'.whole.matched = true) := by
  obtain ⟨N, h1⟩ := C85_match (C := C) hb hl ht hx hs fun e => (hf e).1
  obtain ⟨N', h2⟩ := C85_match (C := C) hb' hl' ht' hx hs fun e => (hf e).2
  refine ⟨max N N', fun n hn => ?_⟩
  obtain ⟨y, k1, k2, -⟩ := h1 n (by omega)
  obtain ⟨y', k3, k4, -⟩ := h2 n (by omega)
  refine ⟨y, y', k1, k3, ?_⟩
  rw [k2, k4]
  exact widen_can h hv

/-- C94 for `starts_with`. -/
theorem C94_starts_with (h : Widen C.uni (.body b) (.body b')) (hv : b.visible = b'.visible) (hb : Candid P.find t b (callFlags ml mods))
    (hb' : Candid P.find t' b' (callFlags ml mods)) (hl : lit.Spells t) (ht : ∀ c ∈ t, IsScalar c) (hl' : lit'.Spells t')
    (ht' : ∀ c ∈ t', IsScalar c) (hx : x.Holds s φ) (hs : ∀ c ∈ s, IsScalar c) (hf : (∃ u, x = .u8 u) → b.forward = true ∧ b'.forward = true) :
    ∃ N, ∀ n, N ≤ n →
      ∃ y y', call P C n ml .startsWith mods lit x = some (.one (.done y)) ∧ call P C n ml .startsWith mods lit' x = some (.one (.done y')) ∧
        (y.whole.matched = true → y'.whole.matched = true) := by
  obtain ⟨N, h1⟩ := C85_starts_with (C := C) hb hl ht hx hs fun e => (hf e).1
  obtain ⟨N', h2⟩ := C85_starts_with (C := C) hb' hl' ht' hx hs fun e => (hf e).2
  refine ⟨max N N', fun n hn => ?_⟩
  obtain ⟨y, k1, k2, -⟩ := h1 n (by omega)
  obtain ⟨y', k3, k4, -⟩ := h2 n (by omega)
  refine ⟨y, y', k1, k3, ?_⟩
  rw [k2, k4]
  exact fun ⟨e, he⟩ => ⟨e, widen_can h hv he⟩

/-- C94 for `search`: and what is found with the wider pattern does not begin later. -/
theorem C94_search (h : Widen C.uni (.body b) (.body b')) (hv : b.visible = b'.visible) (hb : Candid P.find t b (callFlags ml mods))
    (hb' : Candid P.find t' b' (callFlags ml mods))
    (hbeg : b.placed (callFlags ml mods).ml = true ∨ b.begins (callFlags ml mods).ml = true)
    (hbeg' : b'.placed (callFlags ml mods).ml = true ∨ b'.begins (callFlags ml mods).ml = true)
    (hl : lit.Spells t) (ht : ∀ c ∈ t, IsScalar c) (hl' : lit'.Spells t')
    (ht' : ∀ c ∈ t', IsScalar c) (hx : x.Holds s φ) (hs : ∀ c ∈ s, IsScalar c) (hf : (∃ u, x = .u8 u) → b.forward = true ∧ b'.forward = true) :
    ∃ N, ∀ n, N ≤ n →
      ∃ y y', call P C n ml .search mods lit x = some (.one (.done y)) ∧ call P C n ml .search mods lit' x = some (.one (.done y')) ∧
        (y.whole.matched = true → y'.whole.matched = true ∧
          ∃ p p', p' ≤ p ∧ p ≤ s.length ∧ (y.get 0).bind Slot.b = some (φ p) ∧ (y'.get 0).bind Slot.b = some (φ p')) := by
  obtain ⟨N, h1⟩ := C85_search (C := C) hb hbeg hl ht hx hs fun e => (hf e).1
  obtain ⟨N', h2⟩ := C85_search (C := C) hb' hbeg' hl' ht' hx hs fun e => (hf e).2
  refine ⟨max N N', fun n hn => ?_⟩
  obtain ⟨y, k1, k2, k3⟩ := h1 n (by omega)
  obtain ⟨y', k4, k5, k6⟩ := h2 n (by omega)
  refine ⟨y, y', k1, k4, fun hm => ?_⟩
  have hm' : y'.whole.matched = true := by
    obtain ⟨p, e, hp, he⟩ := k2.1 hm
    exact k5.2 ⟨p, e, hp, widen_can h hv he⟩
  obtain ⟨p, hp, m1, -⟩ := k3 hm
  obtain ⟨p', hp', m1', m2'⟩ := k6 hm'
  refine ⟨hm', p, p', ?_, hp, reportsMatch_begin m1, reportsMatch_begin m1'⟩
  by_contra hlt
  obtain ⟨_, τ, -, w, -⟩ := m1
  exact m2' p (by omega) τ.pos (widen_can h hv ⟨τ, w, rfl⟩)

/-! ### Cases -/

/-- `\b([a-c]{2,3})=(?!0)1` -/
def sampleNarrow : Body := .alt (.one (.cons .wordBoundary .none
  (.cons (.cap 1 (.alt (.one (.one (.set false [.range (.plain 97) (.plain 99)]) (.between [50] [51] .greedy))))) .none
  (.cons (.ch (.plain 61)) .none (.cons (.ahead false (.alt (.one (.one (.ch (.plain 48)) .none)))) .none (.one (.ch (.plain 49)) .none))))))

/-- `([a-z]+)=(?:22|1|)` -/
def sampleWide : Body := .alt (.one (
  .cons (.cap 1 (.alt (.one (.one (.set false [.range (.plain 97) (.plain 122)]) (.plus .greedy))))) .none
  (.cons (.ch (.plain 61)) .none (.one (.group (.alt (.bar (.cons (.ch (.plain 50)) .none (.one (.ch (.plain 50)) .none))
    (.bar (.one (.ch (.plain 49)) .none) .empty)))) .none))))

def sampleNarrowText : List Nat := [92, 98, 40, 91, 97, 45, 99, 93, 123, 50, 44, 51, 125, 41, 61, 40, 63, 33, 48, 41, 49]

def sampleWideText : List Nat := [40, 91, 97, 45, 122, 93, 43, 41, 61, 40, 63, 58, 50, 50, 124, 49, 124, 41]

theorem sample_widen (U : Uni) : Widen U (.body sampleNarrow) (.body sampleWide) := by
  refine widen_single (.drop rfl (.cons Iff.rfl (fun _ h => h) (.cap (widen_single (.one (by simp) (fun k => ?_) (.chars rfl rfl fun ml ci v => ?_))))
    (.cons Iff.rfl (fun _ h => h) (.same _) (.drop rfl (.one Iff.rfl (fun _ h => h) (.enclose (widen_more fun o => ?_)))))))
  · simp only [Quant.admits, decimal]; simp; omega
  · simp only [Atom.takes]
    simp only [List.mem_singleton, exists_eq_left, SetItem.has, CC.matchChar, matchRange, Char1.code, iff_true]
    intro h
    simp [isLower, isUpper, geConst, leConst] at h ⊢
    rcases h with ⟨⟨hc, h1⟩, h2⟩ | ⟨h1, h2⟩
    · exact .inl ⟨⟨hc, h1⟩, Int.le_trans h2 (by decide)⟩
    · exact .inr ⟨h1, Int.le_trans h2 (by decide)⟩
  · simp only [Body.choices, Alt.choices, List.mem_cons, List.not_mem_nil, or_false]
    rintro rfl
    exact .inr (.inl rfl)

theorem sampleNarrow_candid : Candid (PropTable.find {}) sampleNarrowText sampleNarrow (callFlags false []) where
  steadfast := {
    orderly := {
      reading := by
        refine ⟨?_, rfl⟩
        simp [sampleNarrow, Body.WF, Alt.WF, Cat.WF, Atom.WF, Char1.WF, special, Quant.WF, Atom.groups, Cat.groups, Alt.groups, Body.groups,
          Atom.leadsName, Cat.leadsName, Body.leadsName, Alt.leadsName, SetWF, SetItem.WF, specialInSet, isNumber, isDec, decimal]
      faithful := by
        simp [sampleNarrow, Body.Faithful, Alt.Faithful, Cat.Faithful, Atom.Faithful, Quant.Faithful, Char1.Faithful, possessiveItem,
          Atom.possessive, Cat.leadsPossessive, Quant.kind, SetItem.Faithful, decimal, Char1.code]
      size := by decide +kernel
      inOrder := by decide +kernel
      selfFree := by simp [sampleNarrow, Body.selfFree, Alt.selfFree, Cat.selfFree, Atom.selfFree]
      known := by decide +kernel
      attentive := by decide +kernel }
    robust := ⟨false, by decide, by decide +kernel⟩
    blk := rfl
    ci := rfl }
  firm := by decide +kernel
  loose := by decide +kernel

theorem sampleWide_candid : Candid (PropTable.find {}) sampleWideText sampleWide (callFlags false []) where
  steadfast := {
    orderly := {
      reading := by
        refine ⟨?_, rfl⟩
        simp [sampleWide, Body.WF, Alt.WF, Cat.WF, Atom.WF, Char1.WF, special, Quant.WF, Atom.groups, Cat.groups, Alt.groups, Body.groups,
          Atom.leadsName, Cat.leadsName, Body.leadsName, Alt.leadsName, SetWF, SetItem.WF, specialInSet, isNumber, isDec, decimal]
      faithful := by
        simp [sampleWide, Body.Faithful, Alt.Faithful, Cat.Faithful, Atom.Faithful, Quant.Faithful, Char1.Faithful, possessiveItem,
          Atom.possessive, Cat.leadsPossessive, Quant.kind, SetItem.Faithful, decimal, Char1.code]
      size := by decide +kernel
      inOrder := by decide +kernel
      selfFree := by simp [sampleWide, Body.selfFree, Alt.selfFree, Cat.selfFree, Atom.selfFree]
      known := by decide +kernel
      attentive := by decide +kernel }
    robust := ⟨false, by decide, by decide +kernel⟩
    blk := rfl
    ci := rfl }
  firm := by decide +kernel
  loose := by decide +kernel

example : sampleNarrow.visible = sampleWide.visible ∧ sampleNarrow.unanchored false = true ∧ sampleWide.unanchored false = true := by decide +kernel

/-- In "xbc=1" the one finds nothing, and the other one "xbc=1"; in " bc=1" both find "bc=1". -/
example : ∃ r r', build {} sampleNarrowText = .pattern r ∧ build {} sampleWideText = .pattern r' ∧
    (cSearch {} 200 [120, 98, 99, 61, 49] {} r).success = false ∧ (cSearch {} 200 [120, 98, 99, 61, 49] {} r').success = true ∧
    (cSearch {} 200 [32, 98, 99, 61, 49] {} r).success = true ∧ (cSearch {} 200 [32, 98, 99, 61, 49] {} r').success = true :=
  ⟨_, _, rfl, rfl, by decide +kernel, by decide +kernel, by decide +kernel, by decide +kernel⟩

/-- C94: a larger range is not wider when case is ignored: `[a-c]` matches "B", but `[_-c]` does not (see C19). -/
theorem C94_fails_range : ∃ r r', build {} [91, 97, 45, 99, 93] = .pattern r ∧ build {} [91, 95, 45, 99, 93] = .pattern r' ∧
    (cMatch {} 60 [66] { ci := true } r).success = true ∧ (cMatch {} 60 [66] { ci := true } r').success = false :=
  ⟨_, _, rfl, rfl, by decide +kernel, by decide +kernel⟩

/-- C94: not if what is repeated matches in several ways, of which only the first counts: `(?:a)*b` and `(?:ab|a)*b` on "ab". -/
theorem C94_fails_ambiguous : ∃ r r', build {} [40, 63, 58, 97, 41, 42, 98] = .pattern r ∧
    build {} [40, 63, 58, 97, 98, 124, 97, 41, 42, 98] = .pattern r' ∧
    (cMatch {} 60 [97, 98] {} r).success = true ∧ (cMatch {} 60 [97, 98] {} r').success = false :=
  ⟨_, _, rfl, rfl, by decide +kernel, by decide +kernel⟩

/-- C94: nor in atomic groups: `(?>a)b` and `(?>ab|a)b` on "ab". -/
theorem C94_fails_atomic : ∃ r r', build {} [40, 63, 62, 97, 41, 98] = .pattern r ∧
    build {} [40, 63, 62, 97, 98, 124, 97, 41, 98] = .pattern r' ∧
    (cMatch {} 60 [97, 98] {} r).success = true ∧ (cMatch {} 60 [97, 98] {} r').success = false :=
  ⟨_, _, rfl, rfl, by decide +kernel, by decide +kernel⟩

/-- C94: nor for possessive repetitions: `(?:a)?+a` and `(?:a)*+a` on "aa". -/
theorem C94_fails_possessive : ∃ r r', build {} [40, 63, 58, 97, 41, 63, 43, 97] = .pattern r ∧
    build {} [40, 63, 58, 97, 41, 42, 43, 97] = .pattern r' ∧
    (cMatch {} 60 [97, 97] {} r).success = true ∧ (cMatch {} 60 [97, 97] {} r').success = false :=
  ⟨_, _, rfl, rfl, by decide +kernel, by decide +kernel⟩

end Ctre
