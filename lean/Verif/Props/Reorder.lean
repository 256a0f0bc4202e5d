import Verif.Lemmas.Reorder
import Verif.Props.Decides

/-
C93: the order of alternatives, and whether repetitions are greedy or lazy, matter only for what is reported, not for success.
-/
namespace Ctre
open Parse Surface

variable {P : PropTable} {C : Cfg} {ml : Bool} {mods : List Mode} {lit lit' : PatLit} {x : Subject}
  {t t' s : List Nat} {φ : Nat → Nat} {b b' : Body} {f : Flags}

theorem reorder_can (h : Reorder (.body b) (.body b')) (hv : b.visible = b'.visible) {s : List Ch} (p e : Nat) :
    b.Can C s f p e ↔ b'.Can C s f p e := by
  have he : b.env C = b'.env C := by simp only [Body.env, hv]
  have := reorder_meaning (b.env C) s h
  simp only [SameMeaning] at this
  simp only [Body.Can, ← he, this]

/-- C93 for `match`: with the alternatives in another order, with alternatives repeated, and with other repetitions greedy or lazy, it succeeds
on the same subjects. -/
theorem C93_match (h : Reorder (.body b) (.body b')) (hv : b.visible = b'.visible) (hb : Candid P.find t b (callFlags ml mods))
    (hb' : Candid P.find t' b' (callFlags ml mods)) (hl : lit.Spells t) (ht : ∀ c ∈ t, IsScalar c) (hl' : lit'.Spells t')
    (ht' : ∀ c ∈ t', IsScalar c) (hx : x.Holds s φ) (hs : ∀ c ∈ s, IsScalar c) (hf : (∃ u, x = .u8 u) → b.forward = true ∧ b'.forward = true) :
    ∃ N, ∀ n, N ≤ n →
      ∃ y y', call P C n ml .match_ mods lit x = some (.one (.done y)) ∧ call P C n ml .match_ mods lit' x = some (.one (.done y')) ∧
        (y.whole.matched = true ↔ y'.whole.matched = true) := by
  obtain ⟨N, h1⟩ := C85_match (C := C) hb hl ht hx hs fun e => (hf e).1
  obtain ⟨N', h2⟩ := C85_match (C := C) hb' hl' ht' hx hs fun e => (hf e).2
  refine ⟨max N N', fun n hn => ?_⟩
  obtain ⟨y, k1, k2, -⟩ := h1 n (by omega)
  obtain ⟨y', k3, k4, -⟩ := h2 n (by omega)
  exact ⟨y, y', k1, k3, by rw [k2, k4, reorder_can h hv]⟩

/-- C93 for `starts_with`. -/
theorem C93_starts_with (h : Reorder (.body b) (.body b')) (hv : b.visible = b'.visible) (hb : Candid P.find t b (callFlags ml mods))
    (hb' : Candid P.find t' b' (callFlags ml mods)) (hl : lit.Spells t) (ht : ∀ c ∈ t, IsScalar c) (hl' : lit'.Spells t')
    (ht' : ∀ c ∈ t', IsScalar c) (hx : x.Holds s φ) (hs : ∀ c ∈ s, IsScalar c) (hf : (∃ u, x = .u8 u) → b.forward = true ∧ b'.forward = true) :
    ∃ N, ∀ n, N ≤ n →
      ∃ y y', call P C n ml .startsWith mods lit x = some (.one (.done y)) ∧ call P C n ml .startsWith mods lit' x = some (.one (.done y')) ∧
        (y.whole.matched = true ↔ y'.whole.matched = true) := by
  obtain ⟨N, h1⟩ := C85_starts_with (C := C) hb hl ht hx hs fun e => (hf e).1
  obtain ⟨N', h2⟩ := C85_starts_with (C := C) hb' hl' ht' hx hs fun e => (hf e).2
  refine ⟨max N N', fun n hn => ?_⟩
  obtain ⟨y, k1, k2, -⟩ := h1 n (by omega)
  obtain ⟨y', k3, k4, -⟩ := h2 n (by omega)
  exact ⟨y, y', k1, k3, by rw [k2, k4]; simp only [reorder_can (C := C) h hv]⟩

theorem reportsMatch_begin {s : List Ch} {y : Caps} {p : Nat} (h : ReportsMatch C s f b φ y p) : (y.get 0).bind Slot.b = some (φ p) := by
  obtain ⟨c, τ, rfl, -, h⟩ := h
  rw [get_mapPos, h.whole]
  rfl

/-- C93 for `search`: it succeeds on the same subjects, and what it finds begins at the same place. -/
theorem C93_search (h : Reorder (.body b) (.body b')) (hv : b.visible = b'.visible) (hb : Candid P.find t b (callFlags ml mods))
    (hb' : Candid P.find t' b' (callFlags ml mods))
    (hbeg : b.placed (callFlags ml mods).ml = true ∨ b.begins (callFlags ml mods).ml = true)
    (hbeg' : b'.placed (callFlags ml mods).ml = true ∨ b'.begins (callFlags ml mods).ml = true)
    (hl : lit.Spells t) (ht : ∀ c ∈ t, IsScalar c) (hl' : lit'.Spells t')
    (ht' : ∀ c ∈ t', IsScalar c) (hx : x.Holds s φ) (hs : ∀ c ∈ s, IsScalar c) (hf : (∃ u, x = .u8 u) → b.forward = true ∧ b'.forward = true) :
    ∃ N, ∀ n, N ≤ n →
      ∃ y y', call P C n ml .search mods lit x = some (.one (.done y)) ∧ call P C n ml .search mods lit' x = some (.one (.done y')) ∧
        (y.whole.matched = true ↔ y'.whole.matched = true) ∧
        (y.whole.matched = true → (y.get 0).bind Slot.b = (y'.get 0).bind Slot.b) := by
  obtain ⟨N, h1⟩ := C85_search (C := C) hb hbeg hl ht hx hs fun e => (hf e).1
  obtain ⟨N', h2⟩ := C85_search (C := C) hb' hbeg' hl' ht' hx hs fun e => (hf e).2
  refine ⟨max N N', fun n hn => ?_⟩
  obtain ⟨y, k1, k2, k3⟩ := h1 n (by omega)
  obtain ⟨y', k4, k5, k6⟩ := h2 n (by omega)
  have key : y.whole.matched = true ↔ y'.whole.matched = true := by rw [k2, k5]; simp only [reorder_can (C := C) h hv]
  refine ⟨y, y', k1, k4, key, fun hm => ?_⟩
  obtain ⟨p, hp, m1, m2⟩ := k3 hm
  obtain ⟨p', hp', m1', m2'⟩ := k6 (key.1 hm)
  have e : p = p' := by
    obtain ⟨_, τ, -, w, -⟩ := m1
    obtain ⟨_, τ', -, w', -⟩ := m1'
    rcases Nat.lt_trichotomy p p' with hlt | heq | hgt
    · exact absurd ((reorder_can (C := C) h hv p τ.pos).1 ⟨τ, w, rfl⟩) (m2' p hlt τ.pos)
    · exact heq
    · exact absurd ((reorder_can (C := C) h hv p' τ'.pos).2 ⟨τ', w', rfl⟩) (m2 p' hgt τ'.pos)
  rw [reportsMatch_begin m1, reportsMatch_begin m1', e]

/-! ### Cases -/

/-- `(a+)(?:b|bc)d?` -/
def sampleOrder : Body := .alt (.one (.cons (.cap 1 (.alt (.one (.one (.ch (.plain 97)) (.plus .greedy))))) .none
  (.cons (.group (.alt (.bar (.one (.ch (.plain 98)) .none) (.one (.cons (.ch (.plain 98)) .none (.one (.ch (.plain 99)) .none)))))) .none
    (.one (.ch (.plain 100)) (.opt .greedy)))))

/-- `(a+?)(?:bc|b)d??` -/
def sampleOrder2 : Body := .alt (.one (.cons (.cap 1 (.alt (.one (.one (.ch (.plain 97)) (.plus .lazy))))) .none
  (.cons (.group (.alt (.bar (.cons (.ch (.plain 98)) .none (.one (.ch (.plain 99)) .none)) (.one (.one (.ch (.plain 98)) .none))))) .none
    (.one (.ch (.plain 100)) (.opt .lazy)))))

def sampleOrderText : List Nat := [40, 97, 43, 41, 40, 63, 58, 98, 124, 98, 99, 41, 100, 63]

def sampleOrder2Text : List Nat := [40, 97, 43, 63, 41, 40, 63, 58, 98, 99, 124, 98, 41, 100, 63, 63]

theorem sampleOrder_reorder : Reorder (.body sampleOrder) (.body sampleOrder2) := by
  refine reorder_single (.cons (sameCounts_refl _) (.cap (reorder_single (.one ⟨by simp, fun k => by simp [Quant.admits]⟩ (.same _))))
    (.cons (sameCounts_refl _) (.group (reorder_perm fun o => ?_)) (.one ⟨by simp, fun k => by simp [Quant.admits]⟩ (.same _))))
  simp only [Body.choices, Alt.choices, List.mem_cons, List.not_mem_nil, or_false]
  exact Or.comm

theorem sampleOrder_candid : Candid (PropTable.find {}) sampleOrderText sampleOrder (callFlags false []) where
  steadfast := {
    orderly := {
      reading := by
        refine ⟨?_, rfl⟩
        simp [sampleOrder, Body.WF, Alt.WF, Cat.WF, Atom.WF, Char1.WF, special, Quant.WF, Atom.groups, Cat.groups, Alt.groups, Body.groups,
          Atom.leadsName, Cat.leadsName, Body.leadsName, Alt.leadsName]
      faithful := by
        simp [sampleOrder, Body.Faithful, Alt.Faithful, Cat.Faithful, Atom.Faithful, Quant.Faithful, Char1.Faithful, possessiveItem,
          Atom.possessive, Cat.leadsPossessive, Quant.kind]
      size := by decide +kernel
      inOrder := by decide +kernel
      selfFree := by simp [sampleOrder, Body.selfFree, Alt.selfFree, Cat.selfFree, Atom.selfFree]
      known := by decide +kernel
      attentive := by decide +kernel }
    robust := ⟨false, by decide, by decide +kernel⟩
    blk := rfl
    ci := rfl }
  firm := by decide +kernel
  loose := by decide +kernel

theorem sampleOrder2_candid : Candid (PropTable.find {}) sampleOrder2Text sampleOrder2 (callFlags false []) where
  steadfast := {
    orderly := {
      reading := by
        refine ⟨?_, rfl⟩
        simp [sampleOrder2, Body.WF, Alt.WF, Cat.WF, Atom.WF, Char1.WF, special, Quant.WF, Atom.groups, Cat.groups, Alt.groups, Body.groups,
          Atom.leadsName, Cat.leadsName, Body.leadsName, Alt.leadsName]
      faithful := by
        simp [sampleOrder2, Body.Faithful, Alt.Faithful, Cat.Faithful, Atom.Faithful, Quant.Faithful, Char1.Faithful, possessiveItem,
          Atom.possessive, Cat.leadsPossessive, Quant.kind]
      size := by decide +kernel
      inOrder := by decide +kernel
      selfFree := by simp [sampleOrder2, Body.selfFree, Alt.selfFree, Cat.selfFree, Atom.selfFree]
      known := by decide +kernel
      attentive := by decide +kernel }
    robust := ⟨false, by decide, by decide +kernel⟩
    blk := rfl
    ci := rfl }
  firm := by decide +kernel
  loose := by decide +kernel

example : sampleOrder.visible = sampleOrder2.visible ∧ sampleOrder.unanchored false = true ∧ sampleOrder2.unanchored false = true ∧
    sampleOrder.forward = true ∧ sampleOrder2.forward = true := by decide +kernel

/-- What is found differs: "abcd" begins with "ab" for `(a+)(?:b|bc)d?`, and with "abc" for `(a+?)(?:bc|b)d??`. -/
example : ∃ r r', build {} sampleOrderText = .pattern r ∧ build {} sampleOrder2Text = .pattern r' ∧
    (cSearch {} 200 [120, 97, 98, 99, 100] {} r = .done ⟨⟨some 1, some 3, true⟩, [⟨1, none, ⟨some 1, some 2, true⟩⟩]⟩) ∧
    (cSearch {} 200 [120, 97, 98, 99, 100] {} r' = .done ⟨⟨some 1, some 4, true⟩, [⟨1, none, ⟨some 1, some 2, true⟩⟩]⟩) :=
  ⟨_, _, rfl, rfl, by decide +kernel, by decide +kernel⟩

/-- C93: not if what is repeated matches in several ways, of which only the first counts: `(?:a|ab)*c` and `(?:ab|a)*c` on "abc". -/
theorem C93_fails_ambiguous : ∃ r r', build {} [40, 63, 58, 97, 124, 97, 98, 41, 42, 99] = .pattern r ∧
    build {} [40, 63, 58, 97, 98, 124, 97, 41, 42, 99] = .pattern r' ∧
    (cMatch {} 60 [97, 98, 99] {} r).success = false ∧ (cMatch {} 60 [97, 98, 99] {} r').success = true :=
  ⟨_, _, rfl, rfl, by decide +kernel, by decide +kernel⟩

/-- C93: nor in atomic groups: `(?>a|ab)c` and `(?>ab|a)c` on "abc". -/
theorem C93_fails_atomic : ∃ r r', build {} [40, 63, 62, 97, 124, 97, 98, 41, 99] = .pattern r ∧
    build {} [40, 63, 62, 97, 98, 124, 97, 41, 99] = .pattern r' ∧
    (cMatch {} 60 [97, 98, 99] {} r).success = false ∧ (cMatch {} 60 [97, 98, 99] {} r').success = true :=
  ⟨_, _, rfl, rfl, by decide +kernel, by decide +kernel⟩

end Ctre
