import Verif.Lemmas.Hooked
import Verif.Props.Endless

/-
C86 for `split` with patterns that begin with an anchor.
-/
namespace Ctre
open Parse Surface

variable {P : PropTable} {C : Cfg} {n : Nat} {ml : Bool} {mods : List Mode} {lit : PatLit} {x : Subject}
  {t s : List Nat} {φ : Nat → Nat} {b : Body}

/-- C86 for `split`, if every way through the text begins with `\A` or, outside of multiline mode, `^`: the pieces follow from the end of
the match at the beginning of the subject. -/
theorem C86_split_anchored (hb : Steadfast P.find t b (callFlags ml mods)) (hbeg : b.hooked (callFlags ml mods).ml = true)
    (hl : lit.Spells t) (ht : ∀ c ∈ t, IsScalar c) (hx : x.Holds s φ) (hs : ∀ c ∈ s, IsScalar c)
    (hf : (∃ u, x = .u8 u) → b.forward = true) : ∃ N, ∀ n, N ≤ n →
      ∃ it, call P C n ml .split mods lit x = some (.pieces it) ∧
        ProducesPieces φ it (anchoredPieces (textPick C (codePoints s) (callFlags ml mods) b 0) s.length).1
          (anchoredPieces (textPick C (codePoints s) (callFlags ml mods) b 0) s.length).2 := by
  refine ⟨(bodyTree b).weight + s.length + 7, fun n hn => ?_⟩
  have h := body_hooked b hbeg
  have h1 := (hb.trials (C := C) (n := n) (.inr h.2) (codePoints_isCh hs) (by rw [codePoints_length]; exact hn)).anchored_pieces h.1.1
  rw [codePoints_length] at h1
  exact ⟨_, hb.call_eq hl ht hx hs hf, h1.produces⟩

/-- C86: such a loop ends exactly if the subject is empty and does not match, or the match at the beginning is not empty and reaches the end
of the subject; in the other cases the rest of the subject is never part of a piece. -/
theorem C86_split_anchored_ends_iff {m : Option Nat} {len : Nat} :
    (anchoredPieces m len).2 = none ↔ (m = none ∧ len = 0) ∨ (m = some len ∧ len ≠ 0) := by
  unfold anchoredPieces
  split
  · by_cases h : len = 0 <;> simp [h]
  · simp; omega
  · rename_i e
    by_cases h : e + 1 = len <;> simp [h]
    omega

/-- C86: all pieces of such a loop are empty. -/
theorem C86_split_anchored_empty {m : Option Nat} {len : Nat} : ∀ q ∈ (anchoredPieces m len).1, q.1 = q.2 := by
  unfold anchoredPieces
  split
  · split <;> simp
  · simp
  · split <;> simp

/-! ### Cases -/

/-- `^a` -/
def sampleHooked : Body := .alt (.one (.cons .bol .none (.one (.ch (.plain 97)) .none)))

theorem sampleHooked_steadfast : Steadfast (PropTable.find {}) [94, 97] sampleHooked (callFlags false []) where
  orderly := {
    reading := by
      refine ⟨?_, rfl⟩
      simp [sampleHooked, Body.WF, Alt.WF, Cat.WF, Atom.WF, Char1.WF, special, Quant.WF]
    faithful := by
      simp [sampleHooked, Body.Faithful, Alt.Faithful, Cat.Faithful, Atom.Faithful, Quant.Faithful, Char1.Faithful, possessiveItem,
        Atom.possessive, Cat.leadsPossessive, Atom.leadsPossessive, Quant.kind]
    size := by decide +kernel
    inOrder := by decide +kernel
    selfFree := by simp [sampleHooked, Body.selfFree, Alt.selfFree, Cat.selfFree, Atom.selfFree]
    known := by decide +kernel
    attentive := by decide +kernel }
  robust := ⟨false, by decide, by decide +kernel⟩
  blk := rfl
  ci := rfl

example : sampleHooked.hooked false = true ∧ sampleHooked.forward = true := by decide +kernel
-- `split` with `^a`: on "aab" the piece "" and then empty pieces at 1 for ever; on "a" the pieces "" and ""; on "b" empty pieces for ever
example : anchoredPieces (textPick {} [97, 97, 98] {} sampleHooked 0) 3 = ([(0, 0)], some 1) := by decide +kernel
example : anchoredPieces (textPick {} [97] {} sampleHooked 0) 1 = ([(0, 0), (1, 1)], none) := by decide +kernel
example : anchoredPieces (textPick {} [98] {} sampleHooked 0) 1 = ([], some 0) := by decide +kernel

/-- The loop over `split` with `^a` runs for ever for every subject except "" and "a". -/
theorem C86_split_hooked (hs : ∀ c ∈ s, IsScalar c) : ∃ N, ∀ n, N ≤ n →
    ∃ it, call {} C n false .split [] (.utf32 [94, 97]) (.view (codePoints s)) = some (.pieces it) ∧
      ((∃ k y, it k = some y ∧ y.isEnd = true) ↔ s = [] ∨ s = [97]) := by
  obtain ⟨N, h⟩ := C86_split_anchored (C := C) sampleHooked_steadfast (by decide +kernel) (.utf32 _) (by decide) (.view s) hs (by simp)
  refine ⟨N, fun n hn => ?_⟩
  obtain ⟨it, h1, h2⟩ := h n hn
  refine ⟨it, h1, ?_⟩
  rw [C86_split_ends_iff h2, C86_split_anchored_ends_iff]
  have key : ∀ s : List Nat, textPick C (codePoints s) (callFlags false []) sampleHooked 0 = if s.head? = some 97 then some 1 else none := by
    intro s
    cases s with
    | nil => rfl
    | cons c s =>
      simp [textPick, pick, textWays, sampleHooked, codePoints, Body.ways, Alt.ways, Cat.ways, Atom.ways, stayIf, stepIf, MState.start, Char1.code, CC.matchChar,
        matchCharacter, callFlags]
      rw [show (Flags.ofList [Mode.singleline]).ci = false from rfl]
      have e : eqConst (c : Int) 97 = true ↔ c = 97 := by rw [eqConst_small (by decide)]; omega
      simp only [e]
      by_cases hc : c = 97 <;> simp [hc]
  rw [key]
  cases s with
  | nil => simp
  | cons c s => by_cases hc : c = 97 <;> simp [hc]

end Ctre
