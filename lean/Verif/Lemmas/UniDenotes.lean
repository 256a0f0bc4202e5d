import Verif.Lemmas.UniSafe
import Verif.Lemmas.UniReject
import Verif.Spec.Properties
/-
Patterns of one property stand for the code points the tests find.
-/
set_option maxRecDepth 100000
namespace Ctre.Ucd
open Unicode14 Surface Parse

theorem exactly_of {name : List Nat} {value : Option (List Nat)} {neg : Bool} {a : Atom} {p : Nat → Prop}
    (hn : isPropWord name) (hv : ∀ w, value = some w → isPropWord w) (hf : table.find name value = some a.code)
    (h : Is a.test p) :
    MatchesExactly ([92, if neg then 80 else 112, 123] ++ name ++ printValue value ++ [125])
      (fun c => if neg then ¬ p c else p c) := by
  refine ⟨_, cls_build (P := table) (c := .prop neg a.code name value) ⟨hn, hv, hf⟩, fun C f c hC hc => ?_⟩
  obtain ⟨x, h1, h2⟩ := match_one (C := C) (f := f) (cl := clsTree (.prop neg a.code name value)) (v := (c : Ch))
  refine ⟨x, h1, h2.trans ?_⟩
  obtain ⟨b, hb, hp⟩ := h c hc
  have hu : uni a.code c = b := by rw [uni, atom_code, hb]; rfl
  rw [hC]
  cases neg
  · simp only [clsTree, Bool.false_eq_true, if_false, CC.matchChar]
    rw [toU32_nat (by omega), hu, hp]
  · simp only [clsTree, if_true, CC.matchChar, CC.matchAny]
    rw [toU32_nat (by omega), hu, ← hp]
    cases b <;> simp

theorem denotes_of {w : List Nat} {a : Atom} {p : Nat → Prop} (hn : isPropWord w) (hf : table.binary w = some a.code)
    (h : Is a.test p) : Denotes w p := by
  have := @exactly_of w none false a p hn (by simp) hf h
  have h2 := @exactly_of w none true a p hn (by simp) hf h
  simp only [printValue, List.append_nil] at this h2
  exact ⟨this, h2⟩

theorem valueDenotes_of {w v : List Nat} {a : Atom} {p : Nat → Prop} (hn : isPropWord w) (hv : isPropWord v)
    (hf : table.valued w v = some a.code) (h : Is a.test p) : ValueDenotes w v p := by
  have := @exactly_of w (some v) false a p hn (by simpa using hv) hf h
  have h2 := @exactly_of w (some v) true a p hn (by simpa using hv) hf h
  simp only [printValue] at this h2
  simp only [ValueDenotes, valueText]
  have e : ∀ l : List Nat, l ++ w ++ [61] ++ v ++ [125] = l ++ w ++ (61 :: v) ++ [125] := by simp
  rw [e, e]
  exact ⟨this, h2⟩

/-- The names lead to a test of this kind. -/
def leadsTo (k : PropKind) (n : List Nat) : Bool :=
  wordOk n &&
    match fromString binaryPropNames n with
    | some p => decide (binaryPropKinds[p]? = some k)
    | none => false

theorem denotes_kind {k : PropKind} {n w : List Nat} {p : Nat → Prop} (hn : leadsTo k n = true) (hw : sameName w n)
    (h : Is k.test p) : Denotes w p := by
  rw [leadsTo, Bool.and_eq_true] at hn
  obtain ⟨h1, h2⟩ := hn
  split at h2
  · rename_i q hq
    rw [decide_eq_true_eq] at h2
    refine denotes_of (a := .binary q) (isPropWord_same hw (wordOk_iff.1 h1)) ?_ ?_
    · simp only [table, binaryFind]
      rw [fromString_same hw, hq]; rfl
    · have : (Atom.binary q).test = k.test := by
        funext c; simp only [Atom.test, h2]
      rw [this]; exact h
  · simp at h2

/-- The same for a list of names, some of which are left out. -/
theorem denotes_names {k : PropKind} {names out : List (List Nat)} {p : Nat → Prop}
    (hn : (names.all fun n => out.contains n || leadsTo k n) = true) (h : Is k.test p) {n w : List Nat} (hm : n ∈ names)
    (ho : n ∉ out) (hw : sameName w n) : Denotes w p := by
  have := List.all_eq_true.1 hn n hm
  rw [Bool.or_eq_true, List.contains_iff_mem] at this
  rcases this with h' | h'
  · exact (ho h').elim
  · exact denotes_kind h' hw h

/-! ### At most one set -/

theorem match_det {C : Cfg} {s : List Ch} {f : Flags} {r : Re} {x y : Caps}
    (hx : Returns (fun n => cMatch C n s f r) (.done x)) (hy : Returns (fun n => cMatch C n s f r) (.done y)) : x = y := by
  obtain ⟨_, n, hn⟩ := hx
  obtain ⟨_, m, hm⟩ := hy
  dsimp only at hn hm
  simp only [cMatch, matchAt, attemptFull] at hn hm
  have h1 : eval C n s false 0 f (initCaps r) [.startMark, .re r, .re .sEnd, .endMark, .accept] ≠ .timeout := by
    intro h; rw [h] at hn; simp [Out.toExec] at hn
  have h2 : eval C m s false 0 f (initCaps r) [.startMark, .re r, .re .sEnd, .endMark, .accept] ≠ .timeout := by
    intro h; rw [h] at hm; simp [Out.toExec] at hm
  rw [eval_det C h1 h2, hm] at hn
  exact (Exec.done.inj hn).symm

theorem exactly_unique {t : List Nat} {p q : Nat → Prop} (hp : MatchesExactly t p) (hq : MatchesExactly t q) {c : Nat}
    (hc : c < 0x110000) : p c ↔ q c := by
  obtain ⟨r, h1, h2⟩ := hp
  obtain ⟨r', h3, h4⟩ := hq
  rw [h1] at h3
  cases h3
  obtain ⟨x, k1, k2⟩ := h2 { uni := uni } {} c rfl hc
  obtain ⟨y, k3, k4⟩ := h4 { uni := uni } {} c rfl hc
  rw [match_det k1 k3] at k2
  rw [← k2, k4]

end Ctre.Ucd
