import Verif.Lemmas.UniScx
import Verif.Lemmas.Spelling
import Verif.Lemmas.Classes
/-
Property names, and patterns of one property.
-/
set_option maxRecDepth 100000
namespace Ctre.Ucd
open Unicode14

/-! ### Comparing names -/

theorem propNameComp_zero {a b : List Nat} : propNameComp a b = 0 ↔ a.map propCharNorm = b.map propCharNorm := by
  induction a generalizing b with
  | nil => cases b <;> simp [propNameComp]
  | cons x a ih =>
    cases b with
    | nil => simp [propNameComp]
    | cons y b =>
      rw [propNameComp, List.map_cons, List.map_cons, List.cons.injEq, ← ih]
      have h : propCharComp x y = 0 ↔ propCharNorm x = propCharNorm y := by
        rw [propCharComp]
        split
        · simp [*]
        · split <;> simp [*]
      by_cases hx : propCharComp x y = 0
      · rw [if_neg (by simpa using hx)]
        simp [h.1 hx]
      · rw [if_pos hx]
        simp [hx, ← h]

theorem norm_small (v : Nat) : propCharNorm (small v) = propCharNorm v := by
  unfold propCharNorm small
  by_cases h : 65 ≤ v ∧ v ≤ 90
  · rw [if_pos h, if_pos h, if_neg (by omega), if_neg (by omega)]
  · rw [if_neg h]

theorem sameName_norm {a b : List Nat} (h : sameName a b) : a.map propCharNorm = b.map propCharNorm := by
  have e : propCharNorm ∘ small = propCharNorm := funext norm_small
  have := congrArg (List.map propCharNorm) h
  rw [List.map_map, List.map_map, e] at this
  exact this

theorem fromString_congr {T : List (List Nat × Nat)} {a b : List Nat} (h : a.map propCharNorm = b.map propCharNorm) :
    fromString T a = fromString T b := by
  induction T with
  | nil => rfl
  | cons x T ih =>
    obtain ⟨n, v⟩ := x
    rw [fromString, fromString, ih]
    have : propNameComp a n = 0 ↔ propNameComp b n = 0 := by rw [propNameComp_zero, propNameComp_zero, h]
    simp only [this]

theorem fromString_same {T : List (List Nat × Nat)} {a b : List Nat} (h : sameName a b) : fromString T a = fromString T b :=
  fromString_congr (sameName_norm h)

theorem fromString_mem {T : List (List Nat × Nat)} {a : List Nat} {v : Nat} (h : fromString T a = some v) :
    ∃ x ∈ T, a.map propCharNorm = x.1.map propCharNorm ∧ x.2 = v := by
  induction T with
  | nil => simp [fromString] at h
  | cons x T ih =>
    obtain ⟨n, w⟩ := x
    rw [fromString] at h
    split at h
    · rename_i hc
      exact ⟨(n, w), by simp, propNameComp_zero.1 hc, by simpa using h⟩
    · obtain ⟨y, h1, h2⟩ := ih h
      exact ⟨y, by simp [h1], h2⟩

theorem fromString_none {T : List (List Nat × Nat)} {a : List Nat} (h : fromString T a = none) {x : List Nat × Nat}
    (hx : x ∈ T) : a.map propCharNorm ≠ x.1.map propCharNorm := by
  induction T with
  | nil => cases hx
  | cons y T ih =>
    obtain ⟨n, w⟩ := y
    rw [fromString] at h
    split at h
    · simp at h
    · rename_i hc
      rcases List.mem_cons.1 hx with k | k
      · subst k; rwa [propNameComp_zero] at hc
      · exact ih h k

theorem propertyType_same {a b : List Nat} (h : sameName a b) : propertyTypeFromName a = propertyTypeFromName b := by
  have e : ∀ n, propNameComp a n = 0 ↔ propNameComp b n = 0 := fun n => by
    rw [propNameComp_zero, propNameComp_zero, sameName_norm h]
  simp only [propertyTypeFromName, e]

/-! ### Names in patterns -/

open Surface in
theorem isPropChar_small (v : Nat) : isPropChar (small v) ↔ isPropChar v := by
  simp only [isPropChar, isNameChar, isNameStart, isDec, small]
  split <;> omega

open Surface in
theorem isPropWord_same {a b : List Nat} (h : sameName a b) (hb : isPropWord b) : isPropWord a := by
  refine ⟨?_, ?_⟩
  · rintro rfl
    have : b.map small = [] := h.symm
    exact hb.1 (List.map_eq_nil_iff.1 this)
  · intro v hv
    have : small v ∈ b.map small := by rw [← h]; exact List.mem_map_of_mem hv
    obtain ⟨w, hw, e⟩ := List.mem_map.1 this
    rw [← isPropChar_small, ← e, isPropChar_small]
    exact hb.2 w hw

/-- All characters may stand in a property name. -/
def wordOk (w : List Nat) : Bool :=
  !w.isEmpty && w.all fun v => (Nat.ble 65 v && Nat.ble v 90) || (Nat.ble 97 v && Nat.ble v 122) || (Nat.ble 48 v && Nat.ble v 57) ||
    Nat.beq v 95 || Nat.beq v 46

open Surface in
theorem wordOk_iff {w : List Nat} : wordOk w = true ↔ isPropWord w := by
  have : ∀ v : Nat, (((Nat.ble 65 v && Nat.ble v 90) || (Nat.ble 97 v && Nat.ble v 122) || (Nat.ble 48 v && Nat.ble v 57) ||
    Nat.beq v 95 || Nat.beq v 46) = true) ↔ isPropChar v := by
    intro v
    simp only [isPropChar, isNameChar, isNameStart, isDec, Bool.or_eq_true, Bool.and_eq_true, Nat.ble_eq, Nat.beq_eq]
    omega
  unfold wordOk isPropWord
  rw [Bool.and_eq_true, List.all_eq_true]
  simp only [this]
  cases w <;> simp

/-! ### Patterns of one property -/

open Parse Surface in
theorem cls_build {P : PropTable} {c : Cls} (hc : c.WF P.find) : build P c.print = .pattern (.cc (clsTree c)) := by
  have := just_build (P := P) (a := .cls c) (q := .none) (by simpa only [Atom.WF] using hc) trivial (by simp)
  simpa only [Atom.print, Quant.print, List.append_nil, quantTree, atomTree] using this

theorem toU32_nat {c : Nat} (hc : c < 4294967296) : toU32 (c : Int) = c := by
  unfold toU32; omega

theorem atom_code : ∀ a : Atom, Atom.ofCode a.code = a
  | .binary p => by
    have h1 : 5 * p % 5 = 0 := by omega
    have h2 : 5 * p / 5 = p := by omega
    simp only [Atom.code, Atom.ofCode, h1, h2]
  | .script p => by
    have h1 : (5 * p + 1) % 5 = 1 := by omega
    have h2 : (5 * p + 1) / 5 = p := by omega
    simp only [Atom.code, Atom.ofCode, h1, h2]
  | .scx p => by
    have h1 : (5 * p + 2) % 5 = 2 := by omega
    have h2 : (5 * p + 2) / 5 = p := by omega
    simp only [Atom.code, Atom.ofCode, h1, h2]
  | .age p => by
    have h1 : (5 * p + 3) % 5 = 3 := by omega
    have h2 : (5 * p + 3) / 5 = p := by omega
    simp only [Atom.code, Atom.ofCode, h1, h2]
  | .block p => by
    have h1 : (5 * p + 4) % 5 = 4 := by omega
    have h2 : (5 * p + 4) / 5 = p := by omega
    simp only [Atom.code, Atom.ofCode, h1, h2]

end Ctre.Ucd
