import Verif.Lemmas.UniProps
import Verif.Spec.UcdScripts
import Verif.Spec.UcdScx
import Verif.Spec.UcdBlocks
/-
Scripts, script extensions, blocks and ages: which of them are those of Unicode 14.0.
-/
set_option maxRecDepth 100000
namespace Ctre.Ucd
open Unicode14

/-! ### Unassigned code points -/

theorem firstCategory_some {l : List (Table × Cat)} (h : l.all (fun x => x.1.ok && x.2 != .cn) = true) {c : Nat}
    (hc : c < 0x110000) :
    ∃ k, firstCategory l c = some k ∧ (k = .cn ↔ (anyBits (l.map (·.1))).testBit c = false) := by
  induction l with
  | nil => exact ⟨.cn, rfl, by simp [anyBits]⟩
  | cons x l ih =>
    obtain ⟨t, k⟩ := x
    simp only [List.all_cons, Bool.and_eq_true, bne_iff_ne, ne_eq] at h
    obtain ⟨⟨h1, h2⟩, h3⟩ := h
    have e : anyBits (((t, k) :: l).map (·.1)) = tableBits t ||| anyBits (l.map (·.1)) := rfl
    rw [e, Nat.testBit_or, firstCategory, bits_table h1 c hc]
    cases hb : (tableBits t).testBit c with
    | true => exact ⟨k, rfl, by simp [h2]⟩
    | false =>
      obtain ⟨k', k1, k2⟩ := ih h3
      exact ⟨k', k1, by rw [k2]; simp⟩

/-- The dashes that are not found. -/
def pdMissed : List (Nat × Nat) :=
  gcPd.flatMap fun r => ((List.range (r.2 + 1 - r.1)).map (· + r.1)).filterMap fun c =>
    if pdFound.any (fun s => Nat.ble s.1 c && Nat.ble c s.2) then none else some (c, c)

/-- `\p{Cn}` finds the unassigned code points, and the dashes that `\p{Pd}` does not find. -/
theorem is_cn : Is (cpCategoryIs .cn) (inRanges (gcCn ++ pdMissed)) := fun c hc => by
  obtain ⟨k, h1, h2⟩ := firstCategory_some (l := categoryChain) (by decide +kernel) hc
  have hp : partitions (anyBits (categoryChain.map (·.1))) [gcCn ++ pdMissed] = true := by decide +kernel
  refine ⟨k == .cn, ?_, ?_⟩
  · rw [cpCategoryIs, cpCategory, if_neg (by omega), getCategory, h1]; rfl
  · rw [beq_iff_eq, h2]
    constructor
    · intro h
      rcases partitions_cover hp hc with k | ⟨r, hr, hk⟩
      · rw [h] at k; simp at k
      · rw [List.mem_singleton] at hr; subst hr; exact hk
    · intro h
      rw [Bool.eq_false_iff]
      intro hb
      exact partitions_acc hp hb (List.mem_singleton.2 rfl) h

/-- `\p{Assigned}` finds the assigned code points without surrogates and private use ones. -/
theorem is_assigned : Is prop_assigned.lookup (fun c => ¬ inRanges (gcCn ++ gcCs ++ gcCo) c) := fun c hc => by
  have hp : partitions (trieBits prop_assigned) [gcCn ++ gcCs ++ gcCo] = true := by decide +kernel
  refine ⟨_, lookup_trie (by decide +kernel) hc, ?_⟩
  constructor
  · intro h; exact partitions_acc hp h (List.mem_singleton.2 rfl)
  · intro h
    rcases partitions_cover hp hc with k | ⟨r, hr, hk⟩
    · exact k
    · rw [List.mem_singleton] at hr; subst hr; exact (h hk).elim

/-! ### Values of step tables -/

/-- The entry of a step table. -/
def low (_ v : Nat) : Nat := Nat.land v 0xFF

theorem compactValue_some {d : List Nat} (hs : stepsOk d = true) (c dflt : Nat) :
    ∃ s, compactValue d c dflt = some s :=
  ⟨_, compactValue_eq hs c dflt⟩

theorem compactValue_iff {d : List Nat} (hs : stepsOk d = true) {c : Nat} (hc : c < 0x110000) {dflt s : Nat} (hd : s ≠ dflt) :
    compactValue d c dflt = some s ↔ inRanges (rangesOf s (segs low 0 d)) c := by
  rw [seg_iff hs low c s hc, compactValue]
  rcases beforeUpper_spec hs c with ⟨hb, _⟩ | ⟨i, hb, hi, _⟩
  · rw [hb]
    simp only [Option.some.injEq, reduceCtorEq, false_and, exists_false, iff_false]
    exact fun h => hd h.symm
  · rw [hb]
    simp only [Option.some.injEq]
    rw [rd_of_lt _ (by omega)]
    simp only [Option.map_some, Option.some.injEq]
    constructor
    · intro h; exact ⟨i, rfl, h⟩
    · rintro ⟨j, rfl, h⟩; exact h

/-- A list of rows and numbers: the code points of the row are those with the number. -/
def rowsOk (f : Nat → Nat → Nat) (d : List Nat) : List (Nat × Row) → Bool
  | [] => true
  | x :: l => decide (rangesOf x.1 (segs f 0 d) = x.2.ranges) && rowsOk f d l

theorem rowsOk_mem {f : Nat → Nat → Nat} {d : List Nat} {l : List (Nat × Row)} (h : rowsOk f d l = true)
    {x : Nat × Row} (hx : x ∈ l) : rangesOf x.1 (segs f 0 d) = x.2.ranges := by
  induction l with
  | nil => cases hx
  | cons y l ih =>
    rw [rowsOk, Bool.and_eq_true, decide_eq_true_eq] at h
    rcases List.mem_cons.1 hx with k | k
    · subst k; exact h.1
    · exact ih h.2 k

/-- The number of the first name of a row. -/
def numberOfRow (T : List (List Nat × Nat)) (r : Row) : Nat :=
  match r.names with
  | [] => 0
  | n :: _ => (fromString T n).getD 0

/-- Rows with the number of their first name. -/
def numbered (T : List (List Nat × Nat)) (l : List Row) : List (Nat × Row) := l.map fun r => (numberOfRow T r, r)

/-! ### Scripts -/

theorem script_rows : rowsOk low script_data_0 (numbered scriptsNames scripts) = true := by decide +kernel

end Ctre.Ucd
