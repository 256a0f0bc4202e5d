import Verif.Lemmas.Written
import Verif.Lemmas.Collides

/-
C35: character sets which the first-character analysis calls disjoint are disjoint.
-/
namespace Ctre

/-- C35: if the analysis reports no collision between two lists of character sets, no character belongs to a set of
either list.  `Has` is membership in the case-sensitive sense; `sane` excludes ranges written with the larger end
first and constants above 31 bits. -/
theorem C35_disjoint {U : Uni} {a b : List FC} (ha : ∀ x ∈ a, x.sane = true) (hb : ∀ x ∈ b, x.sane = true)
    (h : collides a b = some false) (v : Ch) (hv : IsCh v) : ¬ (Has U v a ∧ Has U v b) :=
  fun h' => collides_disjoint hv ha hb h h'.1 h'.2

/-- The other direction of the same fact: sets with a common character are reported to collide, if the analysis
gives an answer at all. -/
theorem C35_collision_found {U : Uni} {a b : List FC} (ha : ∀ x ∈ a, x.sane = true) (hb : ∀ x ∈ b, x.sane = true)
    {v : Ch} (hv : IsCh v) (h1 : Has U v a) (h2 : Has U v b) {x : Bool} (h : collides a b = some x) : x = true := by
  cases x with
  | true => rfl
  | false => exact (C35_disjoint ha hb h v hv ⟨h1, h2⟩).elim

/-- The analysis can be relied on for two single classes: whatever the first accepts, the second refuses. -/
theorem C35_classes {U : Uni} {c d : CC} (hc : c.sane = true) (hd : d.sane = true)
    (h : collides [.cc c] [.cc d] = some false) {v : Ch} (hv : IsCh v) (hm : c.matchChar U false v = true) :
    d.matchChar U false v = false := by
  cases hx : d.matchChar U false v with
  | false => rfl
  | true =>
    exact (C35_disjoint (U := U) (a := [.cc c]) (b := [.cc d]) (by simpa [FC.sane] using hc)
      (by simpa [FC.sane] using hd) h v hv ⟨⟨.cc c, by simp, hm⟩, ⟨.cc d, by simp, hx⟩⟩).elim

/-- The same with case ignored, if both classes are written in the same case. -/
theorem C35_classes_caseless {U : Uni} {c d : CC} {up : Bool} (hc : c.sane = true) (hd : d.sane = true) (hc' : c.Folds up) (hd' : d.Folds up)
    (h : collides [.cc c] [.cc d] = some false) {v : Ch} (hv : IsCh v) (hm : c.matchChar U true v = true) :
    d.matchChar U true v = false := by
  cases hx : d.matchChar U true v with
  | false => rfl
  | true =>
    have := C35_classes (U := propsOf U v) hc hd h (caseForm_isCh (up := up) hv) (hc'.sound hm)
    rw [hd'.sound hx] at this
    cases this

/-- Otherwise case-insensitive matching is not taken into account: `a` and `A` are called disjoint, and both accept `a`. -/
theorem C35_fails_caseless : collides [.cc (.chr 97)] [.cc (.chr 65)] = some false ∧
    CC.matchChar (fun _ _ => false) true 97 (.chr 97) = true ∧
    CC.matchChar (fun _ _ => false) true 97 (.chr 65) = true := by decide +kernel

/-- A range with its larger end first: `[\xE9-a]` and `[^\x00-\x{10FFFF}]` are called disjoint, and both accept a
negative `char`. -/
theorem C35_fails_inverted_range :
    collides [.cc (.range 0xE9 97)] [.cc (.negSet [.range 0 0x10FFFF])] = some false ∧
    CC.matchChar (fun _ _ => false) false (-5) (.range 0xE9 97) = true ∧
    CC.matchChar (fun _ _ => false) false (-5) (.negSet [.range 0 0x10FFFF]) = true := by decide +kernel

/-- Constants above 31 bits: `\x{FFFFFFFB}` and `[^\x00-\x{FFFFFFFE}]` are called disjoint, and both accept the
`char` -5. -/
theorem C35_fails_large_constant :
    collides [.cc (.chr 0xFFFFFFFB)] [.cc (.negSet [.range 0 0xFFFFFFFE])] = some false ∧
    CC.matchChar (fun _ _ => false) false (-5) (.chr 0xFFFFFFFB) = true ∧
    CC.matchChar (fun _ _ => false) false (-5) (.negSet [.range 0 0xFFFFFFFE]) = true := by decide +kernel

/-! ### Cases -/

-- `[a-f]` and `[g-z0-9]` are written in lower case
example : (CC.set [.range 97 102]).Folds false ∧ (CC.set [.range 103 122, .range 48 57]).Folds false ∧
    collides [.cc (.set [.range 97 102])] [.cc (.set [.range 103 122, .range 48 57])] = some false :=
  ⟨CC.Folds.of_check (fun _ _ _ _ => rfl) (by decide +kernel), CC.Folds.of_check (fun _ _ _ _ => rfl) (by decide +kernel), by decide +kernel⟩

/-- `[^5a-z]` and `[b-f5]`, `\w` and `\s`, `[b-d]` and `[^a-f]`; and pairs that do collide.  With the members of the
negated set in another order the answer may be a collision although there is none. -/
example : collides [.cc (.negSet [.chr 53, .range 97 122])] [.cc (.set [.range 98 102, .chr 53])] = some false := by
  decide +kernel
example : collides [.cc (.negSet [.range 97 122, .chr 53])] [.cc (.set [.range 98 102, .chr 53])] = some true := by
  decide +kernel
example : collides [.cc wordChars] [.cc spaceChars] = some false := by decide +kernel
example : collides [.cc (.range 98 100)] [.cc (.chr 10), .cc (.negSet [.range 97 102])] = some false := by
  decide +kernel
example : collides [.cc wordChars] [.cc (.chr 95)] = some true := by decide +kernel
example : collides [.cc wordChars] [.anything] = some true := by decide +kernel
example : collides [] [.anything] = some false := by decide +kernel
example : wordChars.sane = true ∧ spaceChars.sane = true ∧ (CC.negSet [.range 97 122, .chr 53]).sane = true := by
  decide +kernel
/-- The two classes are not empty. -/
example : CC.matchChar (fun _ _ => false) false 95 wordChars = true ∧
    CC.matchChar (fun _ _ => false) false 32 spaceChars = true := by decide +kernel

end Ctre
