import Verif.Spec.OneCase
import Verif.Spec.Language
import Verif.Lemmas.Caseless
/-
Characters and stacks of patterns written in one case.
-/
namespace Ctre

theorem matchCharacter_nonletter {v : Ch} (h : ¬ IsLetter v) (ci : Bool) (c : Nat) : matchCharacter ci v c = matchCharacter false v c := by
  have : (isAlpha c && ci && eqConst v (Nat.xor c 0x20)) = false := by
    rw [Bool.eq_false_iff]
    intro h1
    simp only [Bool.and_eq_true] at h1
    obtain ⟨⟨h1, _⟩, h2⟩ := h1
    simp only [isAlpha, Bool.or_eq_true] at h1
    refine h ?_
    rcases h1 with h1 | h1
    · rw [xor_lower h1] at h2
      simp only [isLower, Bool.and_eq_true, decide_eq_true_eq] at h1
      rw [eqConst_small (by omega)] at h2
      subst h2
      exact .inl ⟨by omega, by omega⟩
    · rw [xor_upper h1] at h2
      simp only [isUpper, Bool.and_eq_true, decide_eq_true_eq] at h1
      rw [eqConst_small (by omega)] at h2
      subst h2
      exact .inr ⟨by omega, by omega⟩
  simp only [matchCharacter, this, Bool.and_false, Bool.false_and]

theorem matchRange_nonletter {v : Ch} (h : ¬ IsLetter v) (ci : Bool) (a b : Nat) : matchRange ci v a b = matchRange false v a b := by
  have : (((isLower a && isLower b) || (isUpper a && isUpper b)) && ci && geConst v (Nat.xor a 0x20) && leConst v (Nat.xor b 0x20)) = false := by
    rw [Bool.eq_false_iff]
    intro h1
    simp only [Bool.and_eq_true, Bool.or_eq_true] at h1
    obtain ⟨⟨⟨hab, _⟩, h1⟩, h2⟩ := h1
    refine h ?_
    rcases hab with hab | hab
    · rw [xor_lower hab.1] at h1
      rw [xor_lower hab.2] at h2
      simp only [isLower, Bool.and_eq_true, decide_eq_true_eq] at hab
      rw [geConst_small (by omega)] at h1
      rw [leConst_small (by omega)] at h2
      exact .inl ⟨by omega, by omega⟩
    · rw [xor_upper hab.1] at h1
      rw [xor_upper hab.2] at h2
      simp only [isUpper, Bool.and_eq_true, decide_eq_true_eq] at hab
      rw [geConst_small (by omega)] at h1
      rw [leConst_small (by omega)] at h2
      exact .inr ⟨by omega, by omega⟩
  simp only [matchRange, this, Bool.and_false, Bool.false_and]

mutual
/-- For other characters than ASCII letters it makes no difference whether case is ignored. -/
theorem matchChar_nonletter {U : Uni} {v : Ch} (h : ¬ IsLetter v) (ci : Bool) : ∀ c : CC, c.matchChar U ci v = c.matchChar U false v
  | .chr c => by simp only [CC.matchChar]; exact matchCharacter_nonletter h ci c
  | .range a b => by simp only [CC.matchChar]; exact matchRange_nonletter h ci a b
  | .enum cs => by
    simp only [CC.matchChar]
    congr 1
    funext c
    exact matchCharacter_nonletter h ci c
  | .set l | .negSet l | .negate l => by simp only [CC.matchChar, matchAny_nonletter h ci l]
  | .prop p => rfl

theorem matchAny_nonletter {U : Uni} {v : Ch} (h : ¬ IsLetter v) (ci : Bool) : ∀ l : List CC, CC.matchAny U ci v l = CC.matchAny U false v l
  | [] => rfl
  | c :: l => by simp only [CC.matchAny, matchChar_nonletter h ci c, matchAny_nonletter h ci l]
end

mutual
/-- Only the properties of the character itself matter. -/
theorem matchChar_props {U U' : Uni} {v : Ch} (h : ∀ p, U p (toU32 v) = U' p (toU32 v)) (ci : Bool) : ∀ c : CC,
    c.matchChar U ci v = c.matchChar U' ci v
  | .chr _ | .range _ _ | .enum _ => rfl
  | .set l | .negSet l | .negate l => by simp only [CC.matchChar, matchAny_props h ci l]
  | .prop p => h p

theorem matchAny_props {U U' : Uni} {v : Ch} (h : ∀ p, U p (toU32 v) = U' p (toU32 v)) (ci : Bool) : ∀ l : List CC,
    CC.matchAny U ci v l = CC.matchAny U' ci v l
  | [] => rfl
  | c :: l => by simp only [CC.matchAny, matchChar_props h ci c, matchAny_props h ci l]
end

/-- The properties of `v`, ascribed to every character. -/
def propsOf (U : Uni) (v : Ch) : Uni := fun p _ => U p (toU32 v)

theorem caseForm_other {up : Bool} {v : Ch} (h : ¬ IsLetter v) : caseForm up v = v := by
  unfold IsLetter at h
  unfold caseForm
  split <;> split <;> first | rfl | omega

theorem caseForm_isCh {up : Bool} {v : Ch} (h : IsCh v) : IsCh (caseForm up v) := by
  have h1 : (-2147483648 : Int) ≤ v := h.1
  have h2 : @LT.lt Int _ v 4294967296 := h.2
  show (-2147483648 : Int) ≤ caseForm up v ∧ caseForm up v < (4294967296 : Int)
  unfold caseForm
  split <;> split <;> omega

theorem CC.Folds.sound {up : Bool} {c : CC} (hc : c.Folds up) {U : Uni} {v : Ch} (h : c.matchChar U true v = true) :
    c.matchChar (propsOf U v) false (caseForm up v) = true := by
  rw [matchChar_props (U := U) (U' := propsOf U v) (v := v) (fun _ => rfl)] at h
  by_cases hl : IsLetter v
  · exact hc _ v hl h
  · rw [matchChar_nonletter hl] at h
    rw [caseForm_other hl]
    exact h

/-! ### Stacks -/

/-- The character that is looked for among the first characters. -/
def foldTo (up ci : Bool) (v : Ch) : Ch := if ci = true then caseForm up v else v

theorem foldTo_isCh {up ci : Bool} {v : Ch} (h : IsCh v) : IsCh (foldTo up ci v) := by
  unfold foldTo
  split
  · exact caseForm_isCh h
  · exact h

/-- The leaves of a stack. -/
def leavesSt : Stack → List Re
  | [] => []
  | .re r :: t => r.leaves ++ leavesSt t
  | _ :: t => leavesSt t

/-- Case is never ignored, or all classes are written in the case `up`. -/
def OneCase (up ci : Bool) (l : List Re) : Prop :=
  (ci = false ∧ Re.mode .caseInsensitive ∉ l) ∨ ∀ c, Re.cc c ∈ l → c.Folds up

theorem Re.CaseSafe.oneCase {ci : Bool} {r : Re} (h : r.CaseSafe ci) : ∃ up, OneCase up ci r.leaves := by
  rcases h with h | ⟨up, h⟩
  · exact ⟨false, .inl h⟩
  · exact ⟨up, .inr h⟩

theorem OneCase.mono {up ci : Bool} {l m : List Re} (h : OneCase up ci l) (hm : ∀ x ∈ m, x ∈ l) : OneCase up ci m :=
  h.imp (fun h => ⟨h.1, fun h' => h.2 (hm _ h')⟩) fun h c hc => h c (hm _ hc)

theorem OneCase.sound {up ci : Bool} {l : List Re} (h : OneCase up ci l) {c : CC} (hc : Re.cc c ∈ l) {U : Uni} {v : Ch}
    (hm : c.matchChar U ci v = true) : c.matchChar (propsOf U v) false (foldTo up ci v) = true := by
  cases ci with
  | true =>
    rcases h with ⟨h, _⟩ | h
    · cases h
    · exact (h c hc).sound hm
  | false =>
    rw [matchChar_props (U := U) (U' := propsOf U v) (v := v) (fun _ => rfl)] at hm
    exact hm

theorem OneCase.add {up : Bool} {f : Flags} {m : Mode} {l : List Re} (h : OneCase up f.ci (.mode m :: l)) : OneCase up (f.add m).ci l := by
  rcases h with ⟨h1, h2⟩ | h
  · have h3 : Re.mode .caseInsensitive ∉ l := fun h => h2 (List.mem_cons_of_mem _ h)
    cases m with
    | caseInsensitive => exact (h2 (by simp)).elim
    | _ => exact .inl ⟨by first | exact h1 | rfl, h3⟩
  · exact .inr fun c hc => h c (List.mem_cons_of_mem _ hc)

theorem leavesSt_items (m : List Re) (t : Stack) : leavesSt (items m t) = leavesAll m ++ leavesSt t := by
  induction m with
  | nil => rfl
  | cons r m ih =>
    simp only [items, List.map_cons, List.cons_append, leavesSt, leavesAll, List.append_assoc] at ih ⊢
    rw [ih]

mutual
/-- Patterns of the syntax of regular languages do not change modes. -/
theorem Re.regular.no_mode {m : Mode} : ∀ (r : Re), r.regular = true → Re.mode m ∉ r.leaves
  | .cc _, _ | .any, _ | .empty, _ | .reject _, _ => by simp [Re.leaves]
  | .str _, _ => by simp [Re.leaves]
  | .sel l, h => by
    simp only [Re.regular, Bool.and_eq_true] at h
    exact regularList_no_mode l h.2
  | .seq l, h | .rep _ _ _ l, h | .cap _ _ l, h | .atomic l, h => by
    simp only [Re.regular] at h
    exact regularList_no_mode l h

theorem regularList_no_mode {m : Mode} : ∀ (l : List Re), regularList l = true → Re.mode m ∉ leavesAll l
  | [], _ => by simp [leavesAll]
  | r :: l, h => by
    simp only [regularList, Bool.and_eq_true] at h
    simp only [leavesAll, List.mem_append, not_or]
    exact ⟨Re.regular.no_mode r h.1, regularList_no_mode l h.2⟩
end

theorem Re.regular.caseSafe {r : Re} (h : r.regular = true) : r.CaseSafe false := .inl ⟨rfl, Re.regular.no_mode r h⟩

end Ctre
