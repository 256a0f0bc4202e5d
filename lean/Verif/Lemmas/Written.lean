import Verif.Spec.Written
import Verif.Spec.TextLanguage
import Verif.Lemmas.OneCase
import Verif.Lemmas.Indifferent
/-
From the text of a pattern that is written in one case to its tree.
-/
namespace Ctre
open Parse Surface

theorem isLetter_code {v : Int} (h : IsLetter v) : ∃ k ∈ letterCodes, v = (k : Int) := by
  refine ⟨v.toNat, ?_, ?_⟩
  · simp only [letterCodes, List.mem_flatMap, List.mem_range, List.mem_cons, List.not_mem_nil, or_false]
    rcases h with h | h
    · exact ⟨v.toNat - 65, by omega, .inl (by omega)⟩
    · exact ⟨v.toNat - 97, by omega, .inr (by omega)⟩
  · rcases h with h | h <;> omega

/-- A class without properties folds if its letters do. -/
theorem CC.Folds.of_check {up : Bool} {c : CC} (hp : ∀ (U U' : Uni) (ci : Bool) (v : Ch), c.matchChar U ci v = c.matchChar U' ci v)
    (h : ∀ k ∈ letterCodes, c.matchChar (fun _ _ => false) true (k : Int) = true →
      c.matchChar (fun _ _ => false) false (caseForm up (k : Int)) = true) : c.Folds up := by
  intro P v hv hm
  obtain ⟨k, hk, rfl⟩ := isLetter_code hv
  rw [hp _ (fun _ _ => false)] at hm ⊢
  exact h k hk hm

theorem prop_folds (up : Bool) (p : Nat) : (CC.prop p).Folds up := fun _ _ _ h => h

theorem notProp_folds (up : Bool) (p : Nat) : (CC.negate [.prop p]).Folds up := fun _ _ _ h => h

theorem letterSet_folds (up : Bool) (l : Nat) : (CC.set [letterClass l]).Folds up ∧ (CC.negSet [letterClass l]).Folds up := by
  unfold letterClass
  repeat' split
  all_goals
    refine ⟨CC.Folds.of_check (fun _ _ _ _ => rfl) ?_, CC.Folds.of_check (fun _ _ _ _ => rfl) ?_⟩ <;> cases up <;> decide +kernel

theorem cls_folds (up : Bool) (c : Cls) : (clsTree c).Folds up := by
  cases c with
  | letter l =>
    simp only [clsTree]
    split
    · exact (letterSet_folds up l).1
    · exact (letterSet_folds up l).2
  | prop neg p n v =>
    simp only [clsTree]
    split
    · exact notProp_folds up p
    · exact prop_folds up p

theorem matchCharacter_folds {up : Bool} {c : Nat} (h : (if up = true then isLower c else isUpper c) = false) {v : Int} (hv : IsLetter v)
    (hm : matchCharacter true v c = true) : matchCharacter false (caseForm up v) c = true := by
  have hv' : 65 ≤ v ∧ v ≤ 122 := by rcases hv with h | h <;> omega
  have hsmall : ∀ d : Nat, eqConst v d = true → v = (d : Int) := by
    intro d hd
    by_cases h1 : d ≤ 127
    · exact (eqConst_small h1).1 hd
    · simp only [eqConst, if_neg h1, beq_iff_eq] at hd
      have hu : toU32 v = (v % 4294967296).toNat := rfl
      omega
  simp only [matchCharacter, Bool.and_true, Bool.or_eq_true, Bool.and_eq_true, Bool.and_false, Bool.false_and,
    Bool.false_or] at hm ⊢
  rcases hm with ⟨ha, hm⟩ | hm
  · simp only [isAlpha, Bool.or_eq_true] at ha
    rcases ha with ha | ha
    · rw [xor_lower ha] at hm
      have hm := hsmall _ hm
      cases up with
      | true => simp only [if_true] at h; rw [h] at ha; cases ha
      | false =>
        simp only [isLower, Bool.and_eq_true, decide_eq_true_eq] at ha
        rw [eqConst_small (by omega)]
        simp only [caseForm, Bool.false_eq_true, if_false]
        split <;> omega
    · rw [xor_upper ha] at hm
      have hm := hsmall _ hm
      cases up with
      | false => simp only [Bool.false_eq_true, if_false] at h; rw [h] at ha; cases ha
      | true =>
        simp only [isUpper, Bool.and_eq_true, decide_eq_true_eq] at ha
        rw [eqConst_small (by omega)]
        simp only [caseForm, if_true]
        split <;> omega
  · have hm := hsmall _ hm
    rw [eqConst_small (by omega)]
    cases up with
    | true =>
      simp only [if_true, isLower, Bool.and_eq_false_iff, decide_eq_false_iff_not] at h
      simp only [caseForm, if_true]
      split <;> omega
    | false =>
      simp only [Bool.false_eq_true, if_false, isUpper, Bool.and_eq_false_iff, decide_eq_false_iff_not] at h
      simp only [caseForm, Bool.false_eq_true, if_false]
      split <;> omega

theorem chr_folds {up : Bool} {c : Nat} (h : (if up = true then isLower c else isUpper c) = false) : (CC.chr c).Folds up :=
  fun _ _ hv hm => matchCharacter_folds h hv hm

/-- The properties that the letter has, as far as the set names them. -/
def SetItem.owns (P : Nat → Bool) : SetItem → Bool
  | .cls (.prop false p _ _) => P p
  | _ => false

theorem item_props {P : Nat → Bool} {ci : Bool} {v : Ch} {i : SetItem} (h : i.negProp = false) :
    i.has (fun p _ => P p) ci v ↔ i.has (fun _ _ => false) ci v ∨ SetItem.owns P i = true := by
  cases i with
  | one c | range a b => simp [SetItem.has, SetItem.owns, CC.matchChar]
  | posix neg n =>
    simp only [SetItem.has, SetItem.owns, Bool.false_eq_true, or_false]
    rw [show n.cls.matchChar (fun p _ => P p) ci v = n.cls.matchChar (fun _ _ => false) ci v by cases n <;> rfl]
  | cls c =>
    cases c with
    | letter l =>
      simp only [SetItem.has, Cls.has, SetItem.owns, Bool.false_eq_true, or_false]
      rw [show (letterClass l).matchChar (fun p _ => P p) ci v = (letterClass l).matchChar (fun _ _ => false) ci v by
        unfold letterClass; repeat' split
        all_goals rfl]
    | prop neg p n w =>
      cases neg with
      | true => cases h
      | false => simp [SetItem.has, Cls.has, SetItem.owns]

theorem set_folds {up neg : Bool} {l : List SetItem} (hf : ∀ i ∈ l, i.Faithful) (h : setWritten up neg l = true) :
    (setTree neg l).Folds up := by
  simp only [setWritten, Bool.and_eq_true, List.all_eq_true, Bool.or_eq_true, Bool.not_eq_true'] at h
  obtain ⟨h, hn⟩ := h
  intro P v hv hm
  obtain ⟨k, hk, rfl⟩ := isLetter_code hv
  rw [setTree_match hf] at hm ⊢
  have key : ∀ (ci : Bool) (v : Int), (∃ i ∈ l, i.has (fun p _ => P p) ci v) ↔
      (l.any fun i => decide (i.has (fun _ _ => false) ci v)) = true ∨ l.any (SetItem.owns P) = true := by
    intro ci v
    simp only [List.any_eq_true, decide_eq_true_eq]
    constructor
    · rintro ⟨i, hi, h1⟩
      exact ((item_props (hn i hi)).1 h1).imp (fun h => ⟨i, hi, h⟩) fun h => ⟨i, hi, h⟩
    · rintro (⟨i, hi, h1⟩ | ⟨i, hi, h1⟩)
      · exact ⟨i, hi, (item_props (hn i hi)).2 (.inl h1)⟩
      · exact ⟨i, hi, (item_props (hn i hi)).2 (.inr h1)⟩
  rw [key] at hm ⊢
  have := h k hk
  simp only [setLists] at this
  revert this hm
  generalize (l.any fun i => decide (i.has (fun _ _ => false) true (k : Int))) = a
  generalize (l.any fun i => decide (i.has (fun _ _ => false) false (caseForm up (k : Int)))) = b
  generalize l.any (SetItem.owns P) = c
  cases a <;> cases b <;> cases c <;> cases neg <;> simp

/-- What is asked of the leaves: classes fold (if `x`), case is not switched off (if `y`). -/
def Leaf (up x y : Bool) : Re → Prop
  | .cc c => x = true → c.Folds up
  | .mode .caseInsensitive => y = false
  | _ => True

mutual
theorem atom_written {up x y : Bool} : ∀ (a : Atom), a.Faithful → (x = true → a.written up = true) → (y = true → a.ignores = false) →
    ∀ z ∈ (atomTree a).leaves, Leaf up x y z
  | .ch c, hf, hx, _ => by
    simp only [atomTree, Re.leaves, List.mem_singleton, forall_eq, Leaf]
    intro h
    have := hx h
    simp only [Atom.written, Bool.not_eq_true'] at this
    exact chr_folds (by rw [charTree_eq hf]; exact this)
  | .cls c, _, _, _ => by
    simp only [atomTree, Re.leaves, List.mem_singleton, forall_eq, Leaf]
    exact fun _ => cls_folds up c
  | .set neg l, hf, hx, _ => by
    simp only [atomTree, Re.leaves, List.mem_singleton, forall_eq, Leaf]
    exact fun h => set_folds hf (hx h)
  | .mode m, _, _, hy => by
    simp only [atomTree, Re.leaves, List.mem_singleton, forall_eq]
    cases m with
    | caseInsensitive =>
      simp only [Leaf]
      cases y with
      | false => rfl
      | true => cases hy rfl
    | _ => trivial
  | .dot, _, _, _ | .bol, _, _, _ | .eol, _, _, _ | .subjectEndLine, _, _, _ | .wordBoundary, _, _, _ | .notWordBoundary, _, _, _
  | .unknown _ _, _, _, _ | .subjectBegin, _, _, _ | .subjectEnd, _, _, _ | .ref _, _, _, _ | .refNumber _, _, _, _ | .refRelative _ _, _, _, _
  | .refName _, _, _, _ => by
    simp [atomTree, Re.leaves, Leaf]
  | .cap _ b, hf, hx, hy | .named _ _ b, hf, hx, hy | .ahead _ b, hf, hx, hy | .atomic b, hf, hx, hy => by
    simp only [atomTree, Re.leaves, leaves_unpack]
    exact body_written b hf hx hy
  | .behind _ b, hf, hx, hy => by
    simp only [atomTree, Re.leaves]
    exact fun z hz => body_written b hf.1 hx hy z (leaves_rotated _ z hz)
  | .group b, hf, hx, hy => by
    simp only [atomTree]
    exact body_written b hf hx hy

theorem cat_written {up x y : Bool} : ∀ (c : Cat), c.Faithful → (x = true → c.written up = true) → (y = true → c.ignores = false) →
    ∀ z ∈ (catTree c).leaves, Leaf up x y z
  | .one a q, hf, hx, hy => by
    simp only [catTree]
    exact fun z hz => atom_written a hf.1 hx hy z (leaves_quant z hz)
  | .cons a q l, hf, hx, hy => by
    simp only [Cat.written, Cat.ignores, Bool.and_eq_true, Bool.or_eq_false_iff] at hx hy
    simp only [catTree]
    intro z hz
    rcases leaves_sequence z hz with h | h
    · exact atom_written a hf.1 (fun e => (hx e).1) (fun e => (hy e).1) z (leaves_quant z h)
    · exact cat_written l hf.2.2.1 (fun e => (hx e).2) (fun e => (hy e).2) z h

theorem alt_written {up x y : Bool} : ∀ (l : Alt), l.Faithful → (x = true → l.written up = true) → (y = true → l.ignores = false) →
    ∀ z ∈ (altTree l).leaves, Leaf up x y z
  | .empty, _, _, _ => by simp [altTree, Re.leaves]
  | .one c, hf, hx, hy => by simp only [altTree]; exact cat_written c hf hx hy
  | .bar c l, hf, hx, hy => by
    simp only [Alt.written, Alt.ignores, Bool.and_eq_true, Bool.or_eq_false_iff] at hx hy
    simp only [altTree]
    intro z hz
    rcases leaves_alternate z hz with h | h
    · exact cat_written c hf.1 (fun e => (hx e).1) (fun e => (hy e).1) z h
    · exact alt_written l hf.2 (fun e => (hx e).2) (fun e => (hy e).2) z h

theorem body_written {up x y : Bool} : ∀ (b : Body), b.Faithful → (x = true → b.written up = true) → (y = true → b.ignores = false) →
    ∀ z ∈ (bodyTree b).leaves, Leaf up x y z
  | .alt l, hf, hx, hy => by simp only [bodyTree]; exact alt_written l hf hx hy
  | .lead l, hf, hx, hy => by
    simp only [bodyTree]
    intro z hz
    rcases leaves_alternate z hz with h | h
    · simp [Re.leaves] at h
    · exact alt_written l hf hx hy z h
end

/-- The condition on the text gives the condition on the tree. -/
theorem body_caseSafe {ci : Bool} {b : Body} (hf : b.Faithful) (h : b.caseSafe ci = true) : (bodyTree b).CaseSafe ci := by
  simp only [Body.caseSafe, Bool.or_eq_true, Bool.and_eq_true, Bool.not_eq_true'] at h
  have key : ∀ up, b.written up = true → (bodyTree b).CaseSafe ci := fun up h =>
    .inr ⟨up, fun c hc => body_written (up := up) (x := true) (y := false) b hf (fun _ => h) (fun e => by cases e) _ hc rfl⟩
  rcases h with (⟨h1, h2⟩ | h) | h
  · refine .inl ⟨h1, fun hm => ?_⟩
    have := body_written (up := false) (x := false) (y := true) b hf (fun e => by cases e) (fun _ => h2) _ hm
    cases this
  · exact key false h
  · exact key true h

mutual
/-- In the syntax of regular languages `(?i)` does not occur. -/
theorem atom_ignores : ∀ (a : Atom), a.regular = true → a.ignores = false
  | .ch _, _ | .cls _, _ | .set _ _, _ | .dot, _ | .unknown _ _, _ => rfl
  | .cap _ b, h | .named _ _ b, h | .group b, h => by
    simp only [Atom.regular] at h
    simp only [Atom.ignores]
    exact body_ignores b h

theorem cat_ignores : ∀ (c : Cat), c.regular = true → c.ignores = false
  | .one a _, h => atom_ignores a h
  | .cons a _ l, h => by
    simp only [Cat.regular, Bool.and_eq_true] at h
    simp only [Cat.ignores, atom_ignores a h.1, cat_ignores l h.2, Bool.or_self]

theorem alt_ignores : ∀ (l : Alt), l.regular = true → l.ignores = false
  | .empty, _ => rfl
  | .one c, h => cat_ignores c h
  | .bar c l, h => by
    simp only [Alt.regular, Bool.and_eq_true] at h
    simp only [Alt.ignores, cat_ignores c h.1, alt_ignores l h.2, Bool.or_self]

theorem body_ignores : ∀ (b : Body), b.regular = true → b.ignores = false
  | .alt l, h | .lead l, h => by
    simp only [Body.regular] at h
    simp only [Body.ignores]
    exact alt_ignores l h
end

theorem regular_caseSafe {b : Body} (h : b.regular = true) : b.caseSafe false = true := by
  simp [Body.caseSafe, body_ignores b h]

end Ctre
