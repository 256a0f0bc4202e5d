import Verif.Spec.Literal
import Verif.Lemmas.Caseless
import Verif.Lemmas.ParseBody
import Verif.Model.Wrapper

/-
Patterns without special characters.
-/
namespace Ctre

theorem matchCharacter_iff {ci : Bool} {v : Int} {c : Nat} (hv : IsCh v) (hc : c < 2147483648) :
    matchCharacter ci v c = true ↔ if ci then lowerCase v = lowerCase c else v = (c : Int) := by
  cases ci with
  | false => simp [matchCharacter, eqConst_iff hv hc]
  | true =>
    simp only [matchCharacter, Bool.or_eq_true, Bool.and_eq_true, and_true, eqConst_iff hv hc, if_true]
    cases hl : isLower c with
    | true =>
      have : isAlpha c = true := by simp [isAlpha, hl]
      rw [this, xor_lower hl, eqConst_iff hv (by omega)]
      simp only [isLower, Bool.and_eq_true, decide_eq_true_eq] at hl
      simp only [true_and]
      unfold lowerCase
      split <;> split <;> omega
    | false =>
      cases hu : isUpper c with
      | true =>
        have : isAlpha c = true := by simp [isAlpha, hu]
        simp only [isUpper, Bool.and_eq_true, decide_eq_true_eq] at hu
        rw [this, xor_upper (by simp [isUpper, hu]), eqConst_iff hv (by omega)]
        simp only [true_and]
        unfold lowerCase
        split <;> split <;> omega
      | false =>
        have : isAlpha c = false := by simp [isAlpha, hu, hl]
        simp only [this, Bool.false_eq_true, false_and, false_or]
        simp only [isUpper, isLower, Bool.and_eq_false_iff, decide_eq_false_iff_not] at hu hl
        unfold lowerCase
        split <;> split <;> omega

theorem isText_nil {ci : Bool} {t : List Ch} : IsText ci [] t ↔ t = [] := by
  cases ci <;> simp [IsText, SameLetters]

theorem isText_cons {ci : Bool} {c : Nat} {p : List Nat} {t : List Ch} (ht : ∀ v ∈ t, IsCh v) (hc : c < 2147483648) :
    IsText ci (c :: p) t ↔ ∃ v t', t = v :: t' ∧ matchCharacter ci v c = true ∧ IsText ci p t' := by
  cases t with
  | nil => cases ci <;> simp [IsText, SameLetters]
  | cons v t =>
    simp only [List.cons.injEq, exists_and_left, exists_eq_left', and_assoc, matchCharacter_iff (ht v (by simp)) hc]
    cases ci <;> simp [IsText, SameLetters]

theorem matchString_eq {ci : Bool} {s : List Ch} (hs : ∀ v ∈ s, IsCh v) : ∀ {p : List Nat} {cur : Nat}, (∀ c ∈ p, c < 2147483648) →
    cur ≤ s.length →
    (OccursAt ci p s cur ∧ matchString ci s p cur = .yes (cur + p.length)) ∨
      (¬ OccursAt ci p s cur ∧ matchString ci s p cur = .no)
  | [], cur, _, _ => .inl ⟨by simp [OccursAt, isText_nil], by simp [matchString]⟩
  | c :: p, cur, hp, hcur => by
    unfold OccursAt
    rw [isText_cons (fun v hv => hs v (List.mem_of_mem_drop (List.mem_of_mem_take hv))) (hp c (by simp))]
    simp only [matchString, List.length_cons]
    by_cases h : cur = s.length
    · right
      rw [if_pos h]
      refine ⟨?_, rfl⟩
      rintro ⟨v, t', h1, _⟩
      rw [h] at h1
      simp at h1
    · have hlt : cur < s.length := by omega
      rw [if_neg h, List.getElem?_eq_getElem hlt, List.drop_eq_getElem_cons hlt, List.take_succ_cons]
      simp only [List.cons.injEq]
      by_cases hm : matchCharacter ci s[cur] c = true
      · rw [if_pos hm]
        rcases matchString_eq hs (p := p) (cur := cur + 1) (fun c hc => hp c (List.mem_cons_of_mem _ hc)) (by omega) with
          ⟨h1, h2⟩ | ⟨h1, h2⟩
        · left
          exact ⟨⟨_, _, ⟨rfl, rfl⟩, hm, h1⟩, by rw [h2]; congr 1; omega⟩
        · right
          refine ⟨?_, h2⟩
          rintro ⟨v, t', ⟨rfl, rfl⟩, _, h3⟩
          exact h1 h3
      · right
        rw [if_neg hm]
        refine ⟨?_, rfl⟩
        rintro ⟨v, t', ⟨rfl, rfl⟩, h3, _⟩
        exact hm h3

/-- The tree of a literal. -/
def litTree : List Nat → Re
  | [] => .empty
  | [c] => .cc (.chr c)
  | p => .str p

theorem litTree_captures (p : List Nat) : initCaps (litTree p) = {} := by
  unfold litTree; split <;> rfl

theorem eval_lit {C : Cfg} {n : Nat} {s : List Ch} (hs : ∀ v ∈ s, IsCh v) {p : List Nat} (hp : ∀ c ∈ p, c < 2147483648)
    {cur : Nat} (hcur : cur ≤ s.length) {f : Flags} {c : Caps} {t : Stack} :
    (OccursAt f.ci p s cur ∧ ∃ f', f'.ci = f.ci ∧ eval C (n + 1) s false cur f c (.re (litTree p) :: t) =
      eval C n s false (cur + p.length) f' c t) ∨
    (¬ OccursAt f.ci p s cur ∧ eval C (n + 1) s false cur f c (.re (litTree p) :: t) = .fail) := by
  have h := matchString_eq (ci := f.ci) hs hp hcur
  unfold litTree
  split
  · left
    exact ⟨by simp [OccursAt, isText_nil], f, rfl, eval_empty ..⟩
  · rename_i x
    rw [eval_cc]
    simp only [matchString] at h
    by_cases h1 : cur = s.length
    · simp only [if_pos h1] at h ⊢
      simp only [reduceCtorEq, and_false, false_or, and_true] at h
      exact .inr ⟨h, trivial⟩
    · have hlt : cur < s.length := by omega
      simp only [if_neg h1, List.getElem?_eq_getElem hlt] at h ⊢
      by_cases hm : matchCharacter f.ci s[cur] x = true
      · rw [if_pos hm] at h
        rw [if_pos (show (CC.chr x).matchChar C.uni f.ci s[cur] = true from hm)]
        simp only [reduceCtorEq, and_false, or_false] at h
        exact .inl ⟨h.1, f.consumed true, rfl, rfl⟩
      · rw [if_neg hm] at h
        rw [if_neg (show ¬ (CC.chr x).matchChar C.uni f.ci s[cur] = true from hm)]
        simp only [reduceCtorEq, and_false, false_or, and_true] at h
        exact .inr ⟨h, rfl⟩
  · rw [eval_str]
    rcases h with ⟨h1, h2⟩ | ⟨h1, h2⟩
    · rw [h2]; exact .inl ⟨h1, _, by unfold Flags.consumed; split <;> rfl, rfl⟩
    · rw [h2]; exact .inr ⟨h1, rfl⟩

theorem attempt_lit (C : Cfg) {n : Nat} {s : List Ch} (hs : ∀ v ∈ s, IsCh v) {p : List Nat} (hp : ∀ c ∈ p, c < 2147483648)
    {cur : Nat} (hcur : cur ≤ s.length) (f : Flags) :
    (OccursAt f.ci p s cur ∧ attempt C (n + 4) s f (litTree p) cur = .ok { whole := ⟨some cur, some (cur + p.length), true⟩ }) ∨
    (¬ OccursAt f.ci p s cur ∧ attempt C (n + 4) s f (litTree p) cur = .fail) := by
  unfold attempt
  rw [eval_startMark, litTree_captures]
  simp only [Bool.false_eq_true, if_false]
  rcases eval_lit (C := C) (n := n + 2) hs hp hcur (f := f) (c := ({} : Caps).setStart cur) (t := [.endMark, .accept]) with
    ⟨h1, f', _, h2⟩ | ⟨h1, h2⟩
  · left
    refine ⟨h1, ?_⟩
    rw [h2, eval_endMark, eval_accept]
    rfl
  · exact .inr ⟨h1, h2⟩

theorem occursAt_length {ci : Bool} {p : List Nat} {s : List Ch} {i : Nat} (h : OccursAt ci p s i) (hi : i ≤ s.length) :
    i + p.length ≤ s.length := by
  have : ((s.drop i).take p.length).length = p.length := by
    unfold OccursAt IsText at h
    split at h
    · have := congrArg List.length (show List.map lowerCase _ = List.map lowerCase _ from h)
      simpa using this
    · have := congrArg List.length h
      simpa using this
  simp only [List.length_take, List.length_drop] at this
  omega

theorem attemptFull_lit (C : Cfg) {n : Nat} {s : List Ch} (hs : ∀ v ∈ s, IsCh v) {p : List Nat} (hp : ∀ c ∈ p, c < 2147483648)
    (f : Flags) :
    (IsText f.ci p s ∧ attemptFull C (n + 5) s f (litTree p) 0 = .ok { whole := ⟨some 0, some s.length, true⟩ }) ∨
    (¬ IsText f.ci p s ∧ attemptFull C (n + 5) s f (litTree p) 0 = .fail) := by
  unfold attemptFull
  rw [eval_startMark, litTree_captures]
  simp only [Bool.false_eq_true, if_false]
  have hlen : IsText f.ci p s → p.length = s.length := by
    intro h
    unfold IsText at h
    split at h
    · have := congrArg List.length (show List.map lowerCase _ = List.map lowerCase _ from h)
      simpa using this.symm
    · have := congrArg List.length h
      simpa using this.symm
  rcases eval_lit (C := C) (n := n + 3) hs hp (cur := 0) (by omega) (f := f) (c := ({} : Caps).setStart 0)
      (t := [.re .sEnd, .endMark, .accept]) with ⟨h1, f', _, h2⟩ | ⟨h1, h2⟩
  · rw [h2, eval_test (h := rfl)]
    simp only [testAt]
    by_cases h3 : 0 + p.length = s.length
    · left
      refine ⟨?_, ?_⟩
      · have : (s.drop 0).take p.length = s := by rw [List.drop_zero, List.take_of_length_le (by omega)]
        unfold OccursAt at h1
        rw [this] at h1
        exact h1
      · rw [if_pos h3.symm, eval_endMark, eval_accept]
        simp [Caps.setMatched, Caps.setStart, Caps.setEnd, ← h3]
    · right
      refine ⟨fun h => h3 (by rw [hlen h, Nat.zero_add]), ?_⟩
      rw [if_neg (fun h => h3 h.symm)]
  · right
    refine ⟨fun h => h1 ?_, h2⟩
    unfold OccursAt
    rw [hlen h]
    simpa using h

/-! ### Parsing -/
namespace Parse
open Surface

/-- The syntax tree of a literal. -/
def litCat : Nat → List Nat → Cat
  | v, [] => .one (.ch (.plain v)) .none
  | v, w :: ws => .cons (.ch (.plain v)) .none (litCat w ws)

def litBody : List Nat → Body
  | [] => .alt .empty
  | v :: vs => .alt (.one (litCat v vs))

theorem litCat_print : ∀ (v : Nat) (vs : List Nat), (litCat v vs).print = v :: vs
  | v, [] => rfl
  | v, w :: ws => by
    simp only [litCat, Cat.print, litCat_print w ws]; rfl

theorem litCat_wf {find : List Nat → Option (List Nat) → Option Nat} : ∀ (k v : Nat) (vs : List Nat), v ∉ special →
    (∀ w ∈ vs, w ∉ special) → (litCat v vs).WF find k
  | k, v, [], h, _ => by simp [litCat, Cat.WF, Atom.WF, Char1.WF, h, Quant.WF]
  | k, v, w :: ws, h, hw => by
    refine ⟨h, trivial, by simp, ?_⟩
    exact litCat_wf _ w ws (hw w (by simp)) (fun x hx => hw x (List.mem_cons_of_mem _ hx))

theorem litCat_tree : ∀ (v : Nat) (vs : List Nat), catTree (litCat v vs) = litTree (v :: vs)
  | v, [] => rfl
  | v, [w] => rfl
  | v, w :: x :: ws => by
    simp only [litCat, catTree, quantTree, atomTree]
    have := litCat_tree w (x :: ws)
    simp only [litCat, catTree, quantTree, atomTree] at this
    rw [this]
    rfl

theorem build_lit (P : PropTable) {p : List Nat} (hp : ∀ v ∈ p, v ∉ special) : build P p = .pattern (litTree p) := by
  cases p with
  | nil =>
    have := build_print (P := P) (b := .alt .empty) (by simp [Body.WF, Alt.WF])
    simpa [Body.print, Alt.print, bodyTree, altTree, litTree] using this
  | cons v vs =>
    have := build_print (P := P) (b := litBody (v :: vs)) (by
      simp only [litBody, Body.WF, Alt.WF]
      exact litCat_wf _ v vs (hp v (by simp)) (fun w hw => hp w (List.mem_cons_of_mem _ hw)))
    simpa only [litBody, Body.print, Alt.print, litCat_print, bodyTree, altTree, litCat_tree] using this

end Parse
end Ctre
