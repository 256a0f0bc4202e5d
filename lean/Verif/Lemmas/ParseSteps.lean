import Verif.Lemmas.ParserFuel
import Verif.Spec.Surface

/-
Steps of the parser: reading numbers, escapes, sets and quantifiers in an arbitrary context.
-/
namespace Ctre.Parse
open Surface

/-- The parser gets from one configuration to another. -/
def Go (P : PropTable) (p : Option Nat) (i : List Nat) (st : List Sym) (c : Ctx)
    (p' : Option Nat) (i' : List Nat) (st' : List Sym) (c' : Ctx) : Prop :=
  ∃ k, ∀ n, decide P (n + k) p i st c = decide P n p' i' st' c'

section
variable {P : PropTable} {p p' p'' : Option Nat} {i i' i'' : List Nat} {st st' st'' : List Sym} {c c' c'' : Ctx}

theorem Go.refl : Go P p i st c p i st c := ⟨0, fun _ => rfl⟩

theorem Go.trans (h : Go P p i st c p' i' st' c') (h' : Go P p' i' st' c' p'' i'' st'' c'') :
    Go P p i st c p'' i'' st'' c'' := by
  obtain ⟨k, hk⟩ := h
  obtain ⟨m, hm⟩ := h'
  exact ⟨m + k, fun n => by rw [← Nat.add_assoc, hk, hm]⟩

theorem Go.push {x : NT} {l : List Sym} (h : rule x i.head? = .push l) :
    Go P p i (.nt x :: st) c p i (l ++ st) c := ⟨1, fun n => by
  show decide P (n + 1) _ _ _ _ = _
  cases i <;> simp only [decide] <;> rw [h]⟩

theorem Go.eps {x : NT} (h : rule x i.head? = .eps) : Go P p i (.nt x :: st) c p i st c := ⟨1, fun n => by
  show decide P (n + 1) _ _ _ _ = _
  cases i <;> simp only [decide] <;> rw [h]⟩

theorem Go.any {v : Nat} : Go P p (v :: i) (.any :: st) c (some v) i st c := ⟨1, fun _ => rfl⟩

theorem Go.term {v : Nat} : Go P p (v :: i) (.term v :: st) c (some v) i st c := ⟨1, fun n => by
  show decide P (n + 1) _ _ _ _ = _
  simp [decide]⟩

theorem Go.set {v : Nat} {l : List Nat} (h : l.contains v = true) : Go P p (v :: i) (.set l :: st) c (some v) i st c :=
  ⟨1, fun n => by
    show decide P (n + 1) _ _ _ _ = _
    simp only [decide, h, if_true]⟩

theorem Go.act {a : Act} {v : Nat} (h : applyTerm P v c a = .ok c') :
    Go P (some v) i (.act a :: st) c (some v) i st c' := ⟨1, fun n => by
  show decide P (n + 1) _ _ _ _ = _
  have : apply P (some v) c a = .ok c' := h
  cases i <;> simp only [decide] <;> rw [this]⟩
end

/-- The same without the previous character: whatever character was read before. -/
def Run (P : PropTable) (i : List Nat) (st : List Sym) (c : Ctx) (i' : List Nat) (st' : List Sym) (c' : Ctx) : Prop :=
  ∀ v, ∃ v', Go P (some v) i st c (some v') i' st' c'

section
variable {P : PropTable} {i i' i'' : List Nat} {st st' st'' : List Sym} {c c' c'' : Ctx}

theorem Run.refl : Run P i st c i st c := fun v => ⟨v, .refl⟩

theorem Run.trans (h : Run P i st c i' st' c') (h' : Run P i' st' c' i'' st'' c'') : Run P i st c i'' st'' c'' := by
  intro v
  obtain ⟨v', h⟩ := h v
  obtain ⟨v'', h'⟩ := h' v'
  exact ⟨v'', h.trans h'⟩

theorem Run.push {x : NT} {l : List Sym} (h : rule x i.head? = .push l) : Run P i (.nt x :: st) c i (l ++ st) c :=
  fun v => ⟨v, .push h⟩

theorem Run.eps {x : NT} (h : rule x i.head? = .eps) : Run P i (.nt x :: st) c i st c := fun v => ⟨v, .eps h⟩

theorem Run.any {v : Nat} : Run P (v :: i) (.any :: st) c i st c := fun _ => ⟨v, .any⟩

theorem Run.term {v : Nat} : Run P (v :: i) (.term v :: st) c i st c := fun _ => ⟨v, .term⟩

theorem Run.act {a : Act} (h : ∀ v, applyTerm P v c a = .ok c') : Run P i (.act a :: st) c i st c' :=
  fun v => ⟨v, .act (h v)⟩

/-- Read a character and use it in an action. -/
theorem Run.anyAct {v : Nat} {a : Act} (h : applyTerm P v c a = .ok c') : Run P (v :: i) (.any :: .act a :: st) c i st c' :=
  fun _ => ⟨v, Go.any.trans (.act h)⟩

theorem Run.setAct {v : Nat} {a : Act} {l : List Nat} (hl : l.contains v = true) (h : applyTerm P v c a = .ok c') :
    Run P (v :: i) (.set l :: .act a :: st) c i st c' :=
  fun _ => ⟨v, (Go.set hl).trans (.act h)⟩
end

/-! ### Character sets of the grammar -/

theorem below_of_mem {l : List Nat} {b v : Nat} (hl : l.all (Nat.blt · b) = true) (h : v ∈ l) : v < b := by
  have := List.all_eq_true.1 hl v h
  simpa [Nat.blt_eq] using this

theorem mem_chars14 {v : Nat} : chars14.contains v = true ↔ isDec v := by
  simp only [List.contains_iff_mem, isDec]
  constructor
  · intro h; simp [chars14] at h; omega
  · intro h; simp [chars14]; omega

theorem mem_chars11 {v : Nat} : chars11.contains v = true ↔ isHex v := by
  simp only [List.contains_iff_mem, isHex, isDec]
  constructor
  · intro h; simp [chars11] at h; omega
  · intro h; simp [chars11]; omega

theorem mem_chars7 {v : Nat} : chars7.contains v = true ↔ isNameStart v := by
  simp only [List.contains_iff_mem, isNameStart]
  constructor
  · intro h; simp [chars7] at h; omega
  · intro h; simp [chars7]; omega

theorem mem_chars6 {v : Nat} : chars6.contains v = true ↔ isNameChar v := by
  simp only [List.contains_iff_mem, isNameChar, isNameStart, isDec]
  constructor
  · intro h; simp [chars6] at h; omega
  · intro h; simp [chars6]; omega

theorem mem_chars19 {v : Nat} : chars19.contains v = true ↔ isPropChar v := by
  simp only [List.contains_iff_mem, isPropChar, isNameChar, isNameStart, isDec]
  constructor
  · intro h; simp [chars19] at h; omega
  · intro h; simp [chars19]; omega

/-- A rule for a set of characters. -/
theorem rule_set {x : NT} {l : List Nat} {r : Rhs} (h : (Pat.set l, r) ∈ rules x) {v : Nat} (hv : l.contains v = true) :
    rule x (some v) = r := rule_of_mem h hv

theorem rule_others {x : NT} {r : Rhs} (h : (Pat.others, r) ∈ rules x) {v : Nat} (hv : notOthers.contains v = false) :
    rule x (some v) = r := rule_of_mem h (by simp [Pat.accepts] at hv ⊢; exact hv)

end Ctre.Parse
