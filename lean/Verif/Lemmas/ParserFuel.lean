import Verif.Model.Parser

/-
The parser terminates; the rules of the grammar do not overlap.
-/
namespace Ctre.Parse

/-! ### The rule table -/

/-- Two rule patterns accept no common symbol. -/
def Pat.disjoint : Pat → Pat → Bool
  | .eps, .eps => false
  | .eps, _ | _, .eps => true
  | .others, .others => false
  | .others, .term c | .term c, .others => notOthers.contains c
  | .others, .set l | .set l, .others => l.all notOthers.contains
  | .term c, .term d => c != d
  | .term c, .set l | .set l, .term c => !l.contains c
  | .set l, .set m => l.all fun c => !m.contains c

theorem Pat.disjoint_spec {p q : Pat} (h : p.disjoint q = true) (v : Option Nat) :
    ¬ (p.accepts v = true ∧ q.accepts v = true) := by
  rintro ⟨h1, h2⟩
  cases p <;> cases q <;> cases v <;> simp_all [Pat.disjoint, Pat.accepts]
  all_goals first
    | (rename_i l v; exact h v h1 h2)
    | (rename_i l v; exact h v h2 h1)
    | (rename_i l v; exact (h _ h1) h2)
    | skip
  all_goals first
    | (exact h _ h1 h2)
    | (exact h2 (h _ h1))
    | (exact h1 (h _ h2))

/-- All pairs of a list are disjoint. -/
def disjointRules : List (Pat × Rhs) → Bool
  | [] => true
  | (p, _) :: l => l.all (fun q => p.disjoint q.1) && disjointRules l

def allNT : List NT := [.a, .b, .backslash, .backslashRange, .block, .blockName2, .blockName, .c, .classNamedName,
  .content2, .contentInCapture, .contentOrEmpty, .d, .e, .f, .g, .h, .hexdecRepeat, .i, .j, .k, .l, .m, .modr,
  .modeSwitch2, .n, .number2, .number, .o, .optContent, .p, .propertyName2, .propertyName, .propertyValue2,
  .propertyValue, .rangeNT, .rept, .s, .set2a, .set2b, .string2]

theorem mem_allNT (x : NT) : x ∈ allNT := by cases x <;> simp [allNT]

theorem forall_nt {q : NT → Bool} (h : allNT.all q = true) (x : NT) : q x = true :=
  List.all_eq_true.1 h x (mem_allNT x)

theorem rules_disjoint (x : NT) : disjointRules (rules x) = true :=
  forall_nt (q := fun x => disjointRules (rules x)) (by decide +kernel) x

theorem lookup_of_mem {v : Option Nat} {p : Pat} {r : Rhs} : ∀ {l : List (Pat × Rhs)}, disjointRules l = true →
    (p, r) ∈ l → p.accepts v = true → lookup v l = r := by
  intro l
  induction l with
  | nil => intro _ h; simp at h
  | cons x l ih =>
    intro hd hm ha
    obtain ⟨q, r'⟩ := x
    simp only [disjointRules, Bool.and_eq_true, List.all_eq_true] at hd
    simp only [lookup]
    rcases List.mem_cons.1 hm with h | h
    · obtain ⟨rfl, rfl⟩ := Prod.mk.inj h
      rw [if_pos ha]
    · by_cases hq : q.accepts v = true
      · exact (Pat.disjoint_spec (hd.1 _ h) v ⟨hq, ha⟩).elim
      · rw [if_neg hq]; exact ih hd.2 h ha

/-- The rule chosen for a symbol is the declared one. -/
theorem rule_of_mem {x : NT} {v : Option Nat} {p : Pat} {r : Rhs} (h : (p, r) ∈ rules x) (ha : p.accepts v = true) :
    rule x v = r := lookup_of_mem (rules_disjoint x) h ha

theorem lookup_cases {v : Option Nat} : ∀ {l : List (Pat × Rhs)}, lookup v l = .reject ∨
    ∃ p r, (p, r) ∈ l ∧ p.accepts v = true ∧ lookup v l = r := by
  intro l
  induction l with
  | nil => exact .inl rfl
  | cons x l ih =>
    obtain ⟨q, r'⟩ := x
    simp only [lookup]
    by_cases hq : q.accepts v = true
    · rw [if_pos hq]; exact .inr ⟨q, r', by simp, hq, rfl⟩
    · rw [if_neg hq]
      rcases ih with h | ⟨p, r, h1, h2, h3⟩
      · exact .inl h
      · exact .inr ⟨p, r, by simp [h1], h2, h3⟩

/-! ### Fuel -/

def NT.weight : NT → Nat
  | .a => 3
  | .s | .contentInCapture | .contentOrEmpty | .optContent | .set2a => 2
  | .n => 5
  | .o => 7
  | _ => 1

def Sym.weight : Sym → Nat
  | .nt x => x.weight
  | _ => 1

def weightSyms : List Sym → Nat
  | [] => 0
  | x :: l => x.weight + weightSyms l

theorem weightSyms_append (l m : List Sym) : weightSyms (l ++ m) = weightSyms l + weightSyms m := by
  induction l with
  | nil => simp [weightSyms]
  | cons x l ih => simp [weightSyms, ih]; omega

/-- The stack reads a character before anything else. -/
def eager : List Sym → Bool
  | [] => false
  | .act _ :: l => eager l
  | .nt _ :: _ => false
  | _ => true

def onlyActs : List Sym → Bool
  | [] => true
  | .act _ :: l => onlyActs l
  | _ => false

theorem eager_append {l : List Sym} (m : List Sym) (h : eager l = true) : eager (l ++ m) = true := by
  induction l with
  | nil => simp [eager] at h
  | cons x l ih => cases x <;> simp_all [eager]

theorem weight_pos (x : Sym) : 0 < x.weight := by
  cases x with
  | nt x => cases x <;> simp [Sym.weight, NT.weight]
  | _ => simp [Sym.weight]

/-- Bound of the number of steps. -/
def parseCost (len : Nat) (st : List Sym) : Nat :=
  (if eager st then 12 * (len - 1) else 12 * len) + weightSyms st

def rhsCheap (x : NT) : Pat × Rhs → Bool
  | (.eps, .push l) => !eager l && Nat.blt (weightSyms l) x.weight
  | (_, .push l) => if eager l then Nat.ble (weightSyms l) 11 else Nat.blt (weightSyms l) x.weight
  | _ => true

theorem rules_cheap (x : NT) : (rules x).all (rhsCheap x) = true :=
  forall_nt (q := fun x => (rules x).all (rhsCheap x)) (by decide +kernel) x

theorem parseCost_push {x : NT} {inp : List Nat} {l st : List Sym} (h : rule x inp.head? = .push l) :
    parseCost inp.length (l ++ st) < parseCost inp.length (.nt x :: st) := by
  rcases lookup_cases (v := inp.head?) (l := rules x) with h1 | ⟨p, r, h1, h2, h3⟩
  · rw [rule, h1] at h; simp at h
  · rw [rule, h3] at h
    subst h
    have hc := List.all_eq_true.1 (rules_cheap x) _ h1
    have hx := weight_pos (.nt x)
    simp only [Sym.weight] at hx
    by_cases he : eager l = true
    · have hne : inp ≠ [] := by
        rintro rfl
        cases p <;> simp_all [Pat.accepts, rhsCheap]
      have hw : weightSyms l ≤ 11 := by
        cases p <;> simp_all [rhsCheap]
      have : 0 < inp.length := List.length_pos_iff.2 hne
      simp only [parseCost, eager_append _ he, if_true, eager, weightSyms, weightSyms_append, Sym.weight]
      simp only [Bool.false_eq_true, if_false]
      omega
    · have hw : weightSyms l < x.weight := by
        cases p <;> simp_all [rhsCheap]
      simp only [parseCost, eager, weightSyms, weightSyms_append, Sym.weight]
      simp only [Bool.false_eq_true, if_false]
      split <;> omega

theorem parseCost_drop (len : Nat) (x : Sym) (st : List Sym) (h : eager (x :: st) = eager st) :
    parseCost len st < parseCost len (x :: st) := by
  have := weight_pos x
  simp only [parseCost, h, weightSyms]; omega

theorem parseCost_eps (len : Nat) (x : NT) (st : List Sym) : parseCost len st < parseCost len (.nt x :: st) := by
  have := weight_pos (.nt x)
  simp only [parseCost, eager, weightSyms]
  simp only [Bool.false_eq_true, if_false]
  split <;> omega

theorem parseCost_read (len : Nat) (x : Sym) (st : List Sym) (h : eager (x :: st) = true) :
    parseCost len st < parseCost (len + 1) (x :: st) := by
  have := weight_pos x
  simp only [parseCost, h, if_true, weightSyms]
  split <;> omega

theorem decide_terminates (P : PropTable) : ∀ n prev inp st c, parseCost inp.length st < n →
    decide P n prev inp st c ≠ .timeout := by
  intro n
  induction n with
  | zero => intro _ _ _ _ h; simp at h
  | succ n ih =>
    intro prev inp st c h
    match st, inp with
    | [], [] => simp [decide]
    | [], _ :: _ => simp [decide]
    | .act a :: st, inp =>
      have := parseCost_drop inp.length (.act a) st rfl
      simp only [decide]
      split
      · exact ih _ _ _ _ (by omega)
      · simp
      · simp
    | .any :: st, [] => simp [decide]
    | .term t :: st, [] => simp [decide]
    | .set l :: st, [] => simp [decide]
    | .any :: st, v :: inp =>
      have := parseCost_read inp.length .any st rfl
      simp only [List.length_cons] at h
      simp only [decide]
      exact ih _ _ _ _ (by omega)
    | .term t :: st, v :: inp =>
      have := parseCost_read inp.length (.term t) st rfl
      simp only [List.length_cons] at h
      simp only [decide]
      split
      · exact ih _ _ _ _ (by omega)
      · simp
    | .set l :: st, v :: inp =>
      have := parseCost_read inp.length (.set l) st rfl
      simp only [List.length_cons] at h
      simp only [decide]
      split
      · exact ih _ _ _ _ (by omega)
      · simp
    | .nt x :: st, inp =>
      simp only [decide]
      split
      · rename_i l hl
        have := parseCost_push (st := st) hl
        exact ih _ _ _ _ (by omega)
      · have := parseCost_eps inp.length x st
        exact ih _ _ _ _ (by omega)
      · simp

theorem decide_mono (P : PropTable) : ∀ n prev inp st c, decide P n prev inp st c ≠ .timeout →
    decide P (n + 1) prev inp st c = decide P n prev inp st c := by
  intro n
  induction n with
  | zero => intro _ _ _ _ h; exact (h rfl).elim
  | succ n ih =>
    intro prev inp st c h
    match st, inp with
    | [], [] => simp [decide]
    | [], _ :: _ => simp [decide]
    | .act a :: st, inp =>
      simp only [decide] at h ⊢
      split <;> simp_all
    | .any :: st, [] => simp [decide]
    | .term t :: st, [] => simp [decide]
    | .set l :: st, [] => simp [decide]
    | .any :: st, v :: inp => simp only [decide] at h ⊢; exact ih _ _ _ _ h
    | .term t :: st, v :: inp =>
      simp only [decide] at h ⊢
      split <;> simp_all
    | .set l :: st, v :: inp =>
      simp only [decide] at h ⊢
      split <;> simp_all
    | .nt x :: st, inp =>
      simp only [decide] at h ⊢
      split <;> simp_all

theorem decide_of_le (P : PropTable) {n m : Nat} {prev inp st c} (h : n ≤ m) (hn : decide P n prev inp st c ≠ .timeout) :
    decide P m prev inp st c = decide P n prev inp st c := by
  obtain ⟨k, rfl⟩ := Nat.exists_eq_add_of_le h
  induction k with
  | zero => rfl
  | succ k ih =>
    rw [Nat.add_succ, decide_mono, ih (by omega)]
    rw [ih (by omega)]; exact hn

theorem parse_terminates (P : PropTable) (input : List Nat) {n : Nat} (hn : 12 * input.length + 2 < n) :
    decide P n none input [.nt .s] {} ≠ .timeout := by
  apply decide_terminates
  simp [parseCost, eager, weightSyms, Sym.weight, NT.weight]
  omega

/-! ### Errors -/

theorem decide_reject_suffix (P : PropTable) : ∀ n prev inp st c rest, decide P n prev inp st c = .reject rest →
    ∃ u, inp = u ++ rest := by
  intro n
  induction n with
  | zero => intro _ _ _ _ _ h; simp [decide] at h
  | succ n ih =>
    intro prev inp st c rest h
    have skip : ∀ {v : Nat} {inp : List Nat}, (∃ u, inp = u ++ rest) → ∃ u, v :: inp = u ++ rest := by
      rintro v inp ⟨u, rfl⟩; exact ⟨v :: u, rfl⟩
    match st, inp with
    | [], [] => simp [decide] at h
    | [], _ :: _ => simp only [decide, PRes.reject.injEq] at h; exact ⟨[], by simpa using h⟩
    | .act a :: st, inp =>
      simp only [decide] at h
      split at h
      · exact ih _ _ _ _ _ h
      · simp only [PRes.reject.injEq] at h; exact ⟨[], by simpa using h⟩
      · simp at h
    | .any :: st, [] => simp only [decide, PRes.reject.injEq] at h; exact ⟨[], by simpa using h⟩
    | .term t :: st, [] => simp only [decide, PRes.reject.injEq] at h; exact ⟨[], by simpa using h⟩
    | .set l :: st, [] => simp only [decide, PRes.reject.injEq] at h; exact ⟨[], by simpa using h⟩
    | .any :: st, v :: inp => simp only [decide] at h; exact skip (ih _ _ _ _ _ h)
    | .term t :: st, v :: inp =>
      simp only [decide] at h
      split at h
      · exact skip (ih _ _ _ _ _ h)
      · simp only [PRes.reject.injEq] at h; exact ⟨[], by simpa using h⟩
    | .set l :: st, v :: inp =>
      simp only [decide] at h
      split at h
      · exact skip (ih _ _ _ _ _ h)
      · simp only [PRes.reject.injEq] at h; exact ⟨[], by simpa using h⟩
    | .nt x :: st, inp =>
      simp only [decide] at h
      split at h
      · exact ih _ _ _ _ _ h
      · exact ih _ _ _ _ _ h
      · simp only [PRes.reject.injEq] at h; exact ⟨[], by simpa using h⟩

/-- What follows the character at which the parser rejects does not matter. -/
theorem decide_reject_local (P : PropTable) : ∀ n prev u v w w' st c,
    decide P n prev (u ++ v :: w) st c = .reject (v :: w) →
    decide P n prev (u ++ v :: w') st c = .reject (v :: w') := by
  intro n
  induction n with
  | zero => intro _ _ _ _ _ _ _ h; simp [decide] at h
  | succ n ih =>
    intro prev u v w w' st c h
    have no : ∀ {prev st c}, decide P n prev w st c ≠ .reject (v :: w) := by
      intro prev st c h
      obtain ⟨u, hu⟩ := decide_reject_suffix P _ _ _ _ _ _ h
      have := congrArg List.length hu
      simp at this
      omega
    match st, u with
    | [], [] => simp [decide]
    | [], x :: u =>
      simp only [decide, List.cons_append, PRes.reject.injEq] at h
      have := congrArg List.length h
      simp at this
      omega
    | .act a :: st, u =>
      simp only [decide] at h ⊢
      cases ha : apply P prev c a with
      | ok c' => rw [ha] at h; exact ih _ _ _ _ _ _ _ h
      | reject =>
        rw [ha] at h
        simp only [PRes.reject.injEq] at h
        have : u = [] := by
          have := congrArg List.length h
          simp at this; exact this
        subst this; rfl
      | ill => rw [ha] at h; simp at h
    | .any :: st, [] => simp only [decide, List.nil_append] at h; exact (no h).elim
    | .any :: st, x :: u =>
      simp only [decide, List.cons_append] at h ⊢; exact ih _ _ _ _ _ _ _ h
    | .term t :: st, [] =>
      simp only [decide, List.nil_append] at h ⊢
      split
      · rename_i ht; rw [if_pos ht] at h; exact (no h).elim
      · rfl
    | .term t :: st, x :: u =>
      simp only [decide, List.cons_append] at h ⊢
      split
      · rename_i ht; rw [if_pos ht] at h; exact ih _ _ _ _ _ _ _ h
      · rename_i ht; rw [if_neg ht] at h
        simp only [PRes.reject.injEq] at h
        have := congrArg List.length h
        simp at this
        omega
    | .set l :: st, [] =>
      simp only [decide, List.nil_append] at h ⊢
      split
      · rename_i ht; rw [if_pos ht] at h; exact (no h).elim
      · rfl
    | .set l :: st, x :: u =>
      simp only [decide, List.cons_append] at h ⊢
      split
      · rename_i ht; rw [if_pos ht] at h; exact ih _ _ _ _ _ _ _ h
      · rename_i ht; rw [if_neg ht] at h
        simp only [PRes.reject.injEq] at h
        have := congrArg List.length h
        simp at this
        omega
    | .nt x :: st, u =>
      have hh : (u ++ v :: w').head? = (u ++ v :: w).head? := by cases u <;> rfl
      simp only [decide, hh] at h ⊢
      cases hr : rule x (u ++ v :: w).head? with
      | push l => rw [hr] at h; exact ih _ _ _ _ _ _ _ h
      | eps => rw [hr] at h; exact ih _ _ _ _ _ _ _ h
      | reject =>
        rw [hr] at h
        simp only [PRes.reject.injEq] at h
        have : u = [] := by
          have := congrArg List.length h
          simp at this; exact this
        subst this; rfl

end Ctre.Parse
