import Verif.Spec.Undecided
import Verif.Lemmas.ParseBackBody

/-
If the parser stops without a decision, one of the features of Spec/Undecided.lean stands in the text.  The proofs
follow the grammar as those of Lemmas/ParseBackBody.lean, for runs that end undecided.
-/

namespace Ctre.Parse
open Surface

theorem undecided_append {find} {t : List Nat} (u : List Nat) (h : Undecided find t) : Undecided find (u ++ t) := by
  obtain ⟨a, w, b, rfl, h⟩ := h
  exact ⟨u ++ a, w, b, by simp, h⟩

theorem undecided_cons {find} {t : List Nat} (v : Nat) (h : Undecided find t) : Undecided find (v :: t) := undecided_append [v] h

theorem undecided_of {find} {u : List Nat} (b : List Nat) (h : Feature find u) {t : List Nat} (e : t = u ++ b) : Undecided find t :=
  ⟨[], u, b, by simpa using e, h⟩

/-- The parser has stopped without a decision, or accepted without a pattern. -/
def Bad : PRes → Prop
  | .ill => True
  | .accept c => ∀ r ts, c.stack ≠ .re r :: ts
  | _ => False

/-- The parser stops without a decision from this configuration within `n` steps, when some character has been read
before. -/
def Ill (P : PropTable) (n : Nat) (i : List Nat) (st : List Sym) (c : Ctx) : Prop := ∃ v, Bad (decide P n (some v) i st c)

section
variable {P : PropTable} {n : Nat} {i i' : List Nat} {st st' : List Sym} {c c' : Ctx}

theorem Bad.ne {r : PRes} (h : Bad r) : r ≠ .timeout := by rintro rfl; exact h

theorem Ill.mono {m : Nat} (h : Ill P n i st c) (hn : n ≤ m) : Ill P m i st c := by
  obtain ⟨v, h⟩ := h
  exact ⟨v, by rw [decide_of_le P hn h.ne]; exact h⟩

theorem Ill.succ (h : Ill P n i st c) : Ill P (n + 1) i st c := h.mono (Nat.le_succ n)

theorem Run.ill (h : Run P i st c i' st' c') (ha : Ill P n i st c) : Ill P n i' st' c' := by
  obtain ⟨v, hd⟩ := ha
  obtain ⟨v', k, hk⟩ := h v
  refine ⟨v', ?_⟩
  rw [← hk, decide_of_le P (Nat.le_add_right n k) hd.ne]
  exact hd

theorem Ill.act {a : Act} (h : Ill P n i (.act a :: st) c) :
    ∃ v, applyTerm P v c a = .ill ∨ ∃ c1, applyTerm P v c a = .ok c1 ∧ Ill P n i st c1 := by
  obtain ⟨v, hd⟩ := h
  cases n with
  | zero => exact hd.elim
  | succ n =>
    have h1 : decide P (n + 1) (some v) i (.act a :: st) c = match applyTerm P v c a with
        | .ok c' => decide P n (some v) i st c'
        | .reject => .reject i
        | .ill => .ill := by cases i <;> rfl
    rw [h1] at hd
    cases ha : applyTerm P v c a with
    | ok c1 => rw [ha] at hd; exact ⟨v, .inr ⟨c1, ha, Ill.succ ⟨v, hd⟩⟩⟩
    | reject => rw [ha] at hd; exact hd.elim
    | ill => exact ⟨v, .inl ha⟩

theorem Ill.any (h : Ill P n i (.any :: st) c) : ∃ v i', i = v :: i' ∧ Ill P n i' st c := by
  obtain ⟨v, hd⟩ := h
  cases n with
  | zero => exact hd.elim
  | succ n =>
    cases i with
    | nil => exact hd.elim
    | cons w i => exact ⟨w, i, rfl, Ill.succ ⟨w, hd⟩⟩

theorem Ill.term {t : Nat} (h : Ill P n i (.term t :: st) c) : ∃ i', i = t :: i' ∧ Ill P n i' st c := by
  obtain ⟨v, hd⟩ := h
  cases n with
  | zero => exact hd.elim
  | succ n =>
    cases i with
    | nil => exact hd.elim
    | cons w i =>
      simp only [decide] at hd
      split at hd
      · rename_i e; subst e; exact ⟨i, rfl, Ill.succ ⟨t, hd⟩⟩
      · exact hd.elim

theorem Ill.set {l : List Nat} (h : Ill P n i (.set l :: st) c) : ∃ v i', i = v :: i' ∧ l.contains v = true ∧ Ill P n i' st c := by
  obtain ⟨v, hd⟩ := h
  cases n with
  | zero => exact hd.elim
  | succ n =>
    cases i with
    | nil => exact hd.elim
    | cons w i =>
      simp only [decide] at hd
      split at hd
      · rename_i e; exact ⟨w, i, rfl, e, Ill.succ ⟨w, hd⟩⟩
      · exact hd.elim

/-- Case analysis on the rules of a nonterminal. -/
theorem Ill.nt {x : NT} (h : Ill P n i (.nt x :: st) c) :
    ∃ m p r, n = m + 1 ∧ (p, r) ∈ rules x ∧ p.accepts i.head? = true ∧
      ((∃ l, r = .push l ∧ Ill P m i (l ++ st) c) ∨ (r = .eps ∧ Ill P m i st c)) := by
  obtain ⟨v, hd⟩ := h
  cases n with
  | zero => exact hd.elim
  | succ n =>
    have h1 : decide P (n + 1) (some v) i (.nt x :: st) c = match rule x i.head? with
        | .push l => decide P n (some v) i (l ++ st) c
        | .eps => decide P n (some v) i st c
        | .reject => .reject i := by cases i <;> rfl
    rw [h1] at hd
    rcases lookup_cases (v := i.head?) (l := rules x) with h2 | ⟨p, r, h2, h3, h4⟩
    · rw [show rule x i.head? = .reject from h2] at hd
      exact hd.elim
    · rw [show rule x i.head? = r from h4] at hd
      cases r with
      | push l => exact ⟨n, p, _, rfl, h2, h3, .inl ⟨l, rfl, v, hd⟩⟩
      | eps => exact ⟨n, p, _, rfl, h2, h3, .inr ⟨rfl, v, hd⟩⟩
      | reject => exact hd.elim

/-- The same without the number of steps. -/
theorem Ill.rules {x : NT} (h : Ill P n i (.nt x :: st) c) :
    ∃ p r, (p, r) ∈ rules x ∧ p.accepts i.head? = true ∧
      ((∃ l, r = .push l ∧ Ill P n i (l ++ st) c) ∨ (r = .eps ∧ Ill P n i st c)) := by
  obtain ⟨m, p, r, rfl, h1, h2, h3⟩ := h.nt
  refine ⟨p, r, h1, h2, ?_⟩
  rcases h3 with ⟨l, e, h⟩ | ⟨e, h⟩
  · exact .inl ⟨l, e, h.succ⟩
  · exact .inr ⟨e, h.succ⟩

theorem Ill.push {x : NT} {l : List Sym} (h : Ill P n i (.nt x :: st) c) (hr : rule x i.head? = .push l) : Ill P n i (l ++ st) c :=
  (Run.push hr).ill h

theorem Ill.eps {x : NT} (h : Ill P n i (.nt x :: st) c) (hr : rule x i.head? = .eps) : Ill P n i st c := (Run.eps hr).ill h

/-- An action that applies. -/
theorem Ill.ok {a : Act} {Q : Ctx → Prop} (ha : ∀ v, ∃ c1, applyTerm P v c a = .ok c1 ∧ Q c1) (h : Ill P n i (.act a :: st) c) :
    ∃ c1, Q c1 ∧ Ill P n i st c1 := by
  obtain ⟨v, h1⟩ := h.act
  obtain ⟨c1, h2, h3⟩ := ha v
  rcases h1 with h1 | ⟨c2, h1, h4⟩
  · rw [h2] at h1; cases h1
  · rw [h2] at h1; cases h1; exact ⟨c1, h3, h4⟩

theorem Ill.act1 {a : Act} {c1 : Ctx} (h : Ill P n i (.act a :: st) c) (ha : ∀ v, applyTerm P v c a = .ok c1) : Ill P n i st c1 :=
  (Run.act ha).ill h

theorem Ill.nil {r : Re} {stk : List PItem} {k : Nat} (h : Ill P n i [] ⟨.re r :: stk, k⟩) : False := by
  obtain ⟨v, hd⟩ := h
  cases n with
  | zero => exact hd
  | succ n =>
    cases i with
    | nil => exact hd r stk rfl
    | cons w i => exact hd
end

/-! ### Numbers, names, properties -/

section
variable {P : PropTable} {st : List Sym} {k : Nat} {stk : List PItem}

theorem number2_ill : ∀ {n : Nat} {i : List Nat} {m : Nat}, Ill P n i (.nt .number2 :: st) ⟨.num m :: stk, k⟩ →
    ∃ u rest m', i = u ++ rest ∧ Ill P n rest st ⟨.num m' :: stk, k⟩ := by
  intro n
  induction n with
  | zero => rintro i m ⟨v, h⟩; exact h.elim
  | succ n ih =>
    intro i m h
    obtain ⟨m', p, r, e, h1, h2, h3⟩ := h.nt
    cases e
    simp only [Parse.rules, rules_number2, List.mem_cons, List.not_mem_nil, or_false, Prod.mk.injEq] at h1
    rcases h1 with ⟨rfl, rfl⟩ | ⟨rfl, rfl⟩ <;> simp only [Rhs.push.injEq, reduceCtorEq, false_and, or_false, exists_false, false_or, true_and] at h3
    · exact ⟨[], i, m, rfl, h3.succ⟩
    · obtain ⟨l, rfl, h3⟩ := h3
      obtain ⟨v, i', rfl, h4⟩ := Ill.any h3
      obtain ⟨_, ⟨x, rfl⟩, h5⟩ := Ill.ok (Q := fun c => ∃ x, c = ⟨.num x :: stk, k⟩) (fun _ => ⟨_, rfl, _, rfl⟩) h4
      obtain ⟨u, rest, m', rfl, h6⟩ := ih h5
      exact ⟨v :: u, rest, m', rfl, h6.succ⟩

theorem number_ill {n : Nat} {i : List Nat} (h : Ill P n i (.nt .number :: st) ⟨stk, k⟩) :
    ∃ u rest m', i = u ++ rest ∧ Ill P n rest st ⟨.num m' :: stk, k⟩ := by
  obtain ⟨p, r, h1, h2, h3⟩ := h.rules
  simp only [Parse.rules, rules_number, List.mem_cons, List.not_mem_nil, or_false, Prod.mk.injEq] at h1
  obtain ⟨rfl, rfl⟩ := h1
  simp only [Rhs.push.injEq, reduceCtorEq, false_and, or_false] at h3
  obtain ⟨l, rfl, h3⟩ := h3
  obtain ⟨v, i', rfl, h4⟩ := Ill.any h3
  obtain ⟨_, ⟨x, rfl⟩, h5⟩ := Ill.ok (Q := fun c => ∃ x, c = ⟨.num x :: stk, k⟩) (fun _ => ⟨_, rfl, _, rfl⟩) h4
  obtain ⟨u, rest, m', rfl, h6⟩ := number2_ill h5
  exact ⟨v :: u, rest, m', rfl, h6⟩

theorem hexdecRepeat_ill : ∀ {n : Nat} {i : List Nat} {m : Nat}, Ill P n i (.nt .hexdecRepeat :: st) ⟨.num m :: stk, k⟩ →
    ∃ ds rest, i = ds ++ 125 :: rest ∧ (∀ d ∈ ds, isHex d) := by
  intro n
  induction n with
  | zero => rintro i m ⟨v, h⟩; exact h.elim
  | succ n ih =>
    intro i m h
    obtain ⟨m', p, r, e, h1, h2, h3⟩ := h.nt
    cases e
    simp only [Parse.rules, rules_hexdecRepeat, List.mem_cons, List.not_mem_nil, or_false, Prod.mk.injEq] at h1
    rcases h1 with ⟨rfl, rfl⟩ | ⟨rfl, rfl⟩ <;> simp only [Rhs.push.injEq, reduceCtorEq, false_and, or_false, exists_false, false_or, true_and] at h3
    · obtain ⟨i', rfl⟩ := head_some (accepts_term h2)
      exact ⟨[], i', rfl, by simp⟩
    · obtain ⟨l, rfl, h3⟩ := h3
      obtain ⟨v, i', rfl, h4⟩ := Ill.any h3
      obtain ⟨_, ⟨x, rfl⟩, h5⟩ := Ill.ok (Q := fun c => ∃ x, c = ⟨.num x :: stk, k⟩) (fun _ => ⟨_, rfl, _, rfl⟩) h4
      obtain ⟨u, rest, rfl, h6⟩ := ih h5
      exact ⟨v :: u, rest, rfl, List.forall_mem_cons.2 ⟨mem_chars11.1 h2, h6⟩⟩

theorem blockName2_ill : ∀ {n : Nat} {i s : List Nat}, Ill P n i (.nt .blockName2 :: st) ⟨.name s :: stk, k⟩ →
    ∃ u rest s', i = u ++ rest ∧ (∀ v ∈ u, isNameChar v) ∧ Ill P n rest st ⟨.name s' :: stk, k⟩ := by
  intro n
  induction n with
  | zero => rintro i m ⟨v, h⟩; exact h.elim
  | succ n ih =>
    intro i m h
    obtain ⟨m', p, r, e, h1, h2, h3⟩ := h.nt
    cases e
    simp only [Parse.rules, rules_blockName2, List.mem_cons, List.not_mem_nil, or_false, Prod.mk.injEq] at h1
    rcases h1 with ⟨rfl, rfl⟩ | ⟨rfl, rfl⟩ <;> simp only [Rhs.push.injEq, reduceCtorEq, false_and, or_false, exists_false, false_or, true_and] at h3
    · exact ⟨[], i, m, rfl, by simp, h3.succ⟩
    · obtain ⟨l, rfl, h3⟩ := h3
      obtain ⟨v, i', rfl, h4⟩ := Ill.any h3
      obtain ⟨_, ⟨x, rfl⟩, h5⟩ := Ill.ok (Q := fun c => ∃ x, c = ⟨.name x :: stk, k⟩) (fun _ => ⟨_, rfl, _, rfl⟩) h4
      obtain ⟨u, rest, m', rfl, h6, h7⟩ := ih h5
      exact ⟨v :: u, rest, m', rfl, List.forall_mem_cons.2 ⟨mem_chars6.1 h2, h6⟩, h7.succ⟩

theorem propertyValue2_ill : ∀ {n : Nat} {i s : List Nat}, Ill P n i (.nt .propertyValue2 :: st) ⟨.propValue s :: stk, k⟩ →
    ∃ u rest, i = u ++ 125 :: rest ∧ (∀ v ∈ u, isPropChar v) := by
  intro n
  induction n with
  | zero => rintro i m ⟨v, h⟩; exact h.elim
  | succ n ih =>
    intro i m h
    obtain ⟨m', p, r, e, h1, h2, h3⟩ := h.nt
    cases e
    simp only [Parse.rules, rules_propertyValue2, List.mem_cons, List.not_mem_nil, or_false, Prod.mk.injEq] at h1
    rcases h1 with ⟨rfl, rfl⟩ | ⟨rfl, rfl⟩ <;> simp only [Rhs.push.injEq, reduceCtorEq, false_and, or_false, exists_false, false_or, true_and] at h3
    · obtain ⟨i', rfl⟩ := head_some (accepts_term h2)
      exact ⟨[], i', rfl, by simp⟩
    · obtain ⟨l, rfl, h3⟩ := h3
      obtain ⟨v, i', rfl, h4⟩ := Ill.any h3
      obtain ⟨_, ⟨x, rfl⟩, h5⟩ := Ill.ok (Q := fun c => ∃ x, c = ⟨.propValue x :: stk, k⟩) (fun _ => ⟨_, rfl, _, rfl⟩) h4
      obtain ⟨u, rest, rfl, h6⟩ := ih h5
      exact ⟨v :: u, rest, rfl, List.forall_mem_cons.2 ⟨mem_chars19.1 h2, h6⟩⟩

theorem propertyName2_ill : ∀ {n : Nat} {i s : List Nat}, Ill P n i (.nt .propertyName2 :: st) ⟨.propName s :: stk, k⟩ →
    ∃ ds value rest, i = ds ++ (printValue value ++ 125 :: rest) ∧ (∀ d ∈ ds, isPropChar d) ∧ (∀ w, value = some w → isPropWord w) := by
  intro n
  induction n with
  | zero => rintro i m ⟨v, h⟩; exact h.elim
  | succ n ih =>
    intro i m h
    obtain ⟨m', p, r, e, h1, h2, h3⟩ := h.nt
    cases e
    simp only [Parse.rules, rules_propertyName2, List.mem_cons, List.not_mem_nil, or_false, Prod.mk.injEq] at h1
    rcases h1 with ⟨rfl, rfl⟩ | ⟨rfl, rfl⟩ | ⟨rfl, rfl⟩ <;> simp only [Rhs.push.injEq, reduceCtorEq, false_and, or_false, exists_false, false_or, true_and] at h3
    · obtain ⟨i', rfl⟩ := head_some (accepts_term h2)
      exact ⟨[], none, i', rfl, by simp, by simp⟩
    · obtain ⟨l, rfl, h3⟩ := h3
      obtain ⟨i', rfl⟩ := head_some (accepts_term h2)
      have h4 := Run.any.ill h3
      obtain ⟨p, r, h1, h2', h3'⟩ := Ill.rules (x := .propertyValue) (st := st) h4
      simp only [Parse.rules, rules_propertyValue, List.mem_cons, List.not_mem_nil, or_false, Prod.mk.injEq] at h1
      obtain ⟨rfl, rfl⟩ := h1
      simp only [Rhs.push.injEq, reduceCtorEq, false_and, or_false] at h3'
      obtain ⟨l, rfl, h3'⟩ := h3'
      obtain ⟨v, i', rfl, h5⟩ := Ill.any h3'
      obtain ⟨_, ⟨x, rfl⟩, h6⟩ := Ill.ok (Q := fun c => ∃ x, c = ⟨.propValue x :: .propName m :: stk, k⟩) (fun _ => ⟨_, rfl, _, rfl⟩) h5
      obtain ⟨ds, rest, rfl, h7⟩ := propertyValue2_ill h6
      refine ⟨[], some (v :: ds), rest, rfl, by simp, ?_⟩
      rintro _ ⟨⟩
      exact ⟨by simp, List.forall_mem_cons.2 ⟨mem_chars19.1 h2', h7⟩⟩
    · obtain ⟨l, rfl, h3⟩ := h3
      obtain ⟨v, i', rfl, h4⟩ := Ill.any h3
      obtain ⟨_, ⟨x, rfl⟩, h5⟩ := Ill.ok (Q := fun c => ∃ x, c = ⟨.propName x :: stk, k⟩) (fun _ => ⟨_, rfl, _, rfl⟩) h4
      obtain ⟨u, value, rest, rfl, h6, h7⟩ := ih h5
      exact ⟨v :: u, value, rest, rfl, List.forall_mem_cons.2 ⟨mem_chars19.1 h2, h6⟩, h7⟩

theorem property_ill {n : Nat} {i : List Nat} (hs : Clean false stk) (h : Ill P n i (.nt .propertyName :: st) ⟨stk, k⟩) :
    ∃ name value rest, i = name ++ (printValue value ++ 125 :: rest) ∧ isPropWord name ∧ (∀ w, value = some w → isPropWord w) := by
  obtain ⟨p, r, h1, h2, h3⟩ := h.rules
  simp only [Parse.rules, rules_propertyName, List.mem_cons, List.not_mem_nil, or_false, Prod.mk.injEq] at h1
  obtain ⟨rfl, rfl⟩ := h1
  simp only [Rhs.push.injEq, reduceCtorEq, false_and, or_false] at h3
  obtain ⟨l, rfl, h3⟩ := h3
  obtain ⟨v, i', rfl, h4⟩ := Ill.any h3
  obtain ⟨_, ⟨x, rfl⟩, h5⟩ := Ill.ok (Q := fun c => ∃ x, c = ⟨.propName x :: stk, k⟩) (fun _ => ⟨_, pushPropertyName_clean hs, _, rfl⟩) h4
  obtain ⟨u, value, rest, rfl, h6, h7⟩ := propertyName2_ill h5
  exact ⟨v :: u, value, rest, rfl, ⟨by simp, List.forall_mem_cons.2 ⟨mem_chars19.1 h2, h6⟩⟩, h7⟩

/-! ### Escapes -/

theorem hexBraces_ill {n : Nat} {i : List Nat} {x : NT} {m : Nat} (hx : x = .k ∨ x = .l) (hm : m = 120 ∨ m = 117)
    (h : Ill P n (123 :: i) (.nt x :: st) ⟨stk, k⟩) :
    Undecided P.find (92 :: m :: 123 :: i) ∨ ∃ u rest v, i = u ++ rest ∧ Ill P n rest st ⟨.re (.cc (.chr v)) :: stk, k⟩ := by
  have h1 := h.push (l := [.act .createHexdec, .any, .set chars11, .act .pushHexdec, .nt .hexdecRepeat, .term 125,
    .act .finishHexdec]) (by rcases hx with rfl | rfl <;> rfl)
  have h2 := Run.any.ill (Ill.act1 (c1 := ⟨.num 0 :: stk, k⟩) h1 (fun _ => rfl))
  obtain ⟨d, i', rfl, hd, h3⟩ := h2.set
  have h4 : Ill P n i' (.nt .hexdecRepeat :: .term 125 :: .act .finishHexdec :: st) ⟨.num ((0 * 16 + hexValue d) % szMod) :: stk, k⟩ :=
    (Run.setAct hd rfl).ill h2
  obtain ⟨ds, rest, rfl, h5⟩ := hexdecRepeat_ill h4
  have h6 := Run.term.ill ((hexdecRepeat_run h5).ill h4)
  obtain ⟨v, h7⟩ := h6.act
  have hd := mem_chars11.1 hd
  have := hex_fold h5 (16 * 0 + hexDigit d)
  rw [hexValue_eq hd, Nat.zero_mul] at h7
  rw [Nat.mul_zero] at this
  simp only [applyTerm, this] at h7
  rw [show ds.foldl (fun n d => 16 * n + hexDigit d) (0 + hexDigit d) = hexadecimal (d :: ds) by simp [hexadecimal]] at h7
  by_cases hlt : hexadecimal (d :: ds) % szMod < 4294967296
  · simp only [hlt, if_true, Ctx.setStack, reduceCtorEq, false_or] at h7
    obtain ⟨c1, e, h8⟩ := h7
    cases e
    exact .inr ⟨d :: (ds ++ [125]), rest, _, by simp, h8⟩
  · left
    refine undecided_of rest (.hex m (d :: ds) hm (List.forall_mem_cons.2 ⟨hd, h5⟩) ?_) (by simp)
    simp only [szMod] at hlt
    omega

theorem hex4_ill {n : Nat} {i : List Nat} {ts : List Sym} {m : Nat} (h : Ill P n i (.set chars11 :: .act .pushHexdec :: ts) ⟨.num m :: stk, k⟩) :
    ∃ d i', i = d :: i' ∧ isHex d ∧ Ill P n i' ts ⟨.num ((m * 16 + hexValue d) % szMod) :: stk, k⟩ := by
  obtain ⟨d, i', rfl, hd, _⟩ := h.set
  exact ⟨d, i', rfl, mem_chars11.1 hd, (Run.setAct hd rfl).ill h⟩

theorem finish_ill {n : Nat} {i : List Nat} {m : Nat} (hm : m < 4294967296) (h : Ill P n i (.act .finishHexdec :: st) ⟨.num m :: stk, k⟩) :
    Ill P n i st ⟨.re (.cc (.chr m)) :: stk, k⟩ := h.act1 (fun _ => by simp [applyTerm, hm, Ctx.setStack])

theorem hexValue_lt {d : Nat} (h : isHex d) : hexValue d < 16 := by
  simp only [isHex, isDec] at h
  unfold hexValue
  repeat' split
  all_goals omega

theorem hexk_ill {n : Nat} {i : List Nat} (h : Ill P n i (.nt .k :: st) ⟨stk, k⟩) :
    Undecided P.find (92 :: 117 :: i) ∨ ∃ u rest v, i = u ++ rest ∧ Ill P n rest st ⟨.re (.cc (.chr v)) :: stk, k⟩ := by
  obtain ⟨p, r, h1, h2, h3⟩ := h.rules
  simp only [Parse.rules, rules_k, List.mem_cons, List.not_mem_nil, or_false, Prod.mk.injEq] at h1
  rcases h1 with ⟨rfl, rfl⟩ | ⟨rfl, rfl⟩
  · obtain ⟨i', rfl⟩ := head_some (accepts_term h2)
    rcases hexBraces_ill (.inl rfl) (.inr rfl) h with h | ⟨u, rest, v, rfl, h'⟩
    · exact .inl h
    · exact .inr ⟨123 :: u, rest, v, rfl, h'⟩
  · obtain ⟨w, hw, hd⟩ := accepts_set h2
    obtain ⟨i', rfl⟩ := head_some hw
    simp only [Rhs.push.injEq, reduceCtorEq, false_and, or_false] at h3
    obtain ⟨l, rfl, h3⟩ := h3
    have h4 := (Run.anyAct rfl).ill (Ill.act1 (c1 := ⟨.num 0 :: stk, k⟩) h3 (fun _ => rfl))
    obtain ⟨b, _, rfl, hb, h5⟩ := hex4_ill h4
    obtain ⟨c, _, rfl, hc, h6⟩ := hex4_ill h5
    obtain ⟨d, rest, rfl, hd', h7⟩ := hex4_ill h6
    refine .inr ⟨[w, b, c, d], rest, _, rfl, finish_ill ?_ h7⟩
    have := hexValue_lt (mem_chars11.1 hd); have := hexValue_lt hb; have := hexValue_lt hc; have := hexValue_lt hd'
    simp only [szMod]
    omega

theorem hexl_ill {n : Nat} {i : List Nat} (h : Ill P n i (.nt .l :: st) ⟨stk, k⟩) :
    Undecided P.find (92 :: 120 :: i) ∨ ∃ u rest v, i = u ++ rest ∧ Ill P n rest st ⟨.re (.cc (.chr v)) :: stk, k⟩ := by
  obtain ⟨p, r, h1, h2, h3⟩ := h.rules
  simp only [Parse.rules, rules_l, List.mem_cons, List.not_mem_nil, or_false, Prod.mk.injEq] at h1
  rcases h1 with ⟨rfl, rfl⟩ | ⟨rfl, rfl⟩
  · obtain ⟨i', rfl⟩ := head_some (accepts_term h2)
    rcases hexBraces_ill (.inr rfl) (.inl rfl) h with h | ⟨u, rest, v, rfl, h'⟩
    · exact .inl h
    · exact .inr ⟨123 :: u, rest, v, rfl, h'⟩
  · obtain ⟨w, hw, hd⟩ := accepts_set h2
    obtain ⟨i', rfl⟩ := head_some hw
    simp only [Rhs.push.injEq, reduceCtorEq, false_and, or_false] at h3
    obtain ⟨l, rfl, h3⟩ := h3
    have h4 := (Run.anyAct rfl).ill (Ill.act1 (c1 := ⟨.num 0 :: stk, k⟩) h3 (fun _ => rfl))
    obtain ⟨b, rest, rfl, hb, h5⟩ := hex4_ill h4
    refine .inr ⟨[w, b], rest, _, rfl, finish_ill ?_ h5⟩
    have := hexValue_lt (mem_chars11.1 hd); have := hexValue_lt hb
    simp only [szMod]
    omega

theorem prop_ill {n : Nat} {i : List Nat} (hs : Clean false stk) {neg : Bool}
    (h : Ill P n i (.term 123 :: .nt .propertyName :: .term 125 :: .act (if neg then .makePropertyNegative else .makeProperty) :: st)
      ⟨stk, k⟩) :
    Undecided P.find (92 :: (if neg then 80 else 112) :: i) ∨ ∃ u rest a, i = u ++ rest ∧ Ill P n rest st ⟨.re (.cc a) :: stk, k⟩ := by
  obtain ⟨i', rfl, h1⟩ := h.term
  obtain ⟨name, value, rest, rfl, h2, h3⟩ := property_ill hs h1
  have h4 := Run.term.ill ((property_run h2 h3 hs).ill h1)
  obtain ⟨v, h5⟩ := h4.act
  have split : 123 :: (name ++ (printValue value ++ 125 :: rest)) = (123 :: (name ++ (printValue value ++ [125]))) ++ rest := by simp
  cases value with
  | none =>
    cases hp : P.binary name with
    | some p =>
      right
      cases neg <;> simp [propStack, applyTerm, hp, Ctx.setStack] at h5 <;> exact ⟨_, rest, _, split, h5⟩
    | none => cases neg <;> simp [propStack, applyTerm, hp] at h5
  | some w =>
    cases hp : P.valued name w with
    | some p =>
      right
      cases neg <;> simp [propStack, applyTerm, hp, Ctx.setStack] at h5 <;> exact ⟨_, rest, _, split, h5⟩
    | none =>
      left
      refine undecided_of rest (.property (if neg then 80 else 112) name w ?_ h2 (h3 w rfl) hp) (by simp [printValue])
      cases neg <;> simp


/-! ### Escapes -/

/-- The result is a greedy repetition after a question mark. -/
def OptOK (r : Re) : Prop := ∃ l, makeOptional r = .rep .greedy 0 1 l

theorem char_case {n : Nat} {i : List Nat} {l : List Sym} {a : Act} {w : Nat} (h : Ill P n (w :: i) (.any :: .act a :: l) ⟨stk, k⟩)
    {v : Nat} (ha : applyTerm P w ⟨stk, k⟩ a = .ok ⟨.re (.cc (.chr v)) :: stk, k⟩) :
    Ill P n i l ⟨.re (.cc (.chr v)) :: stk, k⟩ := (Run.anyAct ha).ill h

theorem backslashRange_ill {n : Nat} {i : List Nat} (h : Ill P n i (.nt .backslashRange :: st) ⟨stk, k⟩) :
    Undecided P.find (92 :: i) ∨ ∃ u rest v, i = u ++ rest ∧ Ill P n rest st ⟨.re (.cc (.chr v)) :: stk, k⟩ := by
  obtain ⟨p, r, h1, h2, h3⟩ := h.rules
  clear h
  simp only [Parse.rules, rules_backslashRange, List.mem_cons, List.not_mem_nil, or_false, Prod.mk.injEq] at h1
  repeat' (refine Or.elim h1 ?_ ?_ <;> clear h1 <;> intro h1)
  all_goals
    obtain ⟨rfl, rfl⟩ := h1
    simp only [Rhs.push.injEq, reduceCtorEq, false_and, or_false] at h3
    obtain ⟨l, rfl, h3⟩ := h3
    first
      | obtain ⟨i', rfl⟩ := head_some (accepts_term h2)
      | (obtain ⟨w, hw, hd⟩ := accepts_set h2; obtain ⟨i', rfl⟩ := head_some hw)
  · rcases hexk_ill (Run.any.ill h3) with h | ⟨u, rest, v, rfl, h⟩
    · exact .inl h
    · exact .inr ⟨117 :: u, rest, v, rfl, h⟩
  · rcases hexl_ill (Run.any.ill h3) with h | ⟨u, rest, v, rfl, h⟩
    · exact .inl h
    · exact .inr ⟨120 :: u, rest, v, rfl, h⟩
  all_goals exact .inr ⟨[_], i', _, rfl, char_case h3 rfl⟩

theorem range_ill {n : Nat} {i : List Nat} {v : Nat} (h : Ill P n i (.nt .rangeNT :: st) ⟨.re (.cc (.chr v)) :: stk, k⟩) :
    Undecided P.find i ∨ ∃ u rest a, i = u ++ rest ∧ Ill P n rest st ⟨.re (.cc a) :: stk, k⟩ := by
  by_cases hi : i.head? = some 45
  · obtain ⟨i', rfl⟩ := head_some hi
    have h' := Run.any.ill (h.push (l := [.any, .nt .j]) rfl)
    clear h
    obtain ⟨p, r, h1, h2, h3⟩ := Ill.rules (x := .j) (st := st) h'
    simp only [Parse.rules, rules_j, List.mem_cons, List.not_mem_nil, or_false, Prod.mk.injEq] at h1
    rcases h1 with ⟨rfl, rfl⟩ | ⟨rfl, rfl⟩ | ⟨rfl, rfl⟩ | ⟨rfl, rfl⟩ <;>
      simp only [Rhs.push.injEq, reduceCtorEq, false_and, or_false, exists_false] at h3 <;> obtain ⟨l, rfl, h3⟩ := h3
    · obtain ⟨i', rfl⟩ := head_some (accepts_term h2)
      rcases backslashRange_ill (st := .act .makeRange :: st) (Run.any.ill h3) with h | ⟨u, rest, w, rfl, h⟩
      · exact .inl (undecided_cons _ h)
      · exact .inr ⟨45 :: 92 :: u, rest, _, rfl, h.act1 fun _ => rfl⟩
    · obtain ⟨w, hw, hd⟩ := accepts_set h2
      obtain ⟨i', rfl⟩ := head_some hw
      exact .inr ⟨[45, w], i', _, rfl, ((Run.anyAct rfl).ill h3).act1 fun _ => rfl⟩
    · obtain ⟨w, hw, hd⟩ := accepts_others h2
      obtain ⟨i', rfl⟩ := head_some hw
      exact .inr ⟨[45, w], i', _, rfl, ((Run.anyAct rfl).ill h3).act1 fun _ => rfl⟩
  · exact .inr ⟨[], i, _, rfl, h.eps (range_eps hi)⟩

theorem ranged {n : Nat} {w i : List Nat}
    (h : Undecided P.find (w ++ i) ∨ ∃ u rest v, i = u ++ rest ∧ Ill P n rest (.nt .rangeNT :: st) ⟨.re (.cc (.chr v)) :: stk, k⟩) :
    Undecided P.find (w ++ i) ∨ ∃ u rest a, i = u ++ rest ∧ Ill P n rest st ⟨.re (.cc a) :: stk, k⟩ := by
  rcases h with h | ⟨u, rest, v, rfl, h⟩
  · exact .inl h
  · rcases range_ill h with h | ⟨u', rest', a, rfl, h'⟩
    · exact .inl (undecided_append _ (undecided_append _ h))
    · exact .inr ⟨u ++ u', rest', a, by simp, h'⟩

theorem shift {n : Nat} {w i : List Nat} (v : Nat)
    (h : Undecided P.find (w ++ v :: i) ∨ ∃ u rest a, i = u ++ rest ∧ Ill P n rest st ⟨.re (.cc a) :: stk, k⟩) :
    Undecided P.find (w ++ v :: i) ∨ ∃ u rest a, v :: i = u ++ rest ∧ Ill P n rest st ⟨.re (.cc a) :: stk, k⟩ := by
  rcases h with h | ⟨u, rest, a, rfl, h⟩
  · exact .inl h
  · exact .inr ⟨v :: u, rest, a, rfl, h⟩

theorem escSet_ill {n : Nat} {i : List Nat} (hs : Clean false stk) {x : NT} (hx : x = .e ∨ x = .f) (h : Ill P n i (.nt x :: st) ⟨stk, k⟩) :
    Undecided P.find ([92] ++ i) ∨ ∃ u rest a, i = u ++ rest ∧ Ill P n rest st ⟨.re (.cc a) :: stk, k⟩ := by
  have hr : Parse.rules x = rules_e := by rcases hx with rfl | rfl <;> rfl
  obtain ⟨p, r, h1, h2, h3⟩ := h.rules
  clear h
  simp only [hr, rules_e, List.mem_cons, List.not_mem_nil, or_false, Prod.mk.injEq] at h1
  repeat' (refine Or.elim h1 ?_ ?_ <;> clear h1 <;> intro h1)
  all_goals
    obtain ⟨rfl, rfl⟩ := h1
    simp only [Rhs.push.injEq, reduceCtorEq, false_and, or_false] at h3
    obtain ⟨l, rfl, h3⟩ := h3
    first
      | obtain ⟨i', rfl⟩ := head_some (accepts_term h2)
      | (obtain ⟨w, hw, hd⟩ := accepts_set h2; obtain ⟨i', rfl⟩ := head_some hw)
  all_goals first
    | exact .inr ⟨[_], i', _, rfl, (Run.anyAct (c' := ⟨.re (.cc _) :: stk, k⟩) (st := st) rfl).ill h3⟩
    | exact shift (w := [92]) _ (ranged (w := [92, _]) (.inr ⟨[], i', _, rfl, char_case h3 rfl⟩))
    | skip
  · exact shift (w := [92]) _ (prop_ill (neg := false) hs (Run.any.ill h3))
  · exact shift (w := [92]) _ (prop_ill (neg := true) hs (Run.any.ill h3))
  · exact shift (w := [92]) _ (ranged (w := [92, 117]) (hexk_ill (Run.any.ill h3)))
  · exact shift (w := [92]) _ (ranged (w := [92, 120]) (hexl_ill (Run.any.ill h3)))

theorem backslash_ill {n : Nat} {i : List Nat} (hs : Clean false stk) (h : Ill P n i (.nt .backslash :: st) ⟨stk, k⟩) :
    Undecided P.find (92 :: i) ∨ (¬ Clean true stk ∧ ∃ x i', i = 103 :: 123 :: x :: i' ∧ isNameStart x) ∨
      ∃ u rest r, i = u ++ rest ∧ OptOK r ∧ Rot r ∧ Ill P n rest st ⟨.re r :: stk, k⟩ := by
  have cc : ∀ {w j : List Nat} (v : Nat), (Undecided P.find (w ++ v :: j) ∨ ∃ u rest a, j = u ++ rest ∧ Ill P n rest st ⟨.re (.cc a) :: stk, k⟩) →
      Undecided P.find (w ++ v :: j) ∨ (¬ Clean true stk ∧ ∃ x i', v :: j = 103 :: 123 :: x :: i' ∧ isNameStart x) ∨
      ∃ u rest r, v :: j = u ++ rest ∧ OptOK r ∧ Rot r ∧ Ill P n rest st ⟨.re r :: stk, k⟩ := by
    rintro w j v (h | ⟨u, rest, a, rfl, h⟩)
    · exact .inl h
    · exact .inr (.inr ⟨v :: u, rest, _, rfl, ⟨_, rfl⟩, rot_cc, h⟩)
  have chr : ∀ {m j : List Nat}, (Undecided P.find (m ++ j) ∨ ∃ u rest v, j = u ++ rest ∧ Ill P n rest st ⟨.re (.cc (.chr v)) :: stk, k⟩) →
      Undecided P.find (m ++ j) ∨ ∃ u rest a, j = u ++ rest ∧ Ill P n rest st ⟨.re (.cc a) :: stk, k⟩ := by
    rintro m j (h | ⟨u, rest, v, e, h⟩)
    · exact .inl h
    · exact .inr ⟨u, rest, _, e, h⟩
  have bref : ∀ {u : List Nat} {j : List Nat} {m : Nat} {a : Act}, (a = .makeBackReference ∨ a = .makeRelativeBackReference) →
      Ill P n j (.act a :: st) ⟨.num m :: stk, k⟩ →
      Undecided P.find (92 :: (u ++ j)) ∨ (¬ Clean true stk ∧ ∃ x i', u ++ j = 103 :: 123 :: x :: i' ∧ isNameStart x) ∨
      ∃ u' rest r, u ++ j = u' ++ rest ∧ OptOK r ∧ Rot r ∧ Ill P n rest st ⟨.re r :: stk, k⟩ := by
    intro u j m a ha h
    obtain ⟨v, h⟩ := h.act
    by_cases hm : k < m
    · rcases ha with rfl | rfl <;> simp [applyTerm, hm] at h
    · rcases ha with rfl | rfl <;> simp only [applyTerm, hm, if_false, Ctx.setStack, reduceCtorEq, false_or, ARes.ok.injEq] at h <;>
        obtain ⟨c1, rfl, h⟩ := h <;>
        exact .inr (.inr ⟨u, j, _, rfl, ⟨_, rfl⟩, by simp [Rot, Re.rotate], h⟩)
  obtain ⟨p, r, h1, h2, h3⟩ := h.rules
  clear h
  simp only [Parse.rules, rules_backslash, List.mem_cons, List.not_mem_nil, or_false, Prod.mk.injEq] at h1
  repeat' (refine Or.elim h1 ?_ ?_ <;> clear h1 <;> intro h1)
  all_goals
    obtain ⟨rfl, rfl⟩ := h1
    simp only [Rhs.push.injEq, reduceCtorEq, false_and, or_false] at h3
    obtain ⟨l, rfl, h3⟩ := h3
    first
      | obtain ⟨i', rfl⟩ := head_some (accepts_term h2)
      | (obtain ⟨w, hw, hd⟩ := accepts_set h2; obtain ⟨i', rfl⟩ := head_some hw)
  all_goals first
    | exact .inr (.inr ⟨[_], i', _, rfl, ⟨_, rfl⟩, by simp [Rot, Re.rotate], (Run.anyAct (c' := ⟨.re _ :: stk, k⟩) (st := st) rfl).ill h3⟩)
    | skip
  · exact bref (u := [w]) (.inl rfl) ((Run.anyAct (c' := ⟨.num _ :: stk, k⟩) rfl).ill h3)
  · have h4 := Run.any.ill h3
    obtain ⟨i', rfl, h5⟩ := Ill.term (st := .nt .m :: st) h4
    clear h3 h4
    obtain ⟨p, r, h1, h2, h3⟩ := Ill.rules (x := .m) (st := st) h5
    simp only [Parse.rules, rules_m, List.mem_cons, List.not_mem_nil, or_false, Prod.mk.injEq] at h1
    rcases h1 with ⟨rfl, rfl⟩ | ⟨rfl, rfl⟩ | ⟨rfl, rfl⟩ <;>
      simp only [Rhs.push.injEq, reduceCtorEq, false_and, or_false, exists_false] at h3 <;> obtain ⟨l, rfl, h3⟩ := h3
    · obtain ⟨w, hw, hd⟩ := accepts_set h2
      obtain ⟨i', rfl⟩ := head_some hw
      obtain ⟨u, rest, m, rfl, h6⟩ := number2_ill (st := .term 125 :: .act .makeBackReference :: st) ((Run.anyAct (c' := ⟨.num _ :: stk, k⟩) rfl).ill h3)
      obtain ⟨rest, rfl, h7⟩ := h6.term
      have := bref (u := 103 :: 123 :: w :: (u ++ [125])) (.inl rfl) h7
      simpa using this
    · obtain ⟨i', rfl⟩ := head_some (accepts_term h2)
      obtain ⟨u, rest, m, rfl, h6⟩ := number_ill (st := .term 125 :: .act .makeRelativeBackReference :: st) (Run.any.ill h3)
      obtain ⟨rest, rfl, h7⟩ := h6.term
      have := bref (u := 103 :: 123 :: 45 :: (u ++ [125])) (.inr rfl) h7
      simpa using this
    · obtain ⟨w, hw, hd⟩ := accepts_set h2
      obtain ⟨i', rfl⟩ := head_some hw
      by_cases hc : Clean true stk
      · have h6 : Ill P n i' (.nt .blockName2 :: .term 125 :: .act .makeBackReference :: st) ⟨.name [w] :: stk, k⟩ := by
          refine (Run.anyAct ?_).ill h3
          cases stk with
          | nil => rfl
          | cons x l => cases x <;> first | rfl | simp [Clean] at hc
        obtain ⟨u, rest, m, rfl, _, h6⟩ := blockName2_ill h6
        obtain ⟨rest, rfl, h7⟩ := h6.term
        exact .inr (.inr ⟨103 :: 123 :: w :: (u ++ [125]), rest, _, by simp, ⟨_, rfl⟩, by simp [Rot, Re.rotate], h7.act1 fun _ => rfl⟩)
      · exact .inr (.inl ⟨hc, w, i', rfl, mem_chars7.1 hd⟩)
  · exact cc (w := [92]) _ (prop_ill (neg := false) hs (Run.any.ill h3))
  · exact cc (w := [92]) _ (prop_ill (neg := true) hs (Run.any.ill h3))
  · exact cc (w := [92]) _ (chr (m := [92, 117]) (hexk_ill (Run.any.ill h3)))
  · exact cc (w := [92]) _ (chr (m := [92, 120]) (hexl_ill (Run.any.ill h3)))


/-! ### Sets -/

theorem spell_ill {n : Nat} {x : CC} {a : Act} (ha : ∀ v, applyTerm P v ⟨stk, k⟩ a = .ok ⟨.re (.cc x) :: stk, k⟩) :
    ∀ (ts : List Nat) {i : List Nat}, Ill P n i (ts.map .term ++ .act a :: st) ⟨stk, k⟩ →
    ∃ rest, i = ts ++ rest ∧ Ill P n rest st ⟨.re (.cc x) :: stk, k⟩
  | [], i, h => ⟨i, rfl, Ill.act1 h ha⟩
  | t :: ts, i, h => by
    obtain ⟨i', rfl, h'⟩ := Ill.term (st := ts.map .term ++ .act a :: st) h
    obtain ⟨rest, rfl, h''⟩ := spell_ill ha ts h'
    exact ⟨rest, rfl, h''⟩

theorem spellCase_ill {n : Nat} {i u : List Nat} {a : Act} {x : CC} (p : Posix) (ts : List Nat) (hn : p.name = u ++ ts)
    (ha : ∀ v, applyTerm P v ⟨stk, k⟩ a = .ok ⟨.re (.cc x) :: stk, k⟩) (h : Ill P n i (ts.map .term ++ .act a :: st) ⟨stk, k⟩) :
    ∃ (p : Posix) (rest : List Nat) (x : CC), u ++ i = p.name ++ rest ∧ Ill P n rest st ⟨.re (.cc x) :: stk, k⟩ := by
  obtain ⟨rest, rfl, h'⟩ := spell_ill ha ts h
  exact ⟨p, rest, x, by rw [hn, List.append_assoc], h'⟩

theorem g_ill {n : Nat} {i : List Nat} (h : Ill P n i (.nt .g :: st) ⟨stk, k⟩) :
    ∃ (p : Posix) (rest : List Nat) (x : CC), 97 :: i = p.name ++ rest ∧ Ill P n rest st ⟨.re (.cc x) :: stk, k⟩ := by
  obtain ⟨p, r, h1, h2, h3⟩ := h.rules
  simp only [Parse.rules, rules_g, List.mem_cons, List.not_mem_nil, or_false, Prod.mk.injEq] at h1
  rcases h1 with ⟨rfl, rfl⟩ | ⟨rfl, rfl⟩ <;> obtain ⟨i', rfl⟩ := head_some (accepts_term h2) <;>
    simp only [Rhs.push.injEq, reduceCtorEq, false_and, or_false] at h3 <;> obtain ⟨l, rfl, h3⟩ := h3
  · exact spellCase_ill (u := [97, 115]) .ascii [99, 105, 105] rfl (fun _ => rfl) (Run.any.ill h3)
  · have h4 := Run.any.ill h3
    clear h h3 h2
    obtain ⟨p, r, h1, h2, h3⟩ := Ill.rules (x := .p) (st := st) h4
    simp only [Parse.rules, rules_p, List.mem_cons, List.not_mem_nil, or_false, Prod.mk.injEq] at h1
    rcases h1 with ⟨rfl, rfl⟩ | ⟨rfl, rfl⟩ <;> obtain ⟨i', rfl⟩ := head_some (accepts_term h2) <;>
      simp only [Rhs.push.injEq, reduceCtorEq, false_and, or_false] at h3 <;> obtain ⟨l, rfl, h3⟩ := h3
    · exact spellCase_ill (u := [97, 108, 112]) .alpha [104, 97] rfl (fun _ => rfl) (Run.any.ill h3)
    · exact spellCase_ill (u := [97, 108, 110]) .alnum [117, 109] rfl (fun _ => rfl) (Run.any.ill h3)

theorem h_ill {n : Nat} {i : List Nat} (h : Ill P n i (.nt .h :: st) ⟨stk, k⟩) :
    ∃ (p : Posix) (rest : List Nat) (x : CC), 112 :: i = p.name ++ rest ∧ Ill P n rest st ⟨.re (.cc x) :: stk, k⟩ := by
  obtain ⟨p, r, h1, h2, h3⟩ := h.rules
  simp only [Parse.rules, rules_h, List.mem_cons, List.not_mem_nil, or_false, Prod.mk.injEq] at h1
  rcases h1 with ⟨rfl, rfl⟩ | ⟨rfl, rfl⟩ <;> obtain ⟨i', rfl⟩ := head_some (accepts_term h2) <;>
    simp only [Rhs.push.injEq, reduceCtorEq, false_and, or_false] at h3 <;> obtain ⟨l, rfl, h3⟩ := h3
  · exact spellCase_ill (u := [112, 114]) .print [105, 110, 116] rfl (fun _ => rfl) (Run.any.ill h3)
  · exact spellCase_ill (u := [112, 117]) .punct [110, 99, 116] rfl (fun _ => rfl) (Run.any.ill h3)

theorem classNamedName_ill {n : Nat} {i : List Nat} (h : Ill P n i (.nt .classNamedName :: st) ⟨stk, k⟩) :
    ∃ (p : Posix) (rest : List Nat) (x : CC), i = p.name ++ rest ∧ Ill P n rest st ⟨.re (.cc x) :: stk, k⟩ := by
  obtain ⟨p, r, h1, h2, h3⟩ := h.rules
  simp only [Parse.rules, rules_classNamedName, List.mem_cons, List.not_mem_nil, or_false, Prod.mk.injEq] at h1
  repeat' (refine Or.elim h1 ?_ ?_ <;> clear h1 <;> intro h1)
  all_goals
    obtain ⟨rfl, rfl⟩ := h1
    simp only [Rhs.push.injEq, reduceCtorEq, false_and, or_false] at h3
    obtain ⟨l, rfl, h3⟩ := h3
    obtain ⟨i', rfl⟩ := head_some (accepts_term h2)
  · exact spellCase_ill (u := [120]) .xdigit _ rfl (fun _ => rfl) (Run.any.ill h3)
  · exact spellCase_ill (u := [100]) .digit _ rfl (fun _ => rfl) (Run.any.ill h3)
  · exact spellCase_ill (u := [98]) .blank _ rfl (fun _ => rfl) (Run.any.ill h3)
  · exact spellCase_ill (u := [99]) .cntrl _ rfl (fun _ => rfl) (Run.any.ill h3)
  · exact spellCase_ill (u := [119]) .word _ rfl (fun _ => rfl) (Run.any.ill h3)
  · exact spellCase_ill (u := [108]) .lower _ rfl (fun _ => rfl) (Run.any.ill h3)
  · exact spellCase_ill (u := [115]) .space _ rfl (fun _ => rfl) (Run.any.ill h3)
  · exact spellCase_ill (u := [117]) .upper _ rfl (fun _ => rfl) (Run.any.ill h3)
  · exact spellCase_ill (u := [103]) .graph _ rfl (fun _ => rfl) (Run.any.ill h3)
  · exact g_ill (Run.any.ill h3)
  · exact h_ill (Run.any.ill h3)

theorem posix_ill {n : Nat} {i : List Nat} (h : Ill P n i (.nt .i :: st) ⟨stk, k⟩) :
    ∃ (neg : Bool) (p : Posix) (rest : List Nat) (x : CC), i = (if neg then [94] else []) ++ (p.name ++ 58 :: 93 :: rest) ∧
      Ill P n rest st ⟨.re (.cc x) :: stk, k⟩ := by
  have close : ∀ {i : List Nat}, (∃ (p : Posix) (rest : List Nat) (x : CC), i = p.name ++ rest ∧
      Ill P n rest (.term 58 :: .term 93 :: st) ⟨.re (.cc x) :: stk, k⟩) →
      ∃ (p : Posix) (rest : List Nat) (x : CC), i = p.name ++ 58 :: 93 :: rest ∧ Ill P n rest st ⟨.re (.cc x) :: stk, k⟩ := by
    rintro _ ⟨p, rest, x, rfl, h⟩
    obtain ⟨_, rfl, h'⟩ := h.term
    obtain ⟨_, rfl, h''⟩ := h'.term
    exact ⟨p, _, x, rfl, h''⟩
  have plain : ∀ {i : List Nat}, (∃ (p : Posix) (rest : List Nat) (x : CC), i = p.name ++ 58 :: 93 :: rest ∧
      Ill P n rest st ⟨.re (.cc x) :: stk, k⟩) →
    ∃ (neg : Bool) (p : Posix) (rest : List Nat) (x : CC), i = (if neg then [94] else []) ++ (p.name ++ 58 :: 93 :: rest) ∧
      Ill P n rest st ⟨.re (.cc x) :: stk, k⟩ :=
    fun ⟨p, rest, x, h, h'⟩ => ⟨false, p, rest, x, h, h'⟩
  obtain ⟨p, r, h1, h2, h3⟩ := h.rules
  simp only [Parse.rules, rules_i, List.mem_cons, List.not_mem_nil, or_false, Prod.mk.injEq] at h1
  repeat' (refine Or.elim h1 ?_ ?_ <;> clear h1 <;> intro h1)
  all_goals
    obtain ⟨rfl, rfl⟩ := h1
    simp only [Rhs.push.injEq, reduceCtorEq, false_and, or_false] at h3
    obtain ⟨l, rfl, h3⟩ := h3
    obtain ⟨i', rfl⟩ := head_some (accepts_term h2)
  · obtain ⟨p, rest, x, rfl, h4⟩ := classNamedName_ill (st := .act .negateClassNamed :: .term 58 :: .term 93 :: st) (Run.any.ill h3)
    obtain ⟨p', rest', x', e, h5⟩ := close ⟨p, rest, _, rfl, h4.act1 fun _ => rfl⟩
    exact ⟨true, p', rest', x', by rw [e]; rfl, h5⟩
  · exact plain (close (spellCase_ill (u := [120]) .xdigit _ rfl (fun _ => rfl) (Run.any.ill h3)))
  · exact plain (close (spellCase_ill (u := [100]) .digit _ rfl (fun _ => rfl) (Run.any.ill h3)))
  · exact plain (close (spellCase_ill (u := [98]) .blank _ rfl (fun _ => rfl) (Run.any.ill h3)))
  · exact plain (close (spellCase_ill (u := [99]) .cntrl _ rfl (fun _ => rfl) (Run.any.ill h3)))
  · exact plain (close (spellCase_ill (u := [119]) .word _ rfl (fun _ => rfl) (Run.any.ill h3)))
  · exact plain (close (spellCase_ill (u := [108]) .lower _ rfl (fun _ => rfl) (Run.any.ill h3)))
  · exact plain (close (spellCase_ill (u := [115]) .space _ rfl (fun _ => rfl) (Run.any.ill h3)))
  · exact plain (close (spellCase_ill (u := [117]) .upper _ rfl (fun _ => rfl) (Run.any.ill h3)))
  · exact plain (close (spellCase_ill (u := [103]) .graph _ rfl (fun _ => rfl) (Run.any.ill h3)))
  · exact plain (close (g_ill (Run.any.ill h3)))
  · exact plain (close (h_ill (Run.any.ill h3)))

/-- The three forms of an item of a set. -/
def setItem (v : Nat) (x : NT) : List Sym :=
  if v = 91 then [.any, .term 58, .nt .i, .nt .rangeNT] else if v = 92 then [.any, .nt x] else [.any, .act .pushCharacter, .nt .rangeNT]

theorem setItem_ill {n v : Nat} {i : List Nat} (hs : Clean false stk) {x : NT} (hx : x = .e ∨ x = .f)
    (h : Ill P n (v :: i) (setItem v x ++ st) ⟨stk, k⟩) :
    Undecided P.find (v :: i) ∨ ∃ u rest a, v :: i = u ++ rest ∧ Ill P n rest st ⟨.re (.cc a) :: stk, k⟩ := by
  unfold setItem at h
  split at h
  · subst v
    obtain ⟨i', rfl, h1⟩ := Ill.term (st := .nt .i :: .nt .rangeNT :: st) (Run.any.ill h)
    obtain ⟨neg, p, rest, a, rfl, h2⟩ := posix_ill h1
    by_cases hr : rest.head? = some 45
    · obtain ⟨r, rfl⟩ := head_some hr
      exact .inl (undecided_of r (.posix neg p) (by simp))
    · exact .inr ⟨91 :: 58 :: ((if neg then [94] else []) ++ (p.name ++ [58, 93])), rest, a, by simp, h2.eps (range_eps hr)⟩
  · split at h
    · subst v
      exact shift (w := []) _ (escSet_ill hs hx (Run.any.ill h))
    · exact shift (w := []) _ (ranged (w := [v]) (.inr ⟨[], i, _, rfl, char_case (l := .nt .rangeNT :: st) h rfl⟩))

theorem set2b_ill : ∀ {n : Nat} {i : List Nat} {l : List CC}, Ill P n i (.nt .set2b :: st) ⟨.re (.cc (.set l)) :: stk, k⟩ →
    Undecided P.find i ∨ ∃ u rest l', i = u ++ rest ∧ Ill P n rest st ⟨.re (.cc (.set l')) :: stk, k⟩ := by
  intro n
  induction n with
  | zero => rintro i m ⟨v, h⟩; exact h.elim
  | succ n ih =>
    intro i m h
    obtain ⟨m', p, r, e, h1, h2, h3⟩ := h.nt
    cases e
    have item : ∀ {v : Nat} {i : List Nat}, Ill P n (v :: i) (setItem v .f ++ (.act .setCombine :: .nt .set2b :: st)) ⟨.re (.cc (.set m)) :: stk, k⟩ →
        Undecided P.find (v :: i) ∨ ∃ u rest l', v :: i = u ++ rest ∧ Ill P (n + 1) rest st ⟨.re (.cc (.set l')) :: stk, k⟩ := by
      intro v i h
      rcases setItem_ill (by simp [Clean]) (.inr rfl) h with h | ⟨u, rest, a, e, h⟩
      · exact .inl h
      · rw [e]
        rcases ih (h.act1 fun _ => rfl) with h | ⟨u', rest', l', rfl, h'⟩
        · exact .inl (undecided_append _ h)
        · exact .inr ⟨u ++ u', rest', l', by simp, h'.succ⟩
    simp only [Parse.rules, rules_set2b, List.mem_cons, List.not_mem_nil, or_false, Prod.mk.injEq] at h1
    rcases h1 with ⟨rfl, rfl⟩ | ⟨rfl, rfl⟩ | ⟨rfl, rfl⟩ | ⟨rfl, rfl⟩ | ⟨rfl, rfl⟩ | ⟨rfl, rfl⟩ <;>
      simp only [Rhs.push.injEq, reduceCtorEq, false_and, or_false, exists_false, false_or, true_and] at h3
    · exact .inr ⟨[], i, m, rfl, h3.succ⟩
    · obtain ⟨l, rfl, h3⟩ := h3
      obtain ⟨i', rfl⟩ := head_some (accepts_term h2)
      exact item h3
    · obtain ⟨l, rfl, h3⟩ := h3
      obtain ⟨i', rfl⟩ := head_some (accepts_term h2)
      exact item h3
    · obtain ⟨l, rfl, h3⟩ := h3
      obtain ⟨w, hw, hd⟩ := accepts_set h2
      obtain ⟨i', rfl⟩ := head_some hw
      have := plain_chars12 hd
      simp only [specialInSet, List.mem_cons, List.not_mem_nil, or_false, not_or] at this
      refine item ?_
      rw [setItem, if_neg (by omega), if_neg (by omega)]
      exact h3
    · obtain ⟨l, rfl, h3⟩ := h3
      obtain ⟨w, hw, hd⟩ := accepts_others h2
      obtain ⟨i', rfl⟩ := head_some hw
      have := plain_others hd
      simp only [specialInSet, List.mem_cons, List.not_mem_nil, or_false, not_or] at this
      refine item ?_
      rw [setItem, if_neg (by omega), if_neg (by omega)]
      exact h3

theorem setStart_ill {n v : Nat} {i : List Nat} (hs : Clean false stk) {x : NT} (hx : x = .e ∨ x = .f)
    (h : Ill P n (v :: i) (setItem v x ++ (.act .setStart :: .nt .set2b :: st)) ⟨stk, k⟩) :
    Undecided P.find (v :: i) ∨ ∃ u rest l, v :: i = u ++ rest ∧ Ill P n rest st ⟨.re (.cc (.set l)) :: stk, k⟩ := by
  rcases setItem_ill hs hx h with h | ⟨u, rest, a, e, h⟩
  · exact .inl h
  · rw [e]
    rcases set2b_ill (h.act1 fun _ => rfl) with h | ⟨u', rest', l', rfl, h'⟩
    · exact .inl (undecided_append _ h)
    · exact .inr ⟨u ++ u', rest', l', by simp, h'⟩

theorem set2a_ill {n : Nat} {i : List Nat} (hs : Clean false stk) (h : Ill P n i (.nt .set2a :: st) ⟨stk, k⟩) :
    Undecided P.find i ∨ ∃ u rest l, i = u ++ rest ∧ Ill P n rest st ⟨.re (.cc (.set l)) :: stk, k⟩ := by
  obtain ⟨p, r, h1, h2, h3⟩ := h.rules
  simp only [Parse.rules, rules_set2a, List.mem_cons, List.not_mem_nil, or_false, Prod.mk.injEq] at h1
  rcases h1 with ⟨rfl, rfl⟩ | ⟨rfl, rfl⟩ | ⟨rfl, rfl⟩ | ⟨rfl, rfl⟩ | ⟨rfl, rfl⟩ | ⟨rfl, rfl⟩ <;>
    simp only [Rhs.push.injEq, reduceCtorEq, false_and, or_false, exists_false] at h3 <;> obtain ⟨l, rfl, h3⟩ := h3
  · obtain ⟨i', rfl⟩ := head_some (accepts_term h2)
    exact setStart_ill hs (.inr rfl) h3
  · obtain ⟨i', rfl⟩ := head_some (accepts_term h2)
    exact setStart_ill hs (.inr rfl) h3
  · obtain ⟨w, hw, hd⟩ := accepts_set h2
    obtain ⟨i', rfl⟩ := head_some hw
    have := plain_chars12 hd
    simp only [specialInSet, List.mem_cons, List.not_mem_nil, or_false, not_or] at this
    refine setStart_ill (x := .f) hs (.inr rfl) ?_
    rw [setItem, if_neg (by omega), if_neg (by omega)]
    exact h3
  · obtain ⟨w, hw, hd⟩ := accepts_others h2
    obtain ⟨i', rfl⟩ := head_some hw
    have := plain_others hd
    simp only [specialInSet, List.mem_cons, List.not_mem_nil, or_false, not_or] at this
    refine setStart_ill (x := .f) hs (.inr rfl) ?_
    rw [setItem, if_neg (by omega), if_neg (by omega)]
    exact h3
  · exact .inr ⟨[], i, _, rfl, Ill.act1 h3 fun _ => rfl⟩

theorem set_ill {n : Nat} {i : List Nat} (hs : Clean false stk) (h : Ill P n i (.nt .c :: st) ⟨stk, k⟩) :
    Undecided P.find i ∨ ∃ u rest a, i = u ++ rest ∧ Ill P n rest st ⟨.re (.cc a) :: stk, k⟩ := by
  have close : ∀ {i : List Nat} {a : Act}, (a = .setMake ∨ a = .setMakeNegative) →
      (Undecided P.find i ∨ ∃ u rest l, i = u ++ rest ∧ Ill P n rest (.act a :: .term 93 :: st) ⟨.re (.cc (.set l)) :: stk, k⟩) →
      Undecided P.find i ∨ ∃ u rest a, i = u ++ rest ∧ Ill P n rest st ⟨.re (.cc a) :: stk, k⟩ := by
    rintro i a ha (h | ⟨u, rest, l, rfl, h⟩)
    · exact .inl h
    · right
      rcases ha with rfl | rfl
      · obtain ⟨rest, rfl, h'⟩ := (h.act1 (c1 := ⟨.re (.cc (.set l)) :: stk, k⟩) fun _ => rfl).term
        exact ⟨u ++ [93], rest, _, by simp, h'⟩
      · obtain ⟨rest, rfl, h'⟩ := (h.act1 (c1 := ⟨.re (.cc (.negSet l)) :: stk, k⟩) fun _ => rfl).term
        exact ⟨u ++ [93], rest, _, by simp, h'⟩
  obtain ⟨p, r, h1, h2, h3⟩ := h.rules
  simp only [Parse.rules, rules_c, List.mem_cons, List.not_mem_nil, or_false, Prod.mk.injEq] at h1
  rcases h1 with ⟨rfl, rfl⟩ | ⟨rfl, rfl⟩ | ⟨rfl, rfl⟩ | ⟨rfl, rfl⟩ | ⟨rfl, rfl⟩ | ⟨rfl, rfl⟩ <;>
    simp only [Rhs.push.injEq, reduceCtorEq, false_and, or_false, exists_false] at h3 <;> obtain ⟨l, rfl, h3⟩ := h3
  · obtain ⟨i', rfl⟩ := head_some (accepts_term h2)
    exact close (.inl rfl) (setStart_ill (x := .e) hs (.inl rfl) h3)
  · obtain ⟨i', rfl⟩ := head_some (accepts_term h2)
    exact close (.inl rfl) (setStart_ill (x := .e) hs (.inl rfl) h3)
  · obtain ⟨w, hw, hd⟩ := accepts_set h2
    obtain ⟨i', rfl⟩ := head_some hw
    have := plain_chars8 hd
    simp only [specialInSet, List.mem_cons, List.not_mem_nil, or_false, not_or] at this
    refine close (.inl rfl) (setStart_ill (x := .e) hs (.inl rfl) ?_)
    rw [setItem, if_neg (by omega), if_neg (by omega)]
    exact h3
  · obtain ⟨w, hw, hd⟩ := accepts_others h2
    obtain ⟨i', rfl⟩ := head_some hw
    have := plain_others hd
    simp only [specialInSet, List.mem_cons, List.not_mem_nil, or_false, not_or] at this
    refine close (.inl rfl) (setStart_ill (x := .e) hs (.inl rfl) ?_)
    rw [setItem, if_neg (by omega), if_neg (by omega)]
    exact h3
  · obtain ⟨i', rfl⟩ := head_some (accepts_term h2)
    rcases close (.inr rfl) (set2a_ill (st := .act .setMakeNegative :: .term 93 :: st) hs (Run.any.ill h3)) with h | ⟨u, rest, a, e, h⟩
    · exact .inl (undecided_cons _ h)
    · exact .inr ⟨94 :: u, rest, a, by rw [e]; rfl, h⟩


/-! ### Quantifiers -/

theorem makeOptional_cases (r : Re) : (∃ l, makeOptional r = .rep .greedy 0 1 l) ∨ ∃ l, makeOptional r = .rep .lazy 0 1 l := by
  unfold makeOptional
  split
  · exact .inl ⟨_, rfl⟩
  · exact .inl ⟨_, rfl⟩
  · exact .inr ⟨_, rfl⟩
  · exact .inl ⟨_, rfl⟩

theorem modr_ill {n : Nat} {i : List Nat} {r : Re} (hr : (∃ a b l, r = .rep .greedy a b l) ∨ ∃ l, r = .rep .lazy 0 1 l)
    (h : Ill P n i (.nt .modr :: st) ⟨.re r :: stk, k⟩) :
    ((¬ ∃ a b l, r = .rep .greedy a b l) ∧ i.head? = some 43) ∨
      ∃ u rest r', i = u ++ rest ∧ (Rot r → Rot r') ∧ Ill P n rest st ⟨.re r' :: stk, k⟩ := by
  obtain ⟨p, r', h1, h2, h3⟩ := h.rules
  simp only [Parse.rules, rules_modr, List.mem_cons, List.not_mem_nil, or_false, Prod.mk.injEq] at h1
  rcases h1 with ⟨rfl, rfl⟩ | ⟨rfl, rfl⟩ | ⟨rfl, rfl⟩ | ⟨rfl, rfl⟩ | ⟨rfl, rfl⟩ | ⟨rfl, rfl⟩ <;>
    simp only [Rhs.push.injEq, reduceCtorEq, false_and, or_false, exists_false, false_or, true_and] at h3
  · exact .inr ⟨[], i, r, rfl, id, h3⟩
  · exact .inr ⟨[], i, r, rfl, id, h3⟩
  · exact .inr ⟨[], i, r, rfl, id, h3⟩
  · obtain ⟨i', rfl⟩ := head_some (accepts_term h2)
    obtain ⟨l, rfl, h3⟩ := h3
    have h4 := Run.any.ill h3
    right
    rcases hr with ⟨a, b, l, rfl⟩ | ⟨l, rfl⟩
    · exact ⟨[63], i', _, rfl, fun h => rot_rep.2 (rot_rep.1 h), Ill.act1 h4 fun _ => rfl⟩
    · exact ⟨[63], i', _, rfl, fun h => rot_rep.2 (rot_rep.1 h), Ill.act1 h4 fun _ => rfl⟩
  · obtain ⟨i', rfl⟩ := head_some (accepts_term h2)
    obtain ⟨l, rfl, h3⟩ := h3
    have h4 := Run.any.ill h3
    rcases hr with ⟨a, b, l, rfl⟩ | ⟨l, rfl⟩
    · exact .inr ⟨[43], i', _, rfl, fun h => rot_rep.2 (rot_rep.1 h), Ill.act1 h4 fun _ => rfl⟩
    · exact .inl ⟨by simp, rfl⟩

theorem rept_ill {n : Nat} {i : List Nat} {r : Re} (h : Ill P n i (.nt .rept :: st) ⟨.re r :: stk, k⟩) :
    (¬ OptOK r ∧ ∃ b, i = 63 :: 43 :: b) ∨ ∃ u rest r', i = u ++ rest ∧ (Rot r → Rot r') ∧ Ill P n rest st ⟨.re r' :: stk, k⟩ := by
  have greedy : ∀ {w i : List Nat} {a b : Nat}, Ill P n i (.nt .modr :: st) ⟨.re (.rep .greedy a b (unpack r)) :: stk, k⟩ →
      ∃ u rest r', w ++ i = u ++ rest ∧ (Rot r → Rot r') ∧ Ill P n rest st ⟨.re r' :: stk, k⟩ := by
    intro w i a b h
    rcases modr_ill (.inl ⟨a, b, _, rfl⟩) h with ⟨h, _⟩ | ⟨u, rest, r', rfl, h1, h2⟩
    · exact (h ⟨a, b, _, rfl⟩).elim
    · exact ⟨w ++ u, rest, r', by simp, fun hr => h1 (rot_rep.2 (rot_unpack hr)), h2⟩
  obtain ⟨p, r', h1, h2, h3⟩ := h.rules
  clear h
  simp only [Parse.rules, rules_rept, List.mem_cons, List.not_mem_nil, or_false, Prod.mk.injEq] at h1
  rcases h1 with ⟨rfl, rfl⟩ | ⟨rfl, rfl⟩ | ⟨rfl, rfl⟩ | ⟨rfl, rfl⟩ | ⟨rfl, rfl⟩ | ⟨rfl, rfl⟩ | ⟨rfl, rfl⟩ | ⟨rfl, rfl⟩ <;>
    simp only [Rhs.push.injEq, reduceCtorEq, false_and, or_false, exists_false, false_or, true_and] at h3
  · exact .inr ⟨[], i, r, rfl, id, h3⟩
  · exact .inr ⟨[], i, r, rfl, id, h3⟩
  · exact .inr ⟨[], i, r, rfl, id, h3⟩
  · obtain ⟨i', rfl⟩ := head_some (accepts_term h2)
    obtain ⟨l, rfl, h3⟩ := h3
    have h4 := Ill.act1 (c1 := ⟨.re (makeOptional r) :: stk, k⟩) (st := .nt .modr :: st) (Run.any.ill h3) (fun _ => rfl)
    have hc : (∃ a b l, makeOptional r = .rep .greedy a b l) ∨ ∃ l, makeOptional r = .rep .lazy 0 1 l :=
      (makeOptional_cases r).imp (fun ⟨l, e⟩ => ⟨0, 1, l, e⟩) id
    rcases modr_ill hc h4 with ⟨h, h'⟩ | ⟨u, rest, r', rfl, h1, h2⟩
    · obtain ⟨b, rfl⟩ := head_some h'
      exact .inl ⟨fun ⟨l, e⟩ => h ⟨0, 1, l, e⟩, b, rfl⟩
    · exact .inr ⟨63 :: u, rest, r', rfl, fun hr => h1 (rot_makeOptional hr), h2⟩
  · right
    obtain ⟨i', rfl⟩ := head_some (accepts_term h2)
    obtain ⟨l, rfl, h3⟩ := h3
    obtain ⟨u, rest, m, rfl, h4⟩ := number_ill (st := .nt .b :: st) (Run.any.ill h3)
    clear h2 h3
    obtain ⟨p, r', h1, h2, h3⟩ := Ill.rules (x := .b) (st := st) h4
    simp only [Parse.rules, rules_b, List.mem_cons, List.not_mem_nil, or_false, Prod.mk.injEq] at h1
    rcases h1 with ⟨rfl, rfl⟩ | ⟨rfl, rfl⟩ <;>
      simp only [Rhs.push.injEq, reduceCtorEq, false_and, or_false, exists_false, false_or, true_and] at h3 <;> obtain ⟨l, rfl, h3⟩ := h3
    · obtain ⟨i', rfl⟩ := head_some (accepts_term h2)
      have h5 := Run.any.ill h3
      clear h2 h3 h4
      obtain ⟨p, r', h1, h2, h3⟩ := Ill.rules (x := .n) (st := st) h5
      simp only [Parse.rules, rules_n, List.mem_cons, List.not_mem_nil, or_false, Prod.mk.injEq] at h1
      rcases h1 with ⟨rfl, rfl⟩ | ⟨rfl, rfl⟩ <;>
        simp only [Rhs.push.injEq, reduceCtorEq, false_and, or_false, exists_false, false_or, true_and] at h3 <;> obtain ⟨l, rfl, h3⟩ := h3
      · obtain ⟨u', rest, m', rfl, h6⟩ := number_ill (st := .act .repeatAb :: .term 125 :: .nt .modr :: st) h3
        obtain ⟨rest, rfl, h7⟩ := (h6.act1 (c1 := ⟨.re (.rep .greedy m m' (unpack r)) :: stk, k⟩) fun _ => rfl).term
        have := greedy (w := 123 :: (u ++ 44 :: (u' ++ [125]))) h7
        simpa using this
      · obtain ⟨i', rfl⟩ := head_some (accepts_term h2)
        have h6 := Run.any.ill (Ill.act1 (c1 := ⟨.re (.rep .greedy m 0 (unpack r)) :: stk, k⟩) (st := .any :: .nt .modr :: st) h3 fun _ => rfl)
        have := greedy (w := 123 :: (u ++ [44, 125])) h6
        simpa using this
    · obtain ⟨i', rfl⟩ := head_some (accepts_term h2)
      have h6 := Run.any.ill (Ill.act1 (c1 := ⟨.re (.rep .greedy m m (unpack r)) :: stk, k⟩) (st := .any :: st) h3 fun _ => rfl)
      exact ⟨123 :: (u ++ [125]), i', _, by simp, fun hr => rot_rep.2 (rot_unpack hr), h6⟩
  · obtain ⟨i', rfl⟩ := head_some (accepts_term h2)
    obtain ⟨l, rfl, h3⟩ := h3
    exact .inr (greedy (w := [43]) (Ill.act1 (Run.any.ill h3) fun _ => rfl))
  · obtain ⟨i', rfl⟩ := head_some (accepts_term h2)
    obtain ⟨l, rfl, h3⟩ := h3
    exact .inr (greedy (w := [42]) (Ill.act1 (Run.any.ill h3) fun _ => rfl))

/-! ### Groups, concatenations and alternatives -/

/-- A group that switches the mode stands in the text. -/
def HasMode (u : List Nat) : Prop := ∃ a b x, x ∈ modeLetters ∧ u = a ++ [40, 63, x, 41] ++ b

theorem HasMode.left {u : List Nat} (h : HasMode u) (w : List Nat) : HasMode (w ++ u) := by
  obtain ⟨a, b, x, hx, rfl⟩ := h
  exact ⟨w ++ a, b, x, hx, by simp⟩

theorem HasMode.right {u : List Nat} (h : HasMode u) (w : List Nat) : HasMode (u ++ w) := by
  obtain ⟨a, b, x, hx, rfl⟩ := h
  exact ⟨a, b ++ w, x, hx, by simp⟩

/-- The text begins with a reference by name, and there is an unfinished name on the stack. -/
def RefLead (stk : List PItem) (i : List Nat) : Prop :=
  ¬ Clean true stk ∧ ∃ m x i', i = opens m ++ 92 :: 103 :: 123 :: x :: i' ∧ isNameStart x

/-- Something was read, and a pattern is on the stack. -/
def StepIll (P : PropTable) (n : Nat) (i : List Nat) (st : List Sym) (stk : List PItem) (R : Prop) : Prop :=
  ∃ u rest r k', i = u ++ rest ∧ (R → Rot r ∨ HasMode u) ∧ Ill P n rest st ⟨.re r :: stk, k'⟩

theorem StepIll.succ {n : Nat} {i : List Nat} {R : Prop} (h : StepIll P n i st stk R) : StepIll P (n + 1) i st stk R := by
  obtain ⟨u, rest, r, k', h1, h2, h3⟩ := h
  exact ⟨u, rest, r, k', h1, h2, h3.succ⟩

structure MainIll (P : PropTable) (n : Nat) : Prop where
  string2 : ∀ {i : List Nat} {st : List Sym} {stk : List PItem} {k : Nat} {r : Re}, Ill P n i (.nt .string2 :: st) ⟨.re r :: stk, k⟩ →
    Undecided P.find i ∨ StepIll P n i st stk (Rot r)
  content2 : ∀ {i : List Nat} {st : List Sym} {stk : List PItem} {k : Nat} {r : Re}, Ill P n i (.nt .content2 :: st) ⟨.re r :: stk, k⟩ →
    Undecided P.find i ∨ StepIll P n i st stk (Rot r)
  block : ∀ {i : List Nat} {st : List Sym} {stk : List PItem} {k id : Nat}, Clean false stk →
    Ill P n i (.nt .block :: st) ⟨.capId id :: stk, k⟩ →
    Undecided P.find (40 :: i) ∨ RefLead stk (40 :: i) ∨ ∃ u rest r k', i = u ++ 41 :: rest ∧ (OptOK r ∨ ∃ u', u = 63 :: 58 :: u') ∧
      (Rot r ∨ HasMode (40 :: (u ++ [41]))) ∧ Ill P n rest st ⟨.re r :: stk, k'⟩
  inCapture : ∀ {i : List Nat} {st : List Sym} {stk : List PItem} {k : Nat}, Clean false stk →
    Ill P n i (.nt .contentInCapture :: st) ⟨stk, k⟩ → Undecided P.find i ∨ RefLead stk i ∨ StepIll P n i st stk True

theorem lead_clean {i : List Nat} (hs : Clean true stk) : ¬ RefLead stk i := fun h => h.1 hs

/-- After an item, its quantifier. -/
theorem quantified {n : Nat} {v : Nat} {w i : List Nat} {r : Re} (ho : OptOK r) (hr : Rot r) (h : Ill P n i (.nt .rept :: st) ⟨.re r :: stk, k⟩) :
    StepIll P n (v :: (w ++ i)) st stk True := by
  rcases rept_ill h with ⟨h, _⟩ | ⟨u, rest, r', rfl, h1, h2⟩
  · exact (h ho).elim
  · exact ⟨v :: (w ++ u), rest, r', k, by simp, fun _ => .inl (h1 hr), h2⟩

theorem item_ill {n : Nat} (M : MainIll P n) (hs : Clean false stk) {v : Nat} {i : List Nat}
    (h : Ill P n (v :: i) (itemHead v ++ .nt .rept :: st) ⟨stk, k⟩) :
    Undecided P.find (v :: i) ∨ RefLead stk (v :: i) ∨ StepIll P n (v :: i) st stk True := by
  unfold itemHead at h
  repeat' split at h
  · subst v
    rcases backslash_ill (st := .nt .rept :: st) hs (Run.any.ill h) with h | ⟨hc, x, i', rfl, hx⟩ | ⟨u, rest, r, rfl, h1, h2, h3⟩
    · exact .inl h
    · exact .inr (.inl ⟨hc, 0, x, i', rfl, hx⟩)
    · exact .inr (.inr (quantified h1 h2 h3))
  · subst v
    rcases set_ill (st := .nt .rept :: st) hs (Run.any.ill h) with h | ⟨u, rest, a, rfl, h3⟩
    · exact .inl (undecided_cons _ h)
    · exact .inr (.inr (quantified ⟨_, rfl⟩ rot_cc h3))
  · subst v
    have h1 : Ill P n i (.nt .block :: .nt .rept :: st) ⟨.capId (k + 1) :: stk, k + 1⟩ := Ill.act1 (Run.any.ill h) fun _ => rfl
    rcases M.block hs h1 with h | h | ⟨u, rest, r, k', rfl, h2, h3, h4⟩
    · exact .inl h
    · exact .inr (.inl h)
    · rcases rept_ill h4 with ⟨hn, b, rfl⟩ | ⟨u', rest', r', rfl, h5, h6⟩
      · rcases h2 with h2 | ⟨u', rfl⟩
        · exact (hn h2).elim
        · exact .inl (undecided_of b (.possessive u') (by simp))
      · refine .inr (.inr ⟨40 :: (u ++ 41 :: u'), rest', r', k', by simp, fun _ => ?_, h6⟩)
        rcases h3 with h3 | h3
        · exact .inl (h5 h3)
        · right
          have := h3.right u'
          simpa using this
  · exact .inr (.inr (quantified (w := []) ⟨_, rfl⟩ (by simp [Rot, Re.rotate]) ((Run.anyAct (c' := ⟨.re .lBegin :: stk, k⟩) rfl).ill h)))
  · exact .inr (.inr (quantified (w := []) ⟨_, rfl⟩ (by simp [Rot, Re.rotate]) ((Run.anyAct (c' := ⟨.re .lEnd :: stk, k⟩) rfl).ill h)))
  · exact .inr (.inr (quantified (w := []) ⟨_, rfl⟩ (by simp [Rot, Re.rotate]) ((Run.anyAct (c' := ⟨.re .any :: stk, k⟩) rfl).ill h)))
  · exact .inr (.inr (quantified (w := []) ⟨_, rfl⟩ rot_cc ((Run.anyAct (c' := ⟨.re (.cc (.chr v)) :: stk, k⟩) rfl).ill h)))

/-- One piece after the other. -/
theorem StepIll.then {n : Nat} {x : NT} {i : List Nat} {R : Prop} (h : StepIll P n i (.nt x :: st) stk R)
    (hx : ∀ {i : List Nat} {k : Nat} {r : Re}, Ill P n i (.nt x :: st) ⟨.re r :: stk, k⟩ → Undecided P.find i ∨ StepIll P n i st stk (Rot r)) :
    Undecided P.find i ∨ StepIll P n i st stk R := by
  obtain ⟨u, rest, r, k', rfl, h1, h2⟩ := h
  rcases hx h2 with h | ⟨u', rest', r', k'', rfl, h3, h4⟩
  · exact .inl (undecided_append _ h)
  · refine .inr ⟨u ++ u', rest', r', k'', by simp, fun hR => ?_, h4⟩
    rcases h1 hR with h | h
    · exact (h3 h).imp id fun h => h.left u
    · exact .inr (h.right u')

/-- Items, quantifiers and what follows. -/
theorem entry_ill {n : Nat} (M : MainIll P n) (hs : Clean false stk) {v : Nat} {i : List Nat} {tl : List Sym}
    (h : Ill P n (v :: i) (itemHead v ++ [.nt .rept, .nt .string2] ++ .nt .content2 :: tl) ⟨stk, k⟩) :
    Undecided P.find (v :: i) ∨ RefLead stk (v :: i) ∨ StepIll P n (v :: i) tl stk True := by
  rw [List.append_assoc] at h
  rcases item_ill (st := .nt .string2 :: .nt .content2 :: tl) M hs h with h | h | h
  · exact .inl h
  · exact .inr (.inl h)
  · rcases h.then M.string2 with h | h
    · exact .inl h
    · rcases h.then M.content2 with h | h
      · exact .inl h
      · exact .inr (.inr h)

theorem Ill.pushS {n : Nat} {i : List Nat} {c : Ctx} {x : NT} (h : Ill P (n + 1) i (.nt x :: st) c) :
    (∃ l, rule x i.head? = .push l ∧ Ill P n i (l ++ st) c) ∨ (rule x i.head? = .eps ∧ Ill P n i st c) := by
  obtain ⟨m, p, r, e, h1, h2, h3⟩ := h.nt
  cases e
  rw [rule_of_mem h1 h2]
  exact h3

/-- The rule for the first character is not `reject`. -/
theorem Ill.rule_ne {n : Nat} {i : List Nat} {c : Ctx} {x : NT} (h : Ill P n i (.nt x :: st) c) : rule x i.head? ≠ .reject := by
  obtain ⟨p, r, h1, h2, h3⟩ := h.rules
  rw [rule_of_mem h1 h2]
  rintro rfl
  rcases h3 with ⟨_, h, _⟩ | ⟨h, _⟩ <;> cases h

/-- After a `|` at the beginning. -/
theorem lead_ill {n : Nat} (M : MainIll P n) {i : List Nat} {x : NT} (hx : x = .contentOrEmpty ∨ x = .optContent)
    (h : Ill P n i (.nt x :: st) ⟨.re .empty :: stk, k⟩) :
    Undecided P.find i ∨ StepIll P n i st (.re .empty :: stk) True := by
  have hempty : rule x i.head? = .push [.act .pushEmpty] → StepIll P n i st (.re .empty :: stk) True := fun hr =>
    ⟨[], i, .empty, k, rfl, fun _ => .inl (by simp [Rot, Re.rotate]), Ill.act1 (h.push hr) fun _ => rfl⟩
  cases i with
  | nil =>
    rcases hx with rfl | rfl
    · exact (h.rule_ne rfl).elim
    · exact .inr (hempty rfl)
  | cons w u =>
    by_cases hw' : w ∈ noItem
    · rcases hx with rfl | rfl <;> rcases mem_noItem.1 hw' with rfl | rfl | rfl | rfl | rfl | rfl | rfl <;>
        first
          | exact .inr (hempty rfl)
          | exact (h.rule_ne rfl).elim
    · have : entryTail x = some [.nt .content2] := by rcases hx with rfl | rfl <;> rfl
      have h1 := h.push (entry_rule this hw')
      rw [List.append_assoc] at h1
      rcases entry_ill (tl := st) M (by simp [Clean]) h1 with h | h | h
      · exact .inl h
      · exact (lead_clean (by simp [Clean]) h).elim
      · exact .inr h

theorem alternate_step {n : Nat} {i : List Nat} {r0 : Re} {R : Prop} (h : StepIll P n i (.act .makeAlternate :: st) (.re r0 :: stk) True)
    (hR : R → Rot r0) : StepIll P n i st stk R := by
  obtain ⟨u, rest, r, k', rfl, h1, h2⟩ := h
  refine ⟨u, rest, makeAlternate r r0, k', rfl, fun h => ?_, h2.act1 fun _ => rfl⟩
  exact (h1 trivial).imp (fun h' => rot_makeAlternate h' (hR h)) id

theorem string2_succ {n : Nat} (M : MainIll P n) {i : List Nat} {r : Re} (h : Ill P (n + 1) i (.nt .string2 :: st) ⟨.re r :: stk, k⟩) :
    Undecided P.find i ∨ StepIll P (n + 1) i st stk (Rot r) := by
  cases i with
  | nil => exact .inr ⟨[], [], r, k, rfl, .inl, h.eps rfl⟩
  | cons w u =>
    by_cases hw' : w ∈ noItem
    · rcases mem_noItem.1 hw' with rfl | rfl | rfl | rfl | rfl | rfl | rfl <;>
        first
          | exact .inr ⟨[], _, r, k, rfl, .inl, h.eps rfl⟩
          | exact (h.rule_ne rfl).elim
    · have e := entry_rule (x := .string2) rfl hw'
      rcases h.pushS with ⟨l, h1, h2⟩ | ⟨h1, _⟩
      · rw [List.head?_cons, e] at h1
        cases h1
        simp only [List.append_assoc, List.cons_append, List.nil_append] at h2
        rcases item_ill M (by simp [Clean]) h2 with h | h | h
        · exact .inl h
        · exact (lead_clean (by simp [Clean]) h).elim
        · rcases h.then M.string2 with h | ⟨u', rest, r', k', e, h3, h4⟩
          · exact .inl h
          · refine .inr ⟨u', rest, _, k', e, fun hr => ?_, (h4.act1 fun _ => rfl).succ⟩
            exact (h3 trivial).imp (fun h => rot_makeSequence h hr) id
      · rw [List.head?_cons, e] at h1
        cases h1

theorem content2_succ {n : Nat} (M : MainIll P n) {i : List Nat} {r : Re} (h : Ill P (n + 1) i (.nt .content2 :: st) ⟨.re r :: stk, k⟩) :
    Undecided P.find i ∨ StepIll P (n + 1) i st stk (Rot r) := by
  rcases h.pushS with ⟨l, h1, h2⟩ | ⟨h1, h2⟩
  · have h124 : i.head? = some 124 := by
      obtain ⟨m, p, r, e, h1', h2', h3'⟩ := h.nt
      rw [rule_of_mem h1' h2'] at h1
      simp only [Parse.rules, rules_content2, List.mem_cons, List.not_mem_nil, or_false, Prod.mk.injEq] at h1'
      subst h1
      rcases h1' with ⟨_, h⟩ | ⟨_, h⟩ | ⟨rfl, _⟩
      · cases h
      · cases h
      · exact accepts_term h2'
    obtain ⟨i', rfl⟩ := head_some h124
    cases h1
    have h3 : Ill P n i' (.nt .a :: st) ⟨.re r :: stk, k⟩ := Run.any.ill h2
    have finish : Undecided P.find i' ∨ StepIll P n i' (.act .makeAlternate :: st) (.re r :: stk) True →
        Undecided P.find (124 :: i') ∨ StepIll P (n + 1) (124 :: i') st stk (Rot r) := by
      rintro (h | h)
      · exact .inl (undecided_cons _ h)
      · obtain ⟨u, rest, r', k', rfl, h4, h5⟩ := (alternate_step h id).succ
        exact .inr ⟨124 :: u, rest, r', k', rfl, fun hr => (h4 hr).imp id fun h => h.left [124], h5⟩
    refine finish ?_
    have hempty : rule .a i'.head? = .push [.act .pushEmpty, .act .makeAlternate] →
        StepIll P n i' (.act .makeAlternate :: st) (.re r :: stk) True := fun hr =>
      ⟨[], i', .empty, k, rfl, fun _ => .inl (by simp [Rot, Re.rotate]), Ill.act1 (h3.push hr) fun _ => rfl⟩
    cases i' with
    | nil => exact .inr (hempty rfl)
    | cons w u =>
      by_cases hw' : w ∈ noItem
      · rcases mem_noItem.1 hw' with rfl | rfl | rfl | rfl | rfl | rfl | rfl <;>
          first
            | exact .inr (hempty rfl)
            | exact (h3.rule_ne rfl).elim
      · have h4 := h3.push (entry_rule (x := .a) rfl hw')
        rw [List.append_assoc] at h4
        rcases entry_ill (tl := .act .makeAlternate :: st) M (by simp [Clean]) h4 with h | h | h
        · exact .inl h
        · exact (lead_clean (by simp [Clean]) h).elim
        · exact .inr h
  · exact .inr ⟨[], i, r, k, rfl, .inl, h2.succ⟩

theorem inCapture_succ {n : Nat} (M : MainIll P n) {i : List Nat} (hs : Clean false stk)
    (h : Ill P (n + 1) i (.nt .contentInCapture :: st) ⟨stk, k⟩) :
    Undecided P.find i ∨ RefLead stk i ∨ StepIll P (n + 1) i st stk True := by
  cases i with
  | nil => exact (h.rule_ne rfl).elim
  | cons w u =>
    by_cases hw' : w ∈ noItem
    · rcases mem_noItem.1 hw' with rfl | rfl | rfl | rfl | rfl | rfl | rfl
      · exact .inr (.inr ⟨[], _, .empty, k, rfl, fun _ => .inl (by simp [Rot, Re.rotate]), Ill.act1 (h.push rfl) fun _ => rfl⟩)
      · exact (h.rule_ne rfl).elim
      · exact (h.rule_ne rfl).elim
      · exact (h.rule_ne rfl).elim
      · exact (h.rule_ne rfl).elim
      · rcases h.pushS with ⟨l, h1, h2⟩ | ⟨h1, _⟩
        · cases h1
          rcases lead_ill (st := .act .makeAlternate :: st) M (.inl rfl) (Ill.act1 (Run.any.ill h2) fun _ => rfl) with h | h
          · exact .inl (undecided_cons _ h)
          · obtain ⟨u, rest, r', k', rfl, h4, h5⟩ := (alternate_step (R := True) h fun _ => by simp [Rot, Re.rotate]).succ
            exact .inr (.inr ⟨124 :: u, rest, r', k', rfl, fun hr => (h4 hr).imp id fun h => h.left [124], h5⟩)
        · cases h1
      · exact (h.rule_ne rfl).elim
    · have e := entry_rule (x := .contentInCapture) rfl hw'
      rcases h.pushS with ⟨l, h1, h2⟩ | ⟨h1, _⟩
      · rw [List.head?_cons, e] at h1
        cases h1
        rw [List.append_assoc] at h2
        rcases entry_ill (tl := st) M hs h2 with h | h | h
        · exact .inl h
        · exact .inr (.inl h)
        · exact .inr (.inr h.succ)
      · rw [List.head?_cons, e] at h1
        cases h1


theorem mode_ill {n : Nat} {i : List Nat} {c : Ctx} (h : Ill P n i (.nt .modeSwitch2 :: st) c) :
    (∃ i', i = 41 :: i' ∧ Ill P n i' st c) ∨ ∃ y i', y ∈ modeLetters ∧ i = y :: i' := by
  obtain ⟨p, r, h1, h2, h3⟩ := h.rules
  simp only [Parse.rules, rules_modeSwitch2, List.mem_cons, List.not_mem_nil, or_false, Prod.mk.injEq] at h1
  rcases h1 with ⟨rfl, rfl⟩ | ⟨rfl, rfl⟩ | ⟨rfl, rfl⟩ | ⟨rfl, rfl⟩ | ⟨rfl, rfl⟩
  all_goals
    obtain ⟨i, rfl⟩ := head_some (accepts_term h2)
    simp only [Rhs.push.injEq, reduceCtorEq, false_and, or_false] at h3
    obtain ⟨l, rfl, h3⟩ := h3
  · exact .inr ⟨105, i, by simp [modeLetters], rfl⟩
  · exact .inr ⟨99, i, by simp [modeLetters], rfl⟩
  · exact .inr ⟨109, i, by simp [modeLetters], rfl⟩
  · exact .inr ⟨115, i, by simp [modeLetters], rfl⟩
  · exact .inl ⟨i, rfl, Run.any.ill h3⟩

/-- What is to be shown of a group. -/
def GroupIll (P : PropTable) (n : Nat) (i : List Nat) (st : List Sym) (stk : List PItem) : Prop :=
  Undecided P.find (40 :: i) ∨ RefLead stk (40 :: i) ∨ ∃ u rest r k', i = u ++ 41 :: rest ∧ (OptOK r ∨ ∃ u', u = 63 :: 58 :: u') ∧
    (Rot r ∨ HasMode (40 :: (u ++ [41]))) ∧ Ill P n rest st ⟨.re r :: stk, k'⟩

/-- The content of a group has been read. -/
theorem GroupIll.of {n : Nat} {w u rest : List Nat} {r r' : Re} (h1 : OptOK r' ∨ ∃ w', w = 63 :: 58 :: w') (h2 : Rot r ∨ HasMode u) (h3 : Rot r → Rot r')
    (h4 : Ill P n rest st ⟨.re r' :: stk, k⟩) : GroupIll P n (w ++ (u ++ 41 :: rest)) st stk := by
  refine .inr (.inr ⟨w ++ u, rest, r', k, by simp, ?_, ?_, h4⟩)
  · rcases h1 with h | ⟨w', rfl⟩
    · exact .inl h
    · exact .inr ⟨w' ++ u, by simp⟩
  · rcases h2 with h | h
    · exact .inl (h3 h)
    · right
      have := (h.right [41]).left (40 :: w)
      simpa using this

theorem GroupIll.mode {n : Nat} {x : Nat} {i : List Nat} {m : Mode} (hx : x ∈ modeLetters)
    (h : Ill P n i (.nt .modeSwitch2 :: st) ⟨.re (.mode m) :: stk, k⟩) : GroupIll P n (63 :: x :: i) st stk := by
  rcases mode_ill h with ⟨i', rfl, h'⟩ | ⟨y, i', hy, rfl⟩
  · exact .inr (.inr ⟨[63, x], i', _, k, rfl, .inl ⟨_, rfl⟩, .inr ⟨[], [], x, hx, rfl⟩, h'⟩)
  · exact .inl (undecided_of i' (.letters x y hx hy) rfl)

theorem undecided_behind {find} {d x : Nat} {a b rest : List Nat} (hd : d = 61 ∨ d = 33) (hx : x ∈ modeLetters) :
    Undecided find (40 :: 63 :: 60 :: d :: (a ++ [40, 63, x, 41] ++ b ++ rest)) :=
  undecided_of (b ++ rest) (.behind d a x hd hx) (by simp)

theorem block_succ {n : Nat} (M : MainIll P n) {i : List Nat} {id : Nat} (hs : Clean false stk)
    (h : Ill P (n + 1) i (.nt .block :: st) ⟨.capId id :: stk, k⟩) : GroupIll P n i st stk := by
  cases i with
  | nil => exact (h.rule_ne rfl).elim
  | cons w u =>
    by_cases hw' : w ∈ noItem
    · rcases mem_noItem.1 hw' with rfl | rfl | rfl | rfl | rfl | rfl | rfl
      · rcases h.pushS with ⟨l, h1, h2⟩ | ⟨h1, _⟩
        · cases h1
          have h3 : Ill P n u st ⟨.re (.cap id none (unpack .empty)) :: stk, k⟩ :=
            Run.any.ill ((Run.act fun _ => rfl).ill ((Run.act (c' := ⟨.re .empty :: .capId id :: stk, k⟩) fun _ => rfl).ill h2))
          exact .inr (.inr ⟨[], u, _, k, rfl, .inl ⟨_, rfl⟩, .inl (rot_cap.2 (rot_unpack (by simp [Rot, Re.rotate]))), h3⟩)
        · cases h1
      · exact (h.rule_ne rfl).elim
      · exact (h.rule_ne rfl).elim
      · -- (?
        rcases h.pushS with ⟨l, h1, h2⟩ | ⟨h1, _⟩
        case inr => cases h1
        cases h1
        have h1 : Ill P n u (.nt .d :: st) ⟨.capId id :: stk, k⟩ := Run.any.ill h2
        clear h h2 hw'
        obtain ⟨p, r, h2, h3, h4⟩ := h1.rules
        simp only [Parse.rules, rules_d, List.mem_cons, List.not_mem_nil, or_false, Prod.mk.injEq] at h2
        rcases h2 with ⟨rfl, rfl⟩ | ⟨rfl, rfl⟩ | ⟨rfl, rfl⟩ | ⟨rfl, rfl⟩ | ⟨rfl, rfl⟩ | ⟨rfl, rfl⟩ | ⟨rfl, rfl⟩ | ⟨rfl, rfl⟩ | ⟨rfl, rfl⟩
        all_goals
          simp only [Rhs.push.injEq, reduceCtorEq, false_and, or_false] at h4
          obtain ⟨l, rfl, h4⟩ := h4
          obtain ⟨u, rfl⟩ := head_some (accepts_term h3)
          clear h1 h3
        · exact GroupIll.mode (m := .caseInsensitive) (k := k - 1) (by simp [modeLetters]) (Ill.act1 (Run.any.ill h4) fun _ => rfl)
        · exact GroupIll.mode (m := .caseSensitive) (k := k - 1) (by simp [modeLetters]) (Ill.act1 (Run.any.ill h4) fun _ => rfl)
        · exact GroupIll.mode (m := .multiline) (k := k - 1) (by simp [modeLetters]) (Ill.act1 (Run.any.ill h4) fun _ => rfl)
        · exact GroupIll.mode (m := .singleline) (k := k - 1) (by simp [modeLetters]) (Ill.act1 (Run.any.ill h4) fun _ => rfl)
        · -- (?<
          have h5 : Ill P n u (.nt .o :: st) ⟨.capId id :: stk, k⟩ := Run.any.ill h4
          clear h4
          obtain ⟨p, r, h6, h7, h8⟩ := h5.rules
          simp only [Parse.rules, rules_o, List.mem_cons, List.not_mem_nil, or_false, Prod.mk.injEq] at h6
          rcases h6 with ⟨rfl, rfl⟩ | ⟨rfl, rfl⟩ | ⟨rfl, rfl⟩
          all_goals
            simp only [Rhs.push.injEq, reduceCtorEq, false_and, or_false] at h8
            obtain ⟨l, rfl, h8⟩ := h8
          · clear h7 h5
            obtain ⟨p, r, h10, h11, h12⟩ := Ill.rules (x := .blockName)
              (st := .term 62 :: .nt .contentInCapture :: .act .makeCaptureWithName :: .term 41 :: st) h8
            simp only [Parse.rules, rules_blockName, List.mem_cons, List.not_mem_nil, or_false, Prod.mk.injEq] at h10
            obtain ⟨rfl, rfl⟩ := h10
            simp only [Rhs.push.injEq, reduceCtorEq, false_and, or_false] at h12
            obtain ⟨l, rfl, h12⟩ := h12
            obtain ⟨d, u, rfl, h13⟩ := Ill.any h12
            have hd : isNameStart d := mem_chars7.1 h11
            obtain ⟨_, ⟨x, rfl⟩, h14⟩ := Ill.ok (Q := fun c => ∃ x, c = ⟨.name x :: .capId id :: stk, k⟩)
              (fun _ => ⟨_, pushName_clean (by simp [Clean]), _, rfl⟩) h13
            obtain ⟨ds, rest, s', rfl, hds, h15⟩ := blockName2_ill h14
            obtain ⟨rest, rfl, h16⟩ := h15.term
            have hname : ∀ v ∈ d :: ds, isNameChar v := by
              intro v hv
              rcases List.mem_cons.1 hv with rfl | hv
              · exact .inl hd
              · exact hds v hv
            rcases M.inCapture (by simp [Clean]) h16 with hx | ⟨_, m, x, i', rfl, hx⟩ | ⟨u, rest, r, k', rfl, h17, h18⟩
            · left
              have := undecided_append (40 :: 63 :: 60 :: d :: (ds ++ [62])) hx
              simpa using this
            · left
              exact undecided_of i' (.reference (d :: ds) m x hname hx) (by simp)
            · obtain ⟨rest, rfl, h19⟩ := (h18.act1 (c1 := ⟨.re (.cap id (some s') (unpack r)) :: stk, k'⟩) fun _ => rfl).term
              have := GroupIll.of (w := 63 :: 60 :: d :: (ds ++ [62])) (.inl ⟨_, rfl⟩) (h17 trivial)
                (fun h => rot_cap.2 (rot_unpack h)) h19
              simpa using this
          all_goals
            obtain ⟨u, rfl⟩ := head_some (accepts_term h7)
            have h9 : Ill P n u (.nt .contentInCapture :: .act .lookFinish :: .term 41 :: st) ⟨.lookStart false _ :: stk, k - 1⟩ :=
              (Run.act fun _ => rfl).ill ((Run.act fun _ => rfl).ill (Run.any.ill h8))
            rcases M.inCapture (by simp [Clean]) h9 with hx | hx | ⟨u, rest, r, k', rfl, h10, h11⟩
            · exact .inl (undecided_cons _ (undecided_cons _ (undecided_cons _ (undecided_cons _ hx))))
            · exact (lead_clean (by simp [Clean]) hx).elim
            rcases h10 trivial with h | ⟨a, b, x, hx, rfl⟩
            case' inr =>
              exact .inl (undecided_behind (by simp) hx)
            obtain ⟨l', hl⟩ := Option.ne_none_iff_exists'.1 (rotateList_iff.2 (rot_unpack h))
            obtain ⟨rest, rfl, h12⟩ := (h11.act1 (c1 := ⟨.re (.behind _ l'.reverse) :: stk, k'⟩)
              fun _ => by simp only [applyTerm, hl]; rfl).term
            exact GroupIll.of (w := [63, 60, _]) (.inl ⟨_, rfl⟩) (.inl h) (fun _ => by simp [Rot, Re.rotate]) h12
        · have h5 : Ill P n u (.nt .contentInCapture :: .term 41 :: st) ⟨stk, k - 1⟩ := Ill.act1 (Run.any.ill h4) fun _ => rfl
          rcases M.inCapture hs h5 with hx | ⟨hc, m, x, i', rfl, hx⟩ | ⟨u, rest, r, k', rfl, h10, h11⟩
          · exact .inl (undecided_cons _ (undecided_cons _ (undecided_cons _ hx)))
          · exact .inr (.inl ⟨hc, m + 1, x, i', by simp [opens], hx⟩)
          · obtain ⟨rest, rfl, h12⟩ := h11.term
            exact GroupIll.of (w := [63, 58]) (.inr ⟨[], rfl⟩) (h10 trivial) (fun h => h) h12
        · have h5 : Ill P n u (.nt .contentInCapture :: .act .makeAtomic :: .term 41 :: st) ⟨.atomicStart :: stk, k - 1⟩ :=
            (Run.act fun _ => rfl).ill ((Run.act fun _ => rfl).ill (Run.any.ill h4))
          rcases M.inCapture (by simp [Clean]) h5 with hx | hx | ⟨u, rest, r, k', rfl, h10, h11⟩
          · exact .inl (undecided_cons _ (undecided_cons _ (undecided_cons _ hx)))
          · exact (lead_clean (by simp [Clean]) hx).elim
          · obtain ⟨rest, rfl, h12⟩ := (h11.act1 (c1 := ⟨.re (.atomic (unpack r)) :: stk, k'⟩) fun _ => rfl).term
            exact GroupIll.of (w := [63, 62]) (.inl ⟨_, rfl⟩) (h10 trivial) (fun h => rot_atomic.2 (rot_unpack h)) h12
        all_goals
          have h5 : Ill P n u (.nt .contentInCapture :: .act .lookFinish :: .term 41 :: st) ⟨.lookStart true _ :: stk, k - 1⟩ :=
            (Run.act fun _ => rfl).ill ((Run.act fun _ => rfl).ill (Run.any.ill h4))
          rcases M.inCapture (by simp [Clean]) h5 with hx | hx | ⟨u, rest, r, k', rfl, h10, h11⟩
          · exact .inl (undecided_cons _ (undecided_cons _ (undecided_cons _ hx)))
          · exact (lead_clean (by simp [Clean]) hx).elim
          · obtain ⟨rest, rfl, h12⟩ := (h11.act1 (c1 := ⟨.re (.ahead _ (unpack r)) :: stk, k'⟩) fun _ => rfl).term
            exact GroupIll.of (w := [63, _]) (.inl ⟨_, rfl⟩) (h10 trivial) (fun _ => by simp [Rot, Re.rotate]) h12
      · exact (h.rule_ne rfl).elim
      · rcases h.pushS with ⟨l, h1, h2⟩ | ⟨h1, _⟩
        · cases h1
          rcases lead_ill (st := .act .makeAlternate :: .act .makeCapture :: .term 41 :: st) M (.inl rfl) (Ill.act1 (Run.any.ill h2) fun _ => rfl) with h | h
          · exact .inl (undecided_cons _ (undecided_cons _ h))
          · obtain ⟨u, rest, r', k', rfl, h4, h5⟩ := alternate_step (R := True) h fun _ => by simp [Rot, Re.rotate]
            obtain ⟨rest, rfl, h6⟩ := (h5.act1 (c1 := ⟨.re (.cap id none (unpack r')) :: stk, k'⟩) fun _ => rfl).term
            exact GroupIll.of (w := [124]) (.inl ⟨_, rfl⟩) (h4 trivial) (fun h => rot_cap.2 (rot_unpack h)) h6
        · cases h1
      · exact (h.rule_ne rfl).elim
    · have e := entry_rule (x := .block) rfl hw'
      rcases h.pushS with ⟨l, h1, h2⟩ | ⟨h1, _⟩
      · rw [List.head?_cons, e] at h1
        cases h1
        rcases entry_ill (stk := .capId id :: stk) (tl := .act .makeCapture :: .term 41 :: st) M (by simp [Clean]) (by simpa using h2) with h | h | ⟨u', rest, r', k', e', h4, h5⟩
        · exact .inl (undecided_cons _ h)
        · exact (lead_clean (by simp [Clean]) h).elim
        · obtain ⟨rest, rfl, h6⟩ := (h5.act1 (c1 := ⟨.re (.cap id none (unpack r')) :: stk, k'⟩) fun _ => rfl).term
          rw [e']
          exact GroupIll.of (w := []) (.inl ⟨_, rfl⟩) (h4 trivial) (fun h => rot_cap.2 (rot_unpack h)) h6
      · rw [List.head?_cons, e] at h1
        cases h1

theorem main_ill (P : PropTable) : ∀ n, MainIll P n
  | 0 => ⟨fun ⟨_, h⟩ => h.elim, fun ⟨_, h⟩ => h.elim, fun _ ⟨_, h⟩ => h.elim, fun _ ⟨_, h⟩ => h.elim⟩
  | n + 1 => by
    have M := main_ill P n
    refine ⟨string2_succ M, content2_succ M, fun hs h => ?_, inCapture_succ M⟩
    rcases block_succ M hs h with h | h | ⟨u, rest, r, k', h1, h2, h3, h4⟩
    · exact .inl h
    · exact .inr (.inl h)
    · exact .inr (.inr ⟨u, rest, r, k', h1, h2, h3, h4.succ⟩)

/-! ### Whole texts -/

theorem top_ill {n v : Nat} {u : List Nat} (h : Ill P n (v :: u) [.nt .s] {}) : Undecided P.find (v :: u) := by
  have M := main_ill P n
  by_cases hv : v ∈ noItem
  · rcases mem_noItem.1 hv with rfl | rfl | rfl | rfl | rfl | rfl | rfl
    · exact (h.rule_ne rfl).elim
    · exact (h.rule_ne rfl).elim
    · exact (h.rule_ne rfl).elim
    · exact (h.rule_ne rfl).elim
    · exact (h.rule_ne rfl).elim
    · have h1 : Ill P n u [.nt .optContent, .act .makeAlternate] ⟨[.re .empty], 0⟩ :=
        (Run.act fun _ => rfl).ill (Run.any.ill (h.push (l := [.any, .act .pushEmpty, .nt .optContent, .act .makeAlternate]) rfl))
      rcases lead_ill M (.inr rfl) h1 with h | h
      · exact undecided_cons _ h
      · obtain ⟨_, _, _, _, _, _, h⟩ := alternate_step (R := False) h False.elim
        exact h.nil.elim
    · exact (h.rule_ne rfl).elim
  · have h1 := h.push (entry_rule (x := .s) rfl hv)
    rcases entry_ill (stk := []) (k := 0) (tl := []) M (by simp [Clean]) (by simpa using h1) with h | h | ⟨_, _, _, _, _, _, h⟩
    · exact h
    · exact (lead_clean (by simp [Clean]) h).elim
    · exact h.nil.elim

theorem parse_bad {t : List Nat} (h : Bad (parse P t)) : Undecided P.find t := by
  cases t with
  | nil => exact (h .empty [] rfl).elim
  | cons v u =>
    refine top_ill (n := parseFuel (v :: u).length) ⟨0, ?_⟩
    have : decide P (parseFuel (v :: u).length) (some 0) (v :: u) [.nt .s] {} = parse P (v :: u) := by
      unfold parse
      have h1 : rule .s (some v) = .reject ∨ ∃ l, rule .s (some v) = .push (.any :: l) := by
        by_cases hv : v ∈ noItem
        · rcases mem_noItem.1 hv with rfl | rfl | rfl | rfl | rfl | rfl | rfl
          · exact .inl rfl
          · exact .inl rfl
          · exact .inl rfl
          · exact .inl rfl
          · exact .inl rfl
          · exact .inr ⟨_, rfl⟩
          · exact .inl rfl
        · right
          have := entry_rule (x := .s) rfl hv
          unfold itemHead at this
          repeat' split at this
          all_goals exact ⟨_, this⟩
      obtain ⟨m, hm⟩ : ∃ m, parseFuel (v :: u).length = m + 2 := ⟨32 * (v :: u).length + 30, by simp only [parseFuel]⟩
      rw [hm]
      rcases h1 with h1 | ⟨l, h1⟩
      · simp only [decide, List.head?_cons, h1]
      · simp only [decide, List.head?_cons, h1, List.cons_append]
    rw [this]
    exact h

theorem build_ill {t : List Nat} (h : build P t = .ill) : Undecided P.find t := by
  refine parse_bad ?_
  unfold build at h
  cases hp : parse P t with
  | accept c =>
    rw [hp] at h
    intro r ts e
    simp [e] at h
  | reject rest => rw [hp] at h; cases h
  | ill => trivial
  | timeout => rw [hp] at h; cases h

end

end Ctre.Parse
