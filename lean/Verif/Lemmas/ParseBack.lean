import Verif.Lemmas.ParseBody

/-
What an accepted text looks like: inversion of the steps of the parser, and of numbers, names, characters, classes, sets
and quantifiers.
-/
namespace Ctre.Parse
open Surface

/-- The parser accepts from this configuration, when some character has been read before. -/
def Acc (P : PropTable) (i : List Nat) (st : List Sym) (c : Ctx) : Prop :=
  ∃ v n c', decide P n (some v) i st c = .accept c'

section
variable {P : PropTable} {i i' : List Nat} {st st' : List Sym} {c c' : Ctx}

theorem Run.acc (h : Run P i st c i' st' c') (ha : Acc P i st c) : Acc P i' st' c' := by
  obtain ⟨v, n, d, hd⟩ := ha
  obtain ⟨v', k, hk⟩ := h v
  refine ⟨v', n, d, ?_⟩
  rw [← hk, decide_of_le P (Nat.le_add_right n k) (by rw [hd]; simp), hd]

theorem Acc.act {a : Act} (h : Acc P i (.act a :: st) c) : ∃ v c1, applyTerm P v c a = .ok c1 ∧ Acc P i st c1 := by
  obtain ⟨v, n, d, hd⟩ := h
  cases n with
  | zero => simp [decide] at hd
  | succ n =>
    have h1 : decide P (n + 1) (some v) i (.act a :: st) c = match applyTerm P v c a with
        | .ok c' => decide P n (some v) i st c'
        | .reject => .reject i
        | .ill => .ill := by cases i <;> rfl
    rw [h1] at hd
    cases ha : applyTerm P v c a with
    | ok c1 => rw [ha] at hd; exact ⟨v, c1, ha, v, n, d, hd⟩
    | reject => simp [ha] at hd
    | ill => simp [ha] at hd

theorem Acc.any (h : Acc P i (.any :: st) c) : ∃ v i', i = v :: i' ∧ Acc P i' st c := by
  obtain ⟨v, n, d, hd⟩ := h
  cases n with
  | zero => simp [decide] at hd
  | succ n =>
    cases i with
    | nil => simp [decide] at hd
    | cons w i => exact ⟨w, i, rfl, w, n, d, hd⟩

theorem Acc.anyAct {a : Act} (h : Acc P i (.any :: .act a :: st) c) :
    ∃ v i' c1, i = v :: i' ∧ applyTerm P v c a = .ok c1 ∧ Acc P i' st c1 := by
  obtain ⟨v, n, d, hd⟩ := h
  cases n with
  | zero => simp [decide] at hd
  | succ n =>
    cases i with
    | nil => simp [decide] at hd
    | cons w i =>
      cases n with
      | zero => simp [decide] at hd
      | succ n =>
        have h1 : decide P (n + 1 + 1) (some v) (w :: i) (.any :: .act a :: st) c = match applyTerm P w c a with
            | .ok c' => decide P n (some w) i st c'
            | .reject => .reject i
            | .ill => .ill := by cases i <;> rfl
        rw [h1] at hd
        cases ha : applyTerm P w c a with
        | ok c1 => rw [ha] at hd; exact ⟨w, i, c1, rfl, ha, w, n, d, hd⟩
        | reject => simp [ha] at hd
        | ill => simp [ha] at hd

theorem Acc.term {t : Nat} (h : Acc P i (.term t :: st) c) : ∃ i', i = t :: i' ∧ Acc P i' st c := by
  obtain ⟨v, n, d, hd⟩ := h
  cases n with
  | zero => simp [decide] at hd
  | succ n =>
    cases i with
    | nil => simp [decide] at hd
    | cons w i =>
      simp only [decide] at hd
      split at hd
      · rename_i e; subst e; exact ⟨i, rfl, t, n, d, hd⟩
      · cases hd

theorem Acc.set {l : List Nat} (h : Acc P i (.set l :: st) c) : ∃ v i', i = v :: i' ∧ l.contains v = true ∧ Acc P i' st c := by
  obtain ⟨v, n, d, hd⟩ := h
  cases n with
  | zero => simp [decide] at hd
  | succ n =>
    cases i with
    | nil => simp [decide] at hd
    | cons w i =>
      simp only [decide] at hd
      split at hd
      · rename_i e; exact ⟨w, i, rfl, e, w, n, d, hd⟩
      · cases hd

theorem Acc.nt {x : NT} (h : Acc P i (.nt x :: st) c) :
    (∃ p l, (p, Rhs.push l) ∈ rules x ∧ p.accepts i.head? = true ∧ Acc P i (l ++ st) c) ∨
    (∃ p, (p, Rhs.eps) ∈ rules x ∧ p.accepts i.head? = true ∧ Acc P i st c) := by
  obtain ⟨v, n, d, hd⟩ := h
  cases n with
  | zero => simp [decide] at hd
  | succ n =>
    have h1 : decide P (n + 1) (some v) i (.nt x :: st) c = match rule x i.head? with
        | .push l => decide P n (some v) i (l ++ st) c
        | .eps => decide P n (some v) i st c
        | .reject => .reject i := by cases i <;> rfl
    rw [h1] at hd
    rcases lookup_cases (v := i.head?) (l := rules x) with h2 | ⟨p, r, h2, h3, h4⟩
    · rw [show rule x i.head? = .reject from h2] at hd
      cases hd
    · rw [show rule x i.head? = r from h4] at hd
      cases r with
      | push l => exact .inl ⟨p, l, h2, h3, v, n, d, hd⟩
      | eps => exact .inr ⟨p, h2, h3, v, n, d, hd⟩
      | reject => cases hd

/-- With the rule known. -/
theorem Acc.push {x : NT} {l : List Sym} (h : Acc P i (.nt x :: st) c) (hr : rule x i.head? = .push l) : Acc P i (l ++ st) c :=
  (Run.push hr).acc h

theorem Acc.eps {x : NT} (h : Acc P i (.nt x :: st) c) (hr : rule x i.head? = .eps) : Acc P i st c := (Run.eps hr).acc h
end

theorem accepts_term {t : Nat} {v : Option Nat} (h : (Pat.term t).accepts v = true) : v = some t := by
  cases v with
  | none => simp [Pat.accepts] at h
  | some v => simp [Pat.accepts] at h; rw [h]

theorem accepts_set {l : List Nat} {v : Option Nat} (h : (Pat.set l).accepts v = true) : ∃ w, v = some w ∧ l.contains w = true := by
  cases v with
  | none => simp [Pat.accepts] at h
  | some v => exact ⟨v, rfl, h⟩

theorem accepts_others {v : Option Nat} (h : Pat.others.accepts v = true) : ∃ w, v = some w ∧ notOthers.contains w = false := by
  cases v with
  | none => simp [Pat.accepts] at h
  | some v => exact ⟨v, rfl, by simpa [Pat.accepts] using h⟩

theorem accepts_eps {v : Option Nat} (h : Pat.eps.accepts v = true) : v = none := by
  cases v with
  | none => rfl
  | some v => simp [Pat.accepts] at h

theorem head_some {i : List Nat} {v : Nat} (h : i.head? = some v) : ∃ i', i = v :: i' := by
  cases i with
  | nil => simp at h
  | cons w i => simp only [List.head?_cons, Option.some.injEq] at h; exact ⟨i, by rw [h]⟩

theorem head_none {i : List Nat} (h : i.head? = none) : i = [] := by simpa using h

/-! ### Numbers -/

section
variable {P : PropTable} {st : List Sym} {c : Ctx}

theorem number2_back : ∀ {i : List Nat} {c : Ctx}, Acc P i (.nt .number2 :: st) c →
    ∃ ds rest, i = ds ++ rest ∧ (∀ d ∈ ds, isDec d) ∧ (rest.head? = some 44 ∨ rest.head? = some 125)
  | [], c, h => by
    rcases h.nt with ⟨p, l, h1, h2, h3⟩ | ⟨p, h1, h2, h3⟩ <;>
      simp only [rules, rules_number2, List.mem_cons, List.not_mem_nil, or_false, Prod.mk.injEq, reduceCtorEq, and_false, false_or] at h1 <;>
      obtain ⟨rfl, _⟩ := h1 <;> simp [Pat.accepts] at h2
  | v :: i, c, h => by
    rcases h.nt with ⟨p, l, h1, h2, h3⟩ | ⟨p, h1, h2, h3⟩ <;>
      simp only [rules, rules_number2, List.mem_cons, List.not_mem_nil, or_false, Prod.mk.injEq, reduceCtorEq, and_false, false_or,
        Rhs.push.injEq, and_true] at h1
    · obtain ⟨rfl, rfl⟩ := h1
      obtain ⟨w, i', c1, h4, _, h6⟩ := Acc.anyAct h3
      cases h4
      obtain ⟨ds, rest, rfl, h7, h8⟩ := number2_back h6
      exact ⟨v :: ds, rest, rfl, List.forall_mem_cons.2 ⟨mem_chars14.1 h2, h7⟩, h8⟩
    · subst h1
      refine ⟨[], v :: i, rfl, by simp, ?_⟩
      simpa [Pat.accepts, chars17] using h2

theorem number_back {i : List Nat} (h : Acc P i (.nt .number :: st) c) :
    ∃ ds rest, i = ds ++ rest ∧ isNumber ds ∧ (rest.head? = some 44 ∨ rest.head? = some 125) := by
  rcases h.nt with ⟨p, l, h1, h2, h3⟩ | ⟨p, h1, h2, h3⟩ <;>
    simp only [rules, rules_number, List.mem_cons, List.not_mem_nil, or_false, Prod.mk.injEq, reduceCtorEq, and_false,
      Rhs.push.injEq] at h1
  obtain ⟨rfl, rfl⟩ := h1
  obtain ⟨w, i', c1, rfl, _, h6⟩ := Acc.anyAct h3
  obtain ⟨ds, rest, rfl, h7, h8⟩ := number2_back h6
  exact ⟨w :: ds, rest, rfl, ⟨by simp, List.forall_mem_cons.2 ⟨mem_chars14.1 h2, h7⟩⟩, h8⟩

theorem hexdecRepeat_back : ∀ {i : List Nat} {c : Ctx}, Acc P i (.nt .hexdecRepeat :: st) c →
    ∃ ds rest, i = ds ++ 125 :: rest ∧ (∀ d ∈ ds, isHex d)
  | [], c, h => by
    rcases h.nt with ⟨p, l, h1, h2, h3⟩ | ⟨p, h1, h2, h3⟩ <;>
      simp only [rules, rules_hexdecRepeat, List.mem_cons, List.not_mem_nil, or_false, Prod.mk.injEq, reduceCtorEq, and_false, false_or] at h1 <;>
      obtain ⟨rfl, _⟩ := h1 <;> simp [Pat.accepts] at h2
  | v :: i, c, h => by
    rcases h.nt with ⟨p, l, h1, h2, h3⟩ | ⟨p, h1, h2, h3⟩ <;>
      simp only [rules, rules_hexdecRepeat, List.mem_cons, List.not_mem_nil, or_false, Prod.mk.injEq, reduceCtorEq, and_false, false_or,
        Rhs.push.injEq, and_true] at h1
    · obtain ⟨rfl, rfl⟩ := h1
      obtain ⟨w, i', c1, h4, _, h6⟩ := Acc.anyAct h3
      cases h4
      obtain ⟨ds, rest, rfl, h7⟩ := hexdecRepeat_back h6
      exact ⟨v :: ds, rest, rfl, List.forall_mem_cons.2 ⟨mem_chars11.1 h2, h7⟩⟩
    · subst h1
      have := accepts_term h2
      simp only [List.head?_cons, Option.some.injEq] at this
      exact ⟨[], i, by rw [this]; rfl, by simp⟩

theorem blockName2_back : ∀ {i : List Nat} {c : Ctx}, Acc P i (.nt .blockName2 :: st) c →
    ∃ ds rest, i = ds ++ rest ∧ (∀ d ∈ ds, isNameChar d) ∧ (rest.head? = some 62 ∨ rest.head? = some 125)
  | [], c, h => by
    rcases h.nt with ⟨p, l, h1, h2, h3⟩ | ⟨p, h1, h2, h3⟩ <;>
      simp only [rules, rules_blockName2, List.mem_cons, List.not_mem_nil, or_false, Prod.mk.injEq, reduceCtorEq, and_false, false_or] at h1 <;>
      obtain ⟨rfl, _⟩ := h1 <;> simp [Pat.accepts] at h2
  | v :: i, c, h => by
    rcases h.nt with ⟨p, l, h1, h2, h3⟩ | ⟨p, h1, h2, h3⟩ <;>
      simp only [rules, rules_blockName2, List.mem_cons, List.not_mem_nil, or_false, Prod.mk.injEq, reduceCtorEq, and_false, false_or,
        Rhs.push.injEq, and_true] at h1
    · obtain ⟨rfl, rfl⟩ := h1
      obtain ⟨w, i', c1, h4, _, h6⟩ := Acc.anyAct h3
      cases h4
      obtain ⟨ds, rest, rfl, h7, h8⟩ := blockName2_back h6
      exact ⟨v :: ds, rest, rfl, List.forall_mem_cons.2 ⟨mem_chars6.1 h2, h7⟩, h8⟩
    · subst h1
      refine ⟨[], v :: i, rfl, by simp, ?_⟩
      simpa [Pat.accepts, chars5] using h2

theorem propertyValue2_back : ∀ {i : List Nat} {c : Ctx}, Acc P i (.nt .propertyValue2 :: st) c →
    ∃ ds rest, i = ds ++ 125 :: rest ∧ (∀ d ∈ ds, isPropChar d)
  | [], c, h => by
    rcases h.nt with ⟨p, l, h1, h2, h3⟩ | ⟨p, h1, h2, h3⟩ <;>
      simp only [rules, rules_propertyValue2, List.mem_cons, List.not_mem_nil, or_false, Prod.mk.injEq, reduceCtorEq, and_false, false_or] at h1 <;>
      obtain ⟨rfl, _⟩ := h1 <;> simp [Pat.accepts] at h2
  | v :: i, c, h => by
    rcases h.nt with ⟨p, l, h1, h2, h3⟩ | ⟨p, h1, h2, h3⟩ <;>
      simp only [rules, rules_propertyValue2, List.mem_cons, List.not_mem_nil, or_false, Prod.mk.injEq, reduceCtorEq, and_false, false_or,
        Rhs.push.injEq, and_true] at h1
    · obtain ⟨rfl, rfl⟩ := h1
      obtain ⟨w, i', c1, h4, _, h6⟩ := Acc.anyAct h3
      cases h4
      obtain ⟨ds, rest, rfl, h7⟩ := propertyValue2_back h6
      exact ⟨v :: ds, rest, rfl, List.forall_mem_cons.2 ⟨mem_chars19.1 h2, h7⟩⟩
    · subst h1
      have := accepts_term h2
      simp only [List.head?_cons, Option.some.injEq] at this
      exact ⟨[], i, by rw [this]; rfl, by simp⟩

theorem propertyName2_back : ∀ {i : List Nat} {c : Ctx}, Acc P i (.nt .propertyName2 :: st) c →
    ∃ ds value rest, i = ds ++ (printValue value ++ 125 :: rest) ∧ (∀ d ∈ ds, isPropChar d) ∧ (∀ w, value = some w → isPropWord w)
  | [], c, h => by
    rcases h.nt with ⟨p, l, h1, h2, h3⟩ | ⟨p, h1, h2, h3⟩ <;>
      simp only [rules, rules_propertyName2, List.mem_cons, List.not_mem_nil, or_false, Prod.mk.injEq, reduceCtorEq, and_false, false_or] at h1
    · rcases h1 with ⟨rfl, _⟩ | ⟨rfl, _⟩ <;> simp [Pat.accepts] at h2
    · obtain ⟨rfl, _⟩ := h1
      simp [Pat.accepts] at h2
  | v :: i, c, h => by
    rcases h.nt with ⟨p, l, h1, h2, h3⟩ | ⟨p, h1, h2, h3⟩ <;>
      simp only [rules, rules_propertyName2, List.mem_cons, List.not_mem_nil, or_false, Prod.mk.injEq, reduceCtorEq, and_false, false_or,
        Rhs.push.injEq, and_true] at h1
    · rcases h1 with ⟨rfl, rfl⟩ | ⟨rfl, rfl⟩
      · have := accepts_term h2
        simp only [List.head?_cons, Option.some.injEq] at this
        subst this
        obtain ⟨w, i', h4, h5⟩ := Acc.any h3
        cases h4
        rcases h5.nt with ⟨p, l, h1, h2, h3⟩ | ⟨p, h1, h2, h3⟩ <;>
          simp only [rules, rules_propertyValue, List.mem_cons, List.not_mem_nil, or_false, Prod.mk.injEq, reduceCtorEq, and_false,
            Rhs.push.injEq] at h1
        obtain ⟨rfl, rfl⟩ := h1
        obtain ⟨w, i', c1, rfl, _, h6⟩ := Acc.anyAct h3
        obtain ⟨ds, rest, rfl, h7⟩ := propertyValue2_back h6
        refine ⟨[], some (w :: ds), rest, rfl, by simp, ?_⟩
        rintro _ ⟨⟩
        exact ⟨by simp, List.forall_mem_cons.2 ⟨mem_chars19.1 h2, h7⟩⟩
      · obtain ⟨w, i', c1, h4, _, h6⟩ := Acc.anyAct h3
        cases h4
        obtain ⟨ds, value, rest, rfl, h7, h8⟩ := propertyName2_back h6
        exact ⟨v :: ds, value, rest, rfl, List.forall_mem_cons.2 ⟨mem_chars19.1 h2, h7⟩, h8⟩
    · subst h1
      have := accepts_term h2
      simp only [List.head?_cons, Option.some.injEq] at this
      exact ⟨[], none, i, by rw [this]; rfl, by simp, by simp⟩

theorem property_back {i : List Nat} (h : Acc P i (.nt .propertyName :: st) c) :
    ∃ name value rest, i = name ++ (printValue value ++ 125 :: rest) ∧ isPropWord name ∧ (∀ w, value = some w → isPropWord w) := by
  rcases h.nt with ⟨p, l, h1, h2, h3⟩ | ⟨p, h1, h2, h3⟩ <;>
    simp only [rules, rules_propertyName, List.mem_cons, List.not_mem_nil, or_false, Prod.mk.injEq, reduceCtorEq, and_false,
      Rhs.push.injEq] at h1
  obtain ⟨rfl, rfl⟩ := h1
  obtain ⟨w, i', c1, rfl, _, h6⟩ := Acc.anyAct h3
  obtain ⟨ds, value, rest, rfl, h7, h8⟩ := propertyName2_back h6
  exact ⟨w :: ds, value, rest, rfl, ⟨by simp, List.forall_mem_cons.2 ⟨mem_chars19.1 h2, h7⟩⟩, h8⟩

end

/-! ### Characters and classes -/

section
variable {P : PropTable} {st : List Sym}

theorem Acc.setAct {c : Ctx} {i : List Nat} {a : Act} {l : List Nat} (h : Acc P i (.set l :: .act a :: st) c) :
    ∃ v i' c1, i = v :: i' ∧ l.contains v = true ∧ applyTerm P v c a = .ok c1 ∧ Acc P i' st c1 := by
  obtain ⟨v, i', rfl, hv, _⟩ := h.set
  have h' : Acc P (v :: i') (.any :: .act a :: st) c := by
    obtain ⟨p, n, d, hd⟩ := h
    refine ⟨p, n, d, ?_⟩
    cases n with
    | zero => simp [decide] at hd
    | succ n => simpa only [decide, hv, if_true] using hd
  obtain ⟨w, i'', c1, h1, h2, h3⟩ := h'.anyAct
  cases h1
  exact ⟨_, _, _, rfl, hv, h2, h3⟩

/-- Case analysis on the rules of a nonterminal. -/
theorem Acc.rules {c : Ctx} {i : List Nat} {x : NT} (h : Acc P i (.nt x :: st) c) :
    ∃ p r, (p, r) ∈ rules x ∧ p.accepts i.head? = true ∧
      ((∃ l, r = .push l ∧ Acc P i (l ++ st) c) ∨ (r = .eps ∧ Acc P i st c)) := by
  rcases h.nt with ⟨p, l, h1, h2, h3⟩ | ⟨p, h1, h2, h3⟩
  · exact ⟨p, _, h1, h2, .inl ⟨l, rfl, h3⟩⟩
  · exact ⟨p, _, h1, h2, .inr ⟨rfl, h3⟩⟩

theorem hexBraces_back {i : List Nat} {k : Nat} {stk : List PItem} {x : NT} (hx : x = .k ∨ x = .l)
    (h : Acc P (123 :: i) (.nt x :: st) ⟨stk, k⟩) :
    ∃ ds rest, i = ds ++ 125 :: rest ∧ ds ≠ [] ∧ (∀ d ∈ ds, isHex d) ∧ hexadecimal ds % szMod < 2 ^ 32 := by
  have h1 := h.push (l := [.act .createHexdec, .any, .set chars11, .act .pushHexdec, .nt .hexdecRepeat, .term 125,
    .act .finishHexdec]) (by rcases hx with rfl | rfl <;> rfl)
  have h2 := (Run.act (c' := ⟨.num 0 :: stk, k⟩) (fun _ => rfl)).acc h1
  obtain ⟨d, i', c1, rfl, hd, h3, h4⟩ := (Run.any.acc h2).setAct
  simp only [applyTerm, Ctx.setStack, ARes.ok.injEq] at h3
  subst h3
  obtain ⟨ds, rest, rfl, h5⟩ := hexdecRepeat_back h4
  have h6 := Run.term.acc ((hexdecRepeat_run h5).acc h4)
  obtain ⟨v, c1, h7, _⟩ := h6.act
  have hd := mem_chars11.1 hd
  refine ⟨d :: ds, rest, rfl, by simp, List.forall_mem_cons.2 ⟨hd, h5⟩, ?_⟩
  have := hex_fold h5 (16 * 0 + hexDigit d)
  rw [hexValue_eq hd, Nat.zero_mul] at h7
  rw [Nat.mul_zero] at this
  simp only [applyTerm, this] at h7
  rw [show ds.foldl (fun n d => 16 * n + hexDigit d) (0 + hexDigit d) = hexadecimal (d :: ds) by simp [hexadecimal]] at h7
  split at h7
  · assumption
  · cases h7

theorem hexk_back {i : List Nat} {k : Nat} {stk : List PItem} (h : Acc P i (.nt .k :: st) ⟨stk, k⟩) :
    ∃ c rest, Char1.isEsc c = true ∧ (∀ bad, c.WF bad) ∧ 92 :: 117 :: i = c.print ++ rest := by
  obtain ⟨p, r, h1, h2, h3⟩ := h.rules
  simp only [Parse.rules, rules_k, List.mem_cons, List.not_mem_nil, or_false, Prod.mk.injEq] at h1
  rcases h1 with ⟨rfl, rfl⟩ | ⟨rfl, rfl⟩
  · obtain ⟨i', rfl⟩ := head_some (accepts_term h2)
    obtain ⟨ds, rest, rfl, h4, h5, h6⟩ := hexBraces_back (.inl rfl) h
    exact ⟨.u ds, rest, rfl, fun _ => ⟨h4, h5, h6⟩, by simp [Char1.print]⟩
  · obtain ⟨w, hw, hd⟩ := accepts_set h2
    obtain ⟨i', rfl⟩ := head_some hw
    simp only [Rhs.push.injEq, reduceCtorEq, false_and, or_false] at h3
    obtain ⟨l, rfl, h3⟩ := h3
    have h4 := (Run.act (c' := ⟨.num 0 :: stk, k⟩) (fun _ => rfl)).acc h3
    obtain ⟨_, _, _, e, _, h5⟩ := h4.anyAct
    cases e
    obtain ⟨b, _, _, rfl, hb, _, h6⟩ := h5.setAct
    obtain ⟨c, _, _, rfl, hc, _, h7⟩ := h6.setAct
    obtain ⟨d, rest, _, rfl, hd', _, _⟩ := h7.setAct
    exact ⟨.u4 w b c d, rest, rfl, fun _ => ⟨mem_chars11.1 hd, mem_chars11.1 hb, mem_chars11.1 hc, mem_chars11.1 hd'⟩, rfl⟩

theorem hexl_back {i : List Nat} {k : Nat} {stk : List PItem} (h : Acc P i (.nt .l :: st) ⟨stk, k⟩) :
    ∃ c rest, Char1.isEsc c = true ∧ (∀ bad, c.WF bad) ∧ 92 :: 120 :: i = c.print ++ rest := by
  obtain ⟨p, r, h1, h2, h3⟩ := h.rules
  simp only [Parse.rules, rules_l, List.mem_cons, List.not_mem_nil, or_false, Prod.mk.injEq] at h1
  rcases h1 with ⟨rfl, rfl⟩ | ⟨rfl, rfl⟩
  · obtain ⟨i', rfl⟩ := head_some (accepts_term h2)
    obtain ⟨ds, rest, rfl, h4, h5, h6⟩ := hexBraces_back (.inr rfl) h
    exact ⟨.x ds, rest, rfl, fun _ => ⟨h4, h5, h6⟩, by simp [Char1.print]⟩
  · obtain ⟨w, hw, hd⟩ := accepts_set h2
    obtain ⟨i', rfl⟩ := head_some hw
    simp only [Rhs.push.injEq, reduceCtorEq, false_and, or_false] at h3
    obtain ⟨l, rfl, h3⟩ := h3
    have h4 := (Run.act (c' := ⟨.num 0 :: stk, k⟩) (fun _ => rfl)).acc h3
    obtain ⟨_, _, _, e, _, h5⟩ := h4.anyAct
    cases e
    obtain ⟨b, rest, _, rfl, hb, _, _⟩ := h5.setAct
    exact ⟨.x2 w b, rest, rfl, fun _ => ⟨mem_chars11.1 hd, mem_chars11.1 hb⟩, rfl⟩

theorem prop_back {i : List Nat} {k : Nat} {stk : List PItem} (hs : Clean false stk) {neg : Bool}
    (h : Acc P i (.term 123 :: .nt .propertyName :: .term 125 :: .act (if neg then .makePropertyNegative else .makeProperty) :: st)
      ⟨stk, k⟩) :
    (∃ c rest, Cls.WF P.find c ∧ 92 :: (if neg then 80 else 112) :: i = c.print ++ rest) ∨
    (∃ name w rest, isPropWord name ∧ isPropWord w ∧ P.find name (some w) = none ∧
      92 :: (if neg then 80 else 112) :: i = Atom.print (.unknown name w) ++ rest ∧ Acc P rest st ⟨.re (.reject false) :: stk, k⟩) := by
  obtain ⟨i', rfl, h1⟩ := h.term
  obtain ⟨name, value, rest, rfl, h2, h3⟩ := property_back h1
  have h4 := Run.term.acc ((property_run h2 h3 hs).acc h1)
  obtain ⟨v, c1, h5, h6⟩ := h4.act
  have known : ∀ p, P.find name value = some p → ∃ c rest', Cls.WF P.find c ∧
      92 :: (if neg then 80 else 112) :: 123 :: (name ++ (printValue value ++ 125 :: rest)) = c.print ++ rest' :=
    fun p hp => ⟨.prop neg p name value, rest, ⟨h2, h3, hp⟩, by simp [Cls.print]⟩
  cases value with
  | none =>
    cases hp : P.binary name with
    | some p => exact .inl (known p hp)
    | none => cases neg <;> simp [propStack, applyTerm, hp] at h5
  | some w =>
    cases hp : P.valued name w with
    | some p => exact .inl (known p hp)
    | none =>
      cases neg with
      | true => simp [propStack, applyTerm, hp] at h5
      | false =>
        simp [propStack, applyTerm, hp, Ctx.setStack] at h5
        subst h5
        exact .inr ⟨name, w, rest, h2, h3 w rfl, hp, by simp [Atom.print, printValue], h6⟩

/-- After a backslash outside of sets: references and assertions. -/
inductive Other (P : PropTable) (st : List Sym) (c : Ctx) : List Nat → Prop
  | ref (d : Nat) (i : List Nat) : 49 ≤ d → d ≤ 57 → Acc P i (.act .makeBackReference :: st) { c with stack := .num (d - 48) :: c.stack } →
      Other P st c (d :: i)
  | g (i : List Nat) : Acc P i (.term 123 :: .nt .m :: st) c → Other P st c (103 :: i)
  | assert (v : Nat) (i : List Nat) : v ∈ [65, 122, 90, 66, 98] → Other P st c (v :: i)

theorem letter_case {find : List Nat → Option (List Nat) → Option Nat} {l : Nat} {i : List Nat}
    (h : l ∈ [100, 68, 115, 83, 119, 87, 104, 72, 118, 86, 78]) : ∃ c rest, Cls.WF find c ∧ 92 :: l :: i = c.print ++ rest :=
  ⟨.letter l, i, h, rfl⟩

theorem control_case {l : Nat} {i : List Nat} (h : l ∈ [97, 101, 102, 110, 114, 116, 48]) :
    ∃ c rest, Char1.isEsc c = true ∧ (∀ bad, c.WF bad) ∧ 92 :: l :: i = c.print ++ rest :=
  ⟨.control l, i, rfl, fun _ => h, rfl⟩

theorem esc_back {i : List Nat} {k : Nat} {stk : List PItem} (hs : Clean false stk) {x : NT} {tl : List Sym}
    (hx : escTail x = some tl) (h : Acc P i (.nt x :: st) ⟨stk, k⟩) :
    (∃ c rest, Char1.isEsc c = true ∧ (∀ bad, c.WF bad) ∧ 92 :: i = c.print ++ rest) ∨
    (isClsNT x = true ∧ ∃ c rest, Cls.WF P.find c ∧ 92 :: i = c.print ++ rest) ∨
    (x = .backslash ∧ Other P st ⟨stk, k⟩ i) ∨
    (isClsNT x = true ∧ ∃ name w rest, isPropWord name ∧ isPropWord w ∧ P.find name (some w) = none ∧
      92 :: i = Atom.print (.unknown name w) ++ rest ∧ Acc P rest st ⟨.re (.reject false) :: stk, k⟩) := by
  have prop : ∀ {neg : Bool} {i : List Nat},
      Acc P i (.term 123 :: .nt .propertyName :: .term 125 :: .act (if neg then .makePropertyNegative else .makeProperty) :: st)
        ⟨stk, k⟩ → isClsNT x = true →
      (isClsNT x = true ∧ ∃ c rest, Cls.WF P.find c ∧ 92 :: (if neg then 80 else 112) :: i = c.print ++ rest) ∨
      (x = .backslash ∧ Other P st ⟨stk, k⟩ ((if neg then 80 else 112) :: i)) ∨
      (isClsNT x = true ∧ ∃ name w rest, isPropWord name ∧ isPropWord w ∧ P.find name (some w) = none ∧
        92 :: (if neg then 80 else 112) :: i = Atom.print (.unknown name w) ++ rest ∧ Acc P rest st ⟨.re (.reject false) :: stk, k⟩) := by
    intro neg i h hx
    exact (prop_back hs h).elim (fun h => .inl ⟨hx, h⟩) (fun h => .inr (.inr ⟨hx, h⟩))
  obtain ⟨p, r, h1, h2, h3⟩ := h.rules
  cases x <;> simp only [escTail, reduceCtorEq] at hx
  all_goals
    simp only [Parse.rules, rules_backslash, rules_backslashRange, rules_e, rules_f, List.mem_cons, List.not_mem_nil, or_false, Prod.mk.injEq] at h1
    repeat' (refine Or.elim h1 ?_ ?_ <;> clear h1 <;> intro h1)
  all_goals
    obtain ⟨rfl, rfl⟩ := h1
    simp only [Rhs.push.injEq, reduceCtorEq, false_and, or_false] at h3
    obtain ⟨l, rfl, h3⟩ := h3
    first
      | obtain ⟨i', rfl⟩ := head_some (accepts_term h2)
      | (obtain ⟨w, hw, hd⟩ := accepts_set h2; obtain ⟨i', rfl⟩ := head_some hw)
  all_goals first
    | exact .inr (.inl ⟨rfl, letter_case (by decide)⟩)
    | exact .inl (control_case (by decide))
    | exact .inl ⟨.escaped w, i', rfl, fun _ => List.contains_iff_mem.1 hd, rfl⟩
    | exact .inr (.inr (.inl ⟨rfl, .assert _ _ (by decide)⟩))
    | exact .inl (hexk_back (Run.any.acc h3))
    | exact .inl (hexl_back (Run.any.acc h3))
    | exact .inr (prop (neg := false) (Run.any.acc h3) rfl)
    | exact .inr (prop (neg := true) (Run.any.acc h3) rfl)
    | exact .inr (.inr (.inl ⟨rfl, .g _ (Run.any.acc h3)⟩))
    | skip
  refine .inr (.inr (.inl ⟨rfl, .ref _ _ ?_ ?_ ?_⟩))
  · simp only [List.contains_iff_mem, chars2, List.mem_cons, List.not_mem_nil, or_false] at hd; omega
  · simp only [List.contains_iff_mem, chars2, List.mem_cons, List.not_mem_nil, or_false] at hd; omega
  · exact (Run.anyAct rfl).acc h3

/-! ### Sets -/

theorem Acc.spell {c : Ctx} : ∀ (ts : List Nat) {i : List Nat} {st : List Sym}, Acc P i (ts.map .term ++ st) c →
    ∃ rest, i = ts ++ rest ∧ Acc P rest st c
  | [], i, st, h => ⟨i, rfl, h⟩
  | t :: ts, i, st, h => by
    obtain ⟨i', rfl, h'⟩ := Acc.term (st := ts.map .term ++ st) h
    obtain ⟨rest, rfl, h''⟩ := Acc.spell ts h'
    exact ⟨rest, rfl, h''⟩

/-- After the first letters of a name, the others and an action follow. -/
theorem spell_case {c : Ctx} {i u : List Nat} {a : Act} (n : Posix) (ts : List Nat) (hn : n.name = u ++ ts)
    (h : Acc P i (ts.map .term ++ .act a :: st) c) :
    ∃ (n : Posix) (rest : List Nat) (c' : Ctx), u ++ i = n.name ++ rest ∧ Acc P rest st c' := by
  obtain ⟨rest, rfl, h'⟩ := Acc.spell ts h
  obtain ⟨_, c1, _, h''⟩ := h'.act
  exact ⟨n, rest, c1, by rw [hn, List.append_assoc], h''⟩

theorem g_back {c : Ctx} {i : List Nat} (h : Acc P i (.nt .g :: st) c) :
    ∃ (n : Posix) (rest : List Nat) (c' : Ctx), 97 :: i = n.name ++ rest ∧ Acc P rest st c' := by
  obtain ⟨p, r, h1, h2, h3⟩ := h.rules
  simp only [Parse.rules, rules_g, List.mem_cons, List.not_mem_nil, or_false, Prod.mk.injEq] at h1
  rcases h1 with ⟨rfl, rfl⟩ | ⟨rfl, rfl⟩ <;> obtain ⟨i', rfl⟩ := head_some (accepts_term h2) <;>
    simp only [Rhs.push.injEq, reduceCtorEq, false_and, or_false] at h3 <;> obtain ⟨l, rfl, h3⟩ := h3
  · exact spell_case (u := [97, 115]) .ascii [99, 105, 105] rfl (Run.any.acc h3)
  · have h4 := Run.any.acc h3
    clear h h3 h2
    obtain ⟨p, r, h1, h2, h3⟩ := Acc.rules (x := .p) (st := st) h4
    simp only [Parse.rules, rules_p, List.mem_cons, List.not_mem_nil, or_false, Prod.mk.injEq] at h1
    rcases h1 with ⟨rfl, rfl⟩ | ⟨rfl, rfl⟩ <;> obtain ⟨i', rfl⟩ := head_some (accepts_term h2) <;>
      simp only [Rhs.push.injEq, reduceCtorEq, false_and, or_false] at h3 <;> obtain ⟨l, rfl, h3⟩ := h3
    · exact spell_case (u := [97, 108, 112]) .alpha [104, 97] rfl (Run.any.acc h3)
    · exact spell_case (u := [97, 108, 110]) .alnum [117, 109] rfl (Run.any.acc h3)

theorem h_back {c : Ctx} {i : List Nat} (h : Acc P i (.nt .h :: st) c) :
    ∃ (n : Posix) (rest : List Nat) (c' : Ctx), 112 :: i = n.name ++ rest ∧ Acc P rest st c' := by
  obtain ⟨p, r, h1, h2, h3⟩ := h.rules
  simp only [Parse.rules, rules_h, List.mem_cons, List.not_mem_nil, or_false, Prod.mk.injEq] at h1
  rcases h1 with ⟨rfl, rfl⟩ | ⟨rfl, rfl⟩ <;> obtain ⟨i', rfl⟩ := head_some (accepts_term h2) <;>
    simp only [Rhs.push.injEq, reduceCtorEq, false_and, or_false] at h3 <;> obtain ⟨l, rfl, h3⟩ := h3
  · exact spell_case (u := [112, 114]) .print [105, 110, 116] rfl (Run.any.acc h3)
  · exact spell_case (u := [112, 117]) .punct [110, 99, 116] rfl (Run.any.acc h3)

theorem classNamedName_back {c : Ctx} {i : List Nat} (h : Acc P i (.nt .classNamedName :: st) c) :
    ∃ (n : Posix) (rest : List Nat) (c' : Ctx), i = n.name ++ rest ∧ Acc P rest st c' := by
  obtain ⟨p, r, h1, h2, h3⟩ := h.rules
  simp only [Parse.rules, rules_classNamedName, List.mem_cons, List.not_mem_nil, or_false, Prod.mk.injEq] at h1
  repeat' (refine Or.elim h1 ?_ ?_ <;> clear h1 <;> intro h1)
  all_goals
    obtain ⟨rfl, rfl⟩ := h1
    simp only [Rhs.push.injEq, reduceCtorEq, false_and, or_false] at h3
    obtain ⟨l, rfl, h3⟩ := h3
    obtain ⟨i', rfl⟩ := head_some (accepts_term h2)
  · exact spell_case (u := [120]) .xdigit _ rfl (Run.any.acc h3)
  · exact spell_case (u := [100]) .digit _ rfl (Run.any.acc h3)
  · exact spell_case (u := [98]) .blank _ rfl (Run.any.acc h3)
  · exact spell_case (u := [99]) .cntrl _ rfl (Run.any.acc h3)
  · exact spell_case (u := [119]) .word _ rfl (Run.any.acc h3)
  · exact spell_case (u := [108]) .lower _ rfl (Run.any.acc h3)
  · exact spell_case (u := [115]) .space _ rfl (Run.any.acc h3)
  · exact spell_case (u := [117]) .upper _ rfl (Run.any.acc h3)
  · exact spell_case (u := [103]) .graph _ rfl (Run.any.acc h3)
  · exact g_back (Run.any.acc h3)
  · exact h_back (Run.any.acc h3)

theorem posix_back {c : Ctx} {i : List Nat} (h : Acc P i (.nt .i :: st) c) :
    ∃ (neg : Bool) (n : Posix) (rest : List Nat), i = (if neg then [94] else []) ++ (n.name ++ 58 :: 93 :: rest) := by
  have close : ∀ {i : List Nat}, (∃ (n : Posix) (rest : List Nat) (c' : Ctx), i = n.name ++ rest ∧
      Acc P rest (.term 58 :: .term 93 :: st) c') → ∃ (n : Posix) (rest : List Nat), i = n.name ++ 58 :: 93 :: rest := by
    rintro _ ⟨n, rest, c', rfl, h⟩
    obtain ⟨_, rfl, h'⟩ := h.term
    obtain ⟨_, rfl, _⟩ := h'.term
    exact ⟨n, _, rfl⟩
  have plain : ∀ {i : List Nat}, (∃ (n : Posix) (rest : List Nat), i = n.name ++ 58 :: 93 :: rest) →
    ∃ (neg : Bool) (n : Posix) (rest : List Nat), i = (if neg then [94] else []) ++ (n.name ++ 58 :: 93 :: rest) :=
    fun ⟨n, rest, h⟩ => ⟨false, n, rest, h⟩
  obtain ⟨p, r, h1, h2, h3⟩ := h.rules
  simp only [Parse.rules, rules_i, List.mem_cons, List.not_mem_nil, or_false, Prod.mk.injEq] at h1
  repeat' (refine Or.elim h1 ?_ ?_ <;> clear h1 <;> intro h1)
  all_goals
    obtain ⟨rfl, rfl⟩ := h1
    simp only [Rhs.push.injEq, reduceCtorEq, false_and, or_false] at h3
    obtain ⟨l, rfl, h3⟩ := h3
    obtain ⟨i', rfl⟩ := head_some (accepts_term h2)
  · obtain ⟨n, rest, c', rfl, h4⟩ := classNamedName_back (Run.any.acc h3)
    obtain ⟨_, c1, _, h5⟩ := h4.act
    obtain ⟨n', rest', e⟩ := close ⟨n, rest, c1, rfl, h5⟩
    exact ⟨true, n', rest', by rw [e]; rfl⟩
  · exact plain (close (spell_case (u := [120]) .xdigit _ rfl (Run.any.acc h3)))
  · exact plain (close (spell_case (u := [100]) .digit _ rfl (Run.any.acc h3)))
  · exact plain (close (spell_case (u := [98]) .blank _ rfl (Run.any.acc h3)))
  · exact plain (close (spell_case (u := [99]) .cntrl _ rfl (Run.any.acc h3)))
  · exact plain (close (spell_case (u := [119]) .word _ rfl (Run.any.acc h3)))
  · exact plain (close (spell_case (u := [108]) .lower _ rfl (Run.any.acc h3)))
  · exact plain (close (spell_case (u := [115]) .space _ rfl (Run.any.acc h3)))
  · exact plain (close (spell_case (u := [117]) .upper _ rfl (Run.any.acc h3)))
  · exact plain (close (spell_case (u := [103]) .graph _ rfl (Run.any.acc h3)))
  · exact plain (close (g_back (Run.any.acc h3)))
  · exact plain (close (h_back (Run.any.acc h3)))

/-- The characters the grammar reads as plain characters of a set. -/
theorem plain_chars12 {v : Nat} (h : chars12.contains v = true) : v ∉ specialInSet := by
  have : ∀ v ∈ chars12, v ∉ specialInSet := by decide
  exact this v (List.contains_iff_mem.1 h)

theorem plain_chars8 {v : Nat} (h : chars8.contains v = true) : v ∉ 94 :: specialInSet := by
  have : ∀ v ∈ chars8, v ∉ 94 :: specialInSet := by decide
  exact this v (List.contains_iff_mem.1 h)

theorem plain_others {v : Nat} (h : notOthers.contains v = false) : v ∉ 94 :: specialInSet := by
  have : ∀ v ∈ 94 :: specialInSet, notOthers.contains v = true := by decide
  intro hv
  rw [this v hv] at h
  cases h

theorem range_back {i : List Nat} {k : Nat} {a : CC} {stk : List PItem} (h : Acc P (45 :: i) (.nt .rangeNT :: st) ⟨.re (.cc a) :: stk, k⟩) :
    ∃ v c rest, a = .chr v ∧ Char1.WF specialInSet c ∧ i = c.print ++ rest := by
  have chr : ∀ {i : List Nat} {b : Nat}, Acc P i (.act .makeRange :: st) ⟨.re (.cc (.chr b)) :: .re (.cc a) :: stk, k⟩ → ∃ v, a = .chr v := by
    intro i b h
    obtain ⟨v, c1, h1, _⟩ := h.act
    cases a <;> simp [applyTerm] at h1
    exact ⟨_, rfl⟩
  have h' := Run.any.acc (h.push (l := [.any, .nt .j]) rfl)
  clear h
  obtain ⟨p, r, h1, h2, h3⟩ := Acc.rules (x := .j) (st := st) h'
  simp only [Parse.rules, rules_j, List.mem_cons, List.not_mem_nil, or_false, Prod.mk.injEq] at h1
  rcases h1 with ⟨rfl, rfl⟩ | ⟨rfl, rfl⟩ | ⟨rfl, rfl⟩ | ⟨rfl, rfl⟩ <;>
    simp only [Rhs.push.injEq, reduceCtorEq, false_and, or_false, exists_false] at h3 <;> obtain ⟨l, rfl, h3⟩ := h3
  · obtain ⟨i', rfl⟩ := head_some (accepts_term h2)
    have h4 := Run.any.acc h3
    rcases esc_back (x := .backslashRange) (by simp [Clean]) rfl h4 with ⟨c, rest, hc, hw, e⟩ | ⟨h, _⟩ | ⟨h, _⟩ | ⟨h, _⟩
    · obtain ⟨w, hw', hrun⟩ := escape_run (P := P) (k := k) (rest := rest) (st := .act .makeRange :: st) (x := .backslashRange)
        (stk := .re (.cc a) :: stk) (tl := []) rfl hc (hw [])
      rw [hw', List.cons_append, List.cons.injEq] at e
      rw [e.2] at h4
      obtain ⟨v, hv⟩ := chr (hrun.acc h4)
      exact ⟨v, c, rest, hv, hw _, by rw [hw', e.2]; rfl⟩
    · cases h
    · cases h
    · cases h
  · obtain ⟨w, hw, hd⟩ := accepts_set h2
    obtain ⟨i', rfl⟩ := head_some hw
    obtain ⟨v, hv⟩ := chr ((Run.anyAct rfl).acc h3)
    exact ⟨v, .plain w, i', hv, plain_chars12 hd, rfl⟩
  · obtain ⟨w, hw, hd⟩ := accepts_others h2
    obtain ⟨i', rfl⟩ := head_some hw
    obtain ⟨v, hv⟩ := chr ((Run.anyAct rfl).acc h3)
    exact ⟨v, .plain w, i', hv, fun h => plain_others hd (List.mem_cons_of_mem _ h), rfl⟩

/-- The character before `-` is the beginning of a range. -/
theorem one_or_range {i : List Nat} {k : Nat} {stk : List PItem} {c : Char1} {bad : List Nat} (hc : c.WF bad)
    (h : Acc P i (.nt .rangeNT :: st) ⟨.re (.cc (.chr (charTree c))) :: stk, k⟩) :
    ∃ (it : SetItem) (rest : List Nat), it.WF P.find bad ∧ c.print ++ i = it.print ++ rest ∧ Acc P rest st ⟨.re (.cc (itemTree it)) :: stk, k⟩ := by
  by_cases hi : i.head? = some 45
  · obtain ⟨i', rfl⟩ := head_some hi
    obtain ⟨v, b, rest, _, hb, rfl⟩ := range_back h
    exact ⟨.range c b, rest, ⟨hc, hb⟩, by simp [SetItem.print], (range_run hb).acc h⟩
  · exact ⟨.one c, i, hc, rfl, h.eps (range_eps hi)⟩

/-- After an item there is no `-`. -/
theorem tail_noRange {x y : NT} {bad : List Nat} {tl : List Sym} (hx : setEntry x = some (bad, y, tl)) {i : List Nat} {c : Ctx}
    (h : Acc P i (tl ++ st) c) : i.head? ≠ some 45 := by
  have : ∃ a tl', tl = .act a :: .nt .set2b :: tl' := by
    cases x <;> simp only [setEntry, Option.some.injEq, reduceCtorEq, Prod.mk.injEq] at hx <;> obtain ⟨rfl, rfl, rfl⟩ := hx <;>
      exact ⟨_, _, rfl⟩
  obtain ⟨a, tl', rfl⟩ := this
  obtain ⟨v, c1, _, h2⟩ := Acc.act h
  intro hi
  obtain ⟨i', rfl⟩ := head_some hi
  obtain ⟨p, r, h3, h4, h5⟩ := h2.rules
  have h6 := rule_of_mem h3 h4
  rw [show rule .set2b (45 :: i').head? = .reject from rfl] at h6
  subst h6
  rcases h5 with ⟨_, h, _⟩ | ⟨h, _⟩ <;> cases h

theorem posix_notChr (neg : Bool) (n : Posix) (v : Nat) : itemTree (.posix neg n) ≠ .chr v := by
  cases neg <;> cases n <;> simp [itemTree, Posix.cls, alphanumChars, alphaChars, asciiChars, digitChars, punctChars, spaceChars, wordChars, xdigitChars]

theorem item_back {i : List Nat} {k : Nat} {stk : List PItem} (hs : Clean false stk) {x y : NT} {bad : List Nat}
    {tl : List Sym} (hx : setEntry x = some (bad, y, tl)) (h : Acc P i (.nt x :: st) ⟨stk, k⟩) :
    (∃ (it : SetItem) (rest : List Nat), it.WF P.find bad ∧ i = it.print ++ rest ∧ Acc P rest (tl ++ st) ⟨.re (.cc (itemTree it)) :: stk, k⟩) ∨
    (x = .c ∧ i.head? = some 94) ∨ (x ≠ .c ∧ i.head? = some 93) := by
  by_cases h92 : i.head? = some 92
  · left
    obtain ⟨i', rfl⟩ := head_some h92
    obtain ⟨h1, h2, h3⟩ := set_esc hx
    have h4 := Run.any.acc (h.push h1)
    rcases esc_back (x := y) hs h2 h4 with ⟨c, rest, hc, hw, e⟩ | ⟨_, c, rest, hc, e⟩ | ⟨h, _⟩ | ⟨_, _, _, rest, _, _, _, _, hr⟩
    · obtain ⟨w, hw', hrun⟩ := escape_run (P := P) (k := k) (rest := rest) (st := tl ++ st) (stk := stk) h2 hc (hw [])
      rw [e]
      rw [hw', List.cons_append, List.cons.injEq] at e
      rw [e.2] at h4
      exact one_or_range (hw bad) (hrun.acc h4)
    · obtain ⟨w, hw', hrun⟩ := cls_run (P := P) (k := k) (rest := rest) (st := tl ++ st) (stk := stk) h3 hc hs
      refine ⟨.cls c, rest, hc, e, ?_⟩
      rw [hw', List.cons_append, List.cons.injEq] at e
      rw [e.2] at h4
      exact hrun.acc h4
    · subst h; simp [escTail] at h2
    · exfalso
      cases x <;> simp only [setEntry, Option.some.injEq, reduceCtorEq, Prod.mk.injEq] at hx <;> obtain ⟨rfl, rfl, rfl⟩ := hx <;>
        obtain ⟨v, c1, hr, _⟩ := Acc.act hr <;> simp [applyTerm] at hr
  by_cases h91 : i.head? = some 91
  · left
    obtain ⟨i', rfl⟩ := head_some h91
    have h4 := Run.any.acc (h.push (set_open hx))
    obtain ⟨i'', rfl, h5⟩ := Acc.term (st := .nt .i :: .nt .rangeNT :: (tl ++ st)) h4
    obtain ⟨neg, n, rest, rfl⟩ := posix_back h5
    have h6 := (posix_run neg n).acc h5
    by_cases hr : rest.head? = some 45
    · obtain ⟨r, rfl⟩ := head_some hr
      obtain ⟨v, _, _, hv, _⟩ := range_back h6
      exact (posix_notChr neg n v hv).elim
    · exact ⟨.posix neg n, rest, trivial, by simp [SetItem.print], h6.eps (range_eps hr)⟩
  obtain ⟨p, r, h1, h2, h3⟩ := h.rules
  have plain : ∀ v i', i = v :: i' → v ∉ bad → ∃ (it : SetItem) (rest : List Nat), it.WF P.find bad ∧ i = it.print ++ rest ∧
      Acc P rest (tl ++ st) ⟨.re (.cc (itemTree it)) :: stk, k⟩ := by
    rintro v i' rfl hv
    have h4 := (Run.anyAct rfl).acc (h.push (set_plain hx hv))
    exact one_or_range (c := .plain v) (bad := bad) hv h4
  cases x <;> simp only [setEntry, Option.some.injEq, reduceCtorEq, Prod.mk.injEq] at hx <;> obtain ⟨rfl, rfl, rfl⟩ := hx
  · simp only [Parse.rules, rules_c, List.mem_cons, List.not_mem_nil, or_false, Prod.mk.injEq] at h1
    rcases h1 with ⟨rfl, rfl⟩ | ⟨rfl, rfl⟩ | ⟨rfl, rfl⟩ | ⟨rfl, rfl⟩ | ⟨rfl, rfl⟩ | ⟨rfl, rfl⟩
    · exact (h91 (accepts_term h2)).elim
    · exact (h92 (accepts_term h2)).elim
    · obtain ⟨w, hw, hd⟩ := accepts_set h2
      obtain ⟨i', rfl⟩ := head_some hw
      exact .inl (plain w i' rfl (plain_chars8 hd))
    · obtain ⟨w, hw, hd⟩ := accepts_others h2
      obtain ⟨i', rfl⟩ := head_some hw
      exact .inl (plain w i' rfl (plain_others hd))
    · exact .inr (.inl ⟨rfl, accepts_term h2⟩)
    · simp at h3
  · simp only [Parse.rules, rules_set2a, List.mem_cons, List.not_mem_nil, or_false, Prod.mk.injEq] at h1
    rcases h1 with ⟨rfl, rfl⟩ | ⟨rfl, rfl⟩ | ⟨rfl, rfl⟩ | ⟨rfl, rfl⟩ | ⟨rfl, rfl⟩ | ⟨rfl, rfl⟩
    · exact (h91 (accepts_term h2)).elim
    · exact (h92 (accepts_term h2)).elim
    · obtain ⟨w, hw, hd⟩ := accepts_set h2
      obtain ⟨i', rfl⟩ := head_some hw
      exact .inl (plain w i' rfl (plain_chars12 hd))
    · obtain ⟨w, hw, hd⟩ := accepts_others h2
      obtain ⟨i', rfl⟩ := head_some hw
      exact .inl (plain w i' rfl (fun h => plain_others hd (List.mem_cons_of_mem _ h)))
    · exact .inr (.inr ⟨by simp, accepts_term h2⟩)
    · simp at h3
  · simp only [Parse.rules, rules_set2b, List.mem_cons, List.not_mem_nil, or_false, Prod.mk.injEq] at h1
    rcases h1 with ⟨rfl, rfl⟩ | ⟨rfl, rfl⟩ | ⟨rfl, rfl⟩ | ⟨rfl, rfl⟩ | ⟨rfl, rfl⟩ | ⟨rfl, rfl⟩
    · exact .inr (.inr ⟨by simp, accepts_term h2⟩)
    · exact (h91 (accepts_term h2)).elim
    · exact (h92 (accepts_term h2)).elim
    · obtain ⟨w, hw, hd⟩ := accepts_set h2
      obtain ⟨i', rfl⟩ := head_some hw
      exact .inl (plain w i' rfl (plain_chars12 hd))
    · obtain ⟨w, hw, hd⟩ := accepts_others h2
      obtain ⟨i', rfl⟩ := head_some hw
      exact .inl (plain w i' rfl (fun h => plain_others hd (List.mem_cons_of_mem _ h)))
    · simp at h3

theorem item_print_pos (it : SetItem) : 0 < it.print.length := by
  cases it with
  | one c => cases c <;> simp [SetItem.print, Char1.print]
  | range a b => simp [SetItem.print]; omega
  | cls c => cases c <;> simp [SetItem.print, Cls.print]
  | posix neg n => simp [SetItem.print]

theorem items_back {k : Nat} {stk : List PItem} : ∀ (n : Nat) {i : List Nat} {acc : List CC}, i.length ≤ n →
    Acc P i (.nt .set2b :: st) ⟨.re (.cc (.set acc)) :: stk, k⟩ →
    ∃ l rest, (∀ j ∈ l, SetItem.WF P.find specialInSet j) ∧ i = printItems l ++ 93 :: rest := by
  intro n
  induction n with
  | zero =>
    intro i acc hn h
    have : i = [] := by simpa using hn
    subst this
    rcases item_back (by simp [Clean]) rfl h with ⟨it, rest, _, e, _⟩ | ⟨_, h⟩ | ⟨_, h⟩
    · have := item_print_pos it
      have := congrArg List.length e
      simp at this
      omega
    · cases h
    · cases h
  | succ n ih =>
    intro i acc hn h
    rcases item_back (by simp [Clean]) rfl h with ⟨it, rest, hit, rfl, h'⟩ | ⟨h, _⟩ | ⟨_, h⟩
    · have := item_print_pos it
      have h' := (Run.act fun _ => rfl).acc h'
      obtain ⟨l, rest', hl, rfl⟩ := ih (by simp at hn; omega) h'
      exact ⟨it :: l, rest', List.forall_mem_cons.2 ⟨hit, hl⟩, by simp [printItems]⟩
    · cases h
    · obtain ⟨i', rfl⟩ := head_some h
      exact ⟨[], i', by simp, rfl⟩

theorem set_back {i : List Nat} {k : Nat} {stk : List PItem} (hs : Clean false stk) (h : Acc P i (.nt .c :: st) ⟨stk, k⟩) :
    ∃ neg l rest, SetWF P.find neg l ∧ i = (if neg then [94] else []) ++ (printItems l ++ 93 :: rest) := by
  rcases item_back hs rfl h with ⟨it, rest, hit, rfl, h'⟩ | ⟨_, h94⟩ | ⟨h, _⟩
  · have h' := (Run.act fun _ => rfl).acc h'
    obtain ⟨l, rest', hl, rfl⟩ := items_back _ (Nat.le_refl _) h'
    exact ⟨false, it :: l, rest', ⟨hit, hl⟩, by simp [printItems]⟩
  · obtain ⟨i', rfl⟩ := head_some h94
    have h' := Run.any.acc (h.push (l := [.any, .nt .set2a, .act .setMakeNegative, .term 93]) rfl)
    rcases item_back (x := .set2a) hs rfl h' with ⟨it, rest, hit, rfl, h5⟩ | ⟨h, _⟩ | ⟨_, h93⟩
    · have h' := (Run.act fun _ => rfl).acc h5
      obtain ⟨l, rest', hl, rfl⟩ := items_back _ (Nat.le_refl _) h'
      exact ⟨true, it :: l, rest', ⟨hit, hl⟩, by simp [printItems]⟩
    · cases h
    · obtain ⟨i', rfl⟩ := head_some h93
      exact ⟨true, [], i', rfl, rfl⟩
  · exact (h rfl).elim

/-! ### Quantifiers -/

theorem kind_back {i : List Nat} {k : Nat} {stk : List PItem} {r : Re} (h : Acc P i (.nt .modr :: st) ⟨.re r :: stk, k⟩) :
    ∃ c rest, i = printKind c ++ rest ∧ kindOK c r ∧ Acc P rest st ⟨.re (kindTree c r) :: stk, k⟩ := by
  by_cases h63 : i.head? = some 63
  · obtain ⟨i', rfl⟩ := head_some h63
    have h1 := Run.any.acc (h.push (l := [.any, .act .makeLazy]) rfl)
    obtain ⟨v, c1, h2, h3⟩ := Acc.act h1
    refine ⟨.lazy, i', rfl, ?_⟩
    simp only [applyTerm] at h2
    repeat' split at h2
    all_goals try cases h2
    · rename_i e
      simp only [List.cons.injEq, PItem.re.injEq] at e
      obtain ⟨rfl, rfl⟩ := e
      exact ⟨kindOK_greedy _ _ _ _, h3⟩
    · rename_i e
      simp only [List.cons.injEq, PItem.re.injEq] at e
      obtain ⟨rfl, rfl⟩ := e
      exact ⟨.inr (.inr ⟨rfl, _, rfl⟩), h3⟩
  by_cases h43 : i.head? = some 43
  · obtain ⟨i', rfl⟩ := head_some h43
    have h1 := Run.any.acc (h.push (l := [.any, .act .makePossessive]) rfl)
    obtain ⟨v, c1, h2, h3⟩ := Acc.act h1
    refine ⟨.poss, i', rfl, ?_⟩
    simp only [applyTerm] at h2
    repeat' split at h2
    all_goals try cases h2
    · rename_i e
      simp only [List.cons.injEq, PItem.re.injEq] at e
      obtain ⟨rfl, rfl⟩ := e
      exact ⟨kindOK_greedy _ _ _ _, h3⟩
  refine ⟨.greedy, i, rfl, .inl rfl, ?_⟩
  obtain ⟨p, r', h1, h2, h3⟩ := h.rules
  simp only [Parse.rules, rules_modr, List.mem_cons, List.not_mem_nil, or_false, Prod.mk.injEq] at h1
  rcases h1 with ⟨rfl, rfl⟩ | ⟨rfl, rfl⟩ | ⟨rfl, rfl⟩ | ⟨rfl, rfl⟩ | ⟨rfl, rfl⟩ | ⟨rfl, rfl⟩
  · simpa [kindTree] using h3
  · simpa [kindTree] using h3
  · simpa [kindTree] using h3
  · exact (h63 (accepts_term h2)).elim
  · exact (h43 (accepts_term h2)).elim
  · simp at h3

theorem quant_back {i : List Nat} {k : Nat} {stk : List PItem} {r : Re} (h : Acc P i (.nt .rept :: st) ⟨.re r :: stk, k⟩) :
    ∃ q rest, Quant.WF q ∧ i = q.print ++ rest ∧ (∀ c, q = .opt c → kindOK c (makeOptional r)) ∧
      Acc P rest st ⟨.re (quantTree q r) :: stk, k⟩ := by
  obtain ⟨p, r', h1, h2, h3⟩ := h.rules
  simp only [Parse.rules, rules_rept, List.mem_cons, List.not_mem_nil, or_false, Prod.mk.injEq] at h1
  rcases h1 with ⟨rfl, rfl⟩ | ⟨rfl, rfl⟩ | ⟨rfl, rfl⟩ | ⟨rfl, rfl⟩ | ⟨rfl, rfl⟩ | ⟨rfl, rfl⟩ | ⟨rfl, rfl⟩ | ⟨rfl, rfl⟩
  · exact ⟨.none, i, trivial, rfl, by simp, by simpa [quantTree] using h3⟩
  · exact ⟨.none, i, trivial, rfl, by simp, by simpa [quantTree] using h3⟩
  · exact ⟨.none, i, trivial, rfl, by simp, by simpa [quantTree] using h3⟩
  · obtain ⟨i', rfl⟩ := head_some (accepts_term h2)
    simp only [Rhs.push.injEq, reduceCtorEq, false_and, or_false] at h3
    obtain ⟨l, rfl, h3⟩ := h3
    obtain ⟨c, rest, rfl, h4, h5⟩ := kind_back (r := makeOptional r) ((Run.act fun _ => rfl).acc (Run.any.acc h3))
    exact ⟨.opt c, rest, trivial, rfl, fun c' e => by cases e; exact h4, h5⟩
  · obtain ⟨i', rfl⟩ := head_some (accepts_term h2)
    simp only [Rhs.push.injEq, reduceCtorEq, false_and, or_false] at h3
    obtain ⟨l, rfl, h3⟩ := h3
    have h4 := Run.any.acc h3
    obtain ⟨ds, rest, rfl, h5, h6⟩ := number_back h4
    have h7 := (number_run h6 h5).acc h4
    rcases h6 with h6 | h6 <;> obtain ⟨rest', rfl⟩ := head_some h6
    · have h8 := Run.any.acc (Acc.push (l := [.any, .nt .n]) (x := .b) (st := st) h7 rfl)
      obtain ⟨p, r', h1, h2, h3⟩ := Acc.rules (x := .n) (st := st) h8
      simp only [Parse.rules, rules_n, List.mem_cons, List.not_mem_nil, or_false, Prod.mk.injEq] at h1
      rcases h1 with ⟨rfl, rfl⟩ | ⟨rfl, rfl⟩ <;> simp only [Rhs.push.injEq, reduceCtorEq, false_and, or_false] at h3 <;>
        obtain ⟨l, rfl, h3⟩ := h3
      · obtain ⟨es, rest, rfl, h9, h10⟩ := number_back h3
        have h11 := (Run.act fun _ => rfl).acc ((number_run h10 h9).acc h3)
        obtain ⟨rest', rfl, h12⟩ := Acc.term (st := .nt .modr :: st) h11
        obtain ⟨c, rest, rfl, h13, h14⟩ := kind_back h12
        exact ⟨.between ds es c, rest, ⟨h5, h9⟩, by simp [Quant.print], by simp, h14⟩
      · obtain ⟨i', rfl⟩ := head_some (accepts_term h2)
        obtain ⟨c, rest, rfl, h13, h14⟩ := kind_back (Run.any.acc ((Run.act fun _ => rfl).acc h3))
        exact ⟨.atLeast ds c, rest, h5, by simp [Quant.print], by simp, h14⟩
    · have h8 := Run.any.acc ((Run.act fun _ => rfl).acc (Acc.push (l := [.act .repeatExactly, .any]) (x := .b) (st := st) h7 rfl))
      exact ⟨.exactly ds, rest', h5, by simp [Quant.print], by simp, h8⟩
  · obtain ⟨i', rfl⟩ := head_some (accepts_term h2)
    simp only [Rhs.push.injEq, reduceCtorEq, false_and, or_false] at h3
    obtain ⟨l, rfl, h3⟩ := h3
    obtain ⟨c, rest, rfl, h4, h5⟩ := kind_back ((Run.act fun _ => rfl).acc (Run.any.acc h3))
    exact ⟨.plus c, rest, trivial, rfl, by simp, h5⟩
  · obtain ⟨i', rfl⟩ := head_some (accepts_term h2)
    simp only [Rhs.push.injEq, reduceCtorEq, false_and, or_false] at h3
    obtain ⟨l, rfl, h3⟩ := h3
    obtain ⟨c, rest, rfl, h4, h5⟩ := kind_back ((Run.act fun _ => rfl).acc (Run.any.acc h3))
    exact ⟨.star c, rest, trivial, rfl, by simp, h5⟩
  · simp at h3

end

end Ctre.Parse
