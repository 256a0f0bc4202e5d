import Verif.Lemmas.ParseSteps

/-
Reading numbers, names, characters, classes and sets.
-/
namespace Ctre.Parse
open Surface

/-! ### Trees -/

/-- The character constant the parser builds. -/
def charTree : Char1 → Nat
  | .control l => if l = 101 then 0x14 else controlCode l
  | .x ds => hexadecimal ds % szMod
  | .u ds => hexadecimal ds % szMod
  | c => c.code

def clsTree : Cls → CC
  | .letter l => if 97 ≤ l then .set [letterClass l] else .negSet [letterClass l]
  | .prop neg p _ _ => if neg then .negate [.prop p] else .prop p

def itemTree : SetItem → CC
  | .one c => .chr (charTree c)
  | .range a b => .range (charTree a) (charTree b)
  | .cls c => clsTree c
  | .posix neg n => if neg then .negate [n.cls] else n.cls

def itemsTree : List SetItem → List CC
  | [] => []
  | i :: l => l.foldl (fun acc j => pushBackIntoSet (itemTree j) acc) [itemTree i]

def setTree (neg : Bool) (l : List SetItem) : CC := if neg then .negSet (itemsTree l) else .set (itemsTree l)

def PropTable.find (P : PropTable) (name : List Nat) (value : Option (List Nat)) : Option Nat :=
  match value with
  | none => P.binary name
  | some w => P.valued name w

/-! ### Numbers -/

theorem foldl_mod {b : Nat} {g : Nat → Nat} {f : Nat → Nat → Nat} (hf : ∀ n d, f n d = (n * b + g d) % szMod) :
    ∀ (ds : List Nat) (n : Nat), ds.foldl f (n % szMod) = ds.foldl (fun n d => b * n + g d) n % szMod
  | [], n => rfl
  | d :: ds, n => by
    simp only [List.foldl_cons]
    rw [show f (n % szMod) d = (b * n + g d) % szMod by rw [hf, Nat.add_mod, Nat.mod_mul_mod, ← Nat.add_mod, Nat.mul_comm]]
    exact foldl_mod hf ds _

theorem number2_run {P : PropTable} {k : Nat} {rest : List Nat} (hr : rest.head? = some 44 ∨ rest.head? = some 125) {st : List Sym}
    {stk : List PItem} : ∀ {ds : List Nat} {n : Nat}, (∀ d ∈ ds, isDec d) →
    Run P (ds ++ rest) (.nt .number2 :: st) ⟨.num n :: stk, k⟩ rest st
      ⟨.num (ds.foldl (fun n d => (n * 10 + (d - 48)) % szMod) n) :: stk, k⟩
  | [], n, _ => by
    refine .eps ?_
    rcases hr with h | h <;> simp only [List.nil_append, h] <;> rfl
  | d :: ds, n, h => by
    refine (Run.push (l := [.any, .act .pushNumber, .nt .number2]) ?_).trans ?_
    · exact rule_set (l := chars14) (by simp [rules, rules_number2]) (mem_chars14.2 (h d (by simp)))
    · refine (Run.anyAct (c' := ⟨.num ((n * 10 + (d - 48)) % szMod) :: stk, k⟩) rfl).trans ?_
      exact number2_run hr (fun d hd => h d (List.mem_cons_of_mem _ hd))

theorem decimal_cons_mod {d : Nat} {ds : List Nat} (h : isDec d) :
    ds.foldl (fun n d => (n * 10 + (d - 48)) % szMod) (d - 48) = decimal (d :: ds) % szMod := by
  have h1 : d - 48 = (d - 48) % szMod := by
    rw [Nat.mod_eq_of_lt]
    have := h.2
    simp only [szMod]; omega
  rw [h1, foldl_mod (b := 10) (g := fun d => d - 48) (fun n d => rfl)]
  simp [decimal]

theorem number_run {P : PropTable} {k : Nat} {rest : List Nat} (hr : rest.head? = some 44 ∨ rest.head? = some 125) {st : List Sym}
    {stk : List PItem} {ds : List Nat} (h : isNumber ds) :
    Run P (ds ++ rest) (.nt .number :: st) ⟨stk, k⟩ rest st ⟨.num (decimal ds % szMod) :: stk, k⟩ := by
  obtain ⟨h0, h⟩ := h
  cases ds with
  | nil => exact (h0 rfl).elim
  | cons d ds =>
    refine (Run.push (l := [.any, .act .createNumber, .nt .number2]) ?_).trans ?_
    · exact rule_set (l := chars14) (by simp [rules, rules_number]) (mem_chars14.2 (h d (by simp)))
    · refine (Run.anyAct (c' := ⟨.num (d - 48) :: stk, k⟩) rfl).trans ?_
      rw [← decimal_cons_mod (h d (by simp))]
      exact number2_run hr (fun d hd => h d (List.mem_cons_of_mem _ hd))

theorem hexValue_eq {d : Nat} (h : isHex d) : hexValue d = hexDigit d := by
  simp only [isHex, isDec] at h
  simp only [hexValue, hexDigit]
  repeat' split
  all_goals omega

theorem hexdecRepeat_run {P : PropTable} {k : Nat} {rest : List Nat} {st : List Sym}
    {stk : List PItem} : ∀ {ds : List Nat} {n : Nat}, (∀ d ∈ ds, isHex d) →
    Run P (ds ++ 125 :: rest) (.nt .hexdecRepeat :: st) ⟨.num n :: stk, k⟩ (125 :: rest) st
      ⟨.num (ds.foldl (fun n d => (n * 16 + hexValue d) % szMod) n) :: stk, k⟩
  | [], n, _ => .eps rfl
  | d :: ds, n, h => by
    refine (Run.push (l := [.any, .act .pushHexdec, .nt .hexdecRepeat]) ?_).trans ?_
    · exact rule_set (l := chars11) (by simp [rules, rules_hexdecRepeat]) (mem_chars11.2 (h d (by simp)))
    · refine (Run.anyAct (c' := ⟨.num ((n * 16 + hexValue d) % szMod) :: stk, k⟩) rfl).trans ?_
      exact hexdecRepeat_run (fun d hd => h d (List.mem_cons_of_mem _ hd))

theorem hex_fold {ds : List Nat} (h : ∀ d ∈ ds, isHex d) (n : Nat) :
    ds.foldl (fun n d => (n * 16 + hexValue d) % szMod) (n % szMod) =
      ds.foldl (fun n d => 16 * n + hexDigit d) n % szMod := by
  rw [foldl_mod (b := 16) (g := hexValue) (fun n d => rfl)]
  congr 1
  induction ds generalizing n with
  | nil => rfl
  | cons d ds ih =>
    simp only [List.foldl_cons]
    rw [hexValue_eq (h d (by simp))]
    exact ih (fun d hd => h d (List.mem_cons_of_mem _ hd)) _

/-- `{H...}` after `\x` or `\u`. -/
theorem hexBraces_run {P : PropTable} {k : Nat} {rest : List Nat} {st : List Sym} {stk : List PItem} {x : NT}
    (hx : x = .k ∨ x = .l) {ds : List Nat} (h0 : ds ≠ []) (h : ∀ d ∈ ds, isHex d) (hb : hexadecimal ds % szMod < 2 ^ 32) :
    Run P (123 :: (ds ++ 125 :: rest)) (.nt x :: st) ⟨stk, k⟩ rest st ⟨.re (.cc (.chr (hexadecimal ds % szMod))) :: stk, k⟩ := by
  refine (Run.push (l := [.act .createHexdec, .any, .set chars11, .act .pushHexdec, .nt .hexdecRepeat, .term 125,
    .act .finishHexdec]) ?_).trans ?_
  · rcases hx with rfl | rfl <;> rfl
  cases ds with
  | nil => exact (h0 rfl).elim
  | cons d ds =>
    refine (Run.act (c' := ⟨.num 0 :: stk, k⟩) (fun _ => rfl)).trans (Run.any.trans ?_)
    refine (Run.setAct (c' := ⟨.num ((0 * 16 + hexValue d) % szMod) :: stk, k⟩) (mem_chars11.2 (h d (by simp))) rfl).trans ?_
    refine (hexdecRepeat_run (fun d hd => h d (List.mem_cons_of_mem _ hd))).trans (Run.term.trans ?_)
    refine .act (fun _ => ?_)
    have := hex_fold (fun d hd => h d (List.mem_cons_of_mem _ hd) : ∀ d ∈ ds, isHex d) (16 * 0 + hexDigit d)
    rw [hexValue_eq (h d (by simp)), Nat.zero_mul]
    rw [Nat.mul_zero] at this
    simp only [applyTerm, this]
    rw [show ds.foldl (fun n d => 16 * n + hexDigit d) (0 + hexDigit d) = hexadecimal (d :: ds) by simp [hexadecimal]]
    rw [if_pos (by simpa using hb)]
    rfl

theorem hexadecimal_small {ds : List Nat} {n : Nat} (h : ∀ d ∈ ds, isHex d) (hl : ds.length = n) : hexadecimal ds < 16 ^ n := by
  have hd : ∀ d, isHex d → hexDigit d < 16 := by
    intro d h
    simp only [isHex, isDec] at h
    simp only [hexDigit]
    repeat' split
    all_goals omega
  have : ∀ (ds : List Nat) (m : Nat), (∀ d ∈ ds, isHex d) →
      ds.foldl (fun n d => 16 * n + hexDigit d) m < 16 ^ ds.length * (m + 1) := by
    intro ds
    induction ds with
    | nil => intro m _; simp
    | cons d ds ih =>
      intro m h
      simp only [List.foldl_cons]
      refine Nat.lt_of_lt_of_le (ih _ (fun d hd => h d (List.mem_cons_of_mem _ hd))) ?_
      rw [List.length_cons, Nat.pow_succ, Nat.mul_assoc]
      refine Nat.mul_le_mul_left _ ?_
      have := hd d (h d (by simp))
      omega
  simpa [hexadecimal, hl] using this ds 0 h

theorem hexShort {ds : List Nat} (h : ∀ d ∈ ds, isHex d) (hl : ds.length ≤ 4) :
    ds.foldl (fun n d => (n * 16 + hexValue d) % szMod) 0 = hexadecimal ds ∧ hexadecimal ds < 2 ^ 32 := by
  have h1 := hexadecimal_small h rfl
  have h2 : hexadecimal ds < 2 ^ 32 := Nat.lt_of_lt_of_le h1 (by
    calc 16 ^ ds.length ≤ 16 ^ 4 := Nat.pow_le_pow_right (by omega) hl
      _ ≤ 2 ^ 32 := by decide)
  refine ⟨?_, h2⟩
  have := hex_fold h 0
  rw [Nat.zero_mod] at this
  rw [this]
  exact Nat.mod_eq_of_lt (by simp only [szMod]; simp only [hexadecimal] at h2; omega)

theorem hex4_run {P : PropTable} {k : Nat} {rest : List Nat} {st : List Sym} {stk : List PItem} {a b c d : Nat}
    (ha : isHex a) (hb : isHex b) (hc : isHex c) (hd : isHex d) :
    Run P (a :: b :: c :: d :: rest) (.nt .k :: st) ⟨stk, k⟩ rest st ⟨.re (.cc (.chr (hexadecimal [a, b, c, d]))) :: stk, k⟩ := by
  refine (Run.push (l := [.act .createHexdec, .any, .act .pushHexdec, .set chars11, .act .pushHexdec, .set chars11,
    .act .pushHexdec, .set chars11, .act .pushHexdec, .act .finishHexdec]) ?_).trans ?_
  · exact rule_set (l := chars11) (by simp [rules, rules_k]) (mem_chars11.2 ha)
  refine (Run.act (c' := ⟨.num 0 :: stk, k⟩) (fun _ => rfl)).trans ?_
  refine (Run.anyAct rfl).trans ?_
  refine (Run.setAct (mem_chars11.2 hb) rfl).trans ?_
  refine (Run.setAct (mem_chars11.2 hc) rfl).trans ?_
  refine (Run.setAct (mem_chars11.2 hd) rfl).trans ?_
  refine .act (fun _ => ?_)
  have := hexShort (ds := [a, b, c, d]) (by simp [ha, hb, hc, hd]) (by simp)
  simp only [List.foldl_cons, List.foldl_nil] at this
  simp only [applyTerm, this.1]
  rw [if_pos (by simpa using this.2)]
  rfl

theorem hex2_run {P : PropTable} {k : Nat} {rest : List Nat} {st : List Sym} {stk : List PItem} {a b : Nat}
    (ha : isHex a) (hb : isHex b) :
    Run P (a :: b :: rest) (.nt .l :: st) ⟨stk, k⟩ rest st ⟨.re (.cc (.chr (hexadecimal [a, b]))) :: stk, k⟩ := by
  refine (Run.push (l := [.act .createHexdec, .any, .act .pushHexdec, .set chars11, .act .pushHexdec, .act .finishHexdec]) ?_).trans ?_
  · exact rule_set (l := chars11) (by simp [rules, rules_l]) (mem_chars11.2 ha)
  refine (Run.act (c' := ⟨.num 0 :: stk, k⟩) (fun _ => rfl)).trans ?_
  refine (Run.anyAct rfl).trans ?_
  refine (Run.setAct (mem_chars11.2 hb) rfl).trans ?_
  refine .act (fun _ => ?_)
  have := hexShort (ds := [a, b]) (by simp [ha, hb]) (by simp)
  simp only [List.foldl_cons, List.foldl_nil] at this
  simp only [applyTerm, this.1]
  rw [if_pos (by simpa using this.2)]
  rfl

/-! ### Characters -/

/-- Nonterminals that stand after a backslash; `[range]` follows in sets. -/
def escTail : NT → Option (List Sym)
  | .backslash => some []
  | .backslashRange => some []
  | .e => some [.nt .rangeNT]
  | .f => some [.nt .rangeNT]
  | _ => none

theorem esc_rule {x : NT} {tl : List Sym} (hx : escTail x = some tl) {v : Nat} (hv : chars3.contains v = true) :
    rule x (some v) = .push ([.any, .act .pushCharacter] ++ tl) := by
  cases x <;> simp only [escTail, Option.some.injEq, reduceCtorEq] at hx <;> subst hx <;>
    exact rule_set (l := chars3) (by simp [rules, rules_backslash, rules_backslashRange, rules_e, rules_f]) hv

/-- An escaped character: backslash first. -/
def Char1.isEsc : Char1 → Bool
  | .plain _ => false
  | _ => true

theorem escape_run {P : PropTable} {k : Nat} {rest : List Nat} {st : List Sym} {stk : List PItem} {x : NT} {tl : List Sym}
    (hx : escTail x = some tl) {c : Char1} (he : Char1.isEsc c = true) {bad : List Nat} (hc : c.WF bad) :
    ∃ w, c.print = 92 :: w ∧ Run P (w ++ rest) (.nt x :: st) ⟨stk, k⟩ rest (tl ++ st) ⟨.re (.cc (.chr (charTree c))) :: stk, k⟩ := by
  cases c with
  | plain v => simp [Char1.isEsc] at he
  | escaped v =>
    refine ⟨[v], rfl, (Run.push (esc_rule hx ?_)).trans ?_⟩
    · simp only [Char1.WF] at hc
      exact List.contains_iff_mem.2 hc
    · exact Run.anyAct rfl
  | control l =>
    refine ⟨[l], rfl, ?_⟩
    have hl : l = 97 ∨ l = 101 ∨ l = 102 ∨ l = 110 ∨ l = 114 ∨ l = 116 ∨ l = 48 := by simpa [Char1.WF] using hc
    cases x <;> simp only [escTail, Option.some.injEq, reduceCtorEq] at hx <;> subst hx <;>
      rcases hl with rfl | rfl | rfl | rfl | rfl | rfl | rfl <;>
      exact (Run.push rfl).trans (Run.anyAct rfl)
  | x2 a b =>
    refine ⟨[120, a, b], rfl, ?_⟩
    simp only [Char1.WF] at hc
    cases x <;> simp only [escTail, Option.some.injEq, reduceCtorEq] at hx <;> subst hx <;>
      exact (Run.push rfl).trans (Run.any.trans (hex2_run hc.1 hc.2))
  | u4 a b c d =>
    refine ⟨[117, a, b, c, d], rfl, ?_⟩
    simp only [Char1.WF] at hc
    cases x <;> simp only [escTail, Option.some.injEq, reduceCtorEq] at hx <;> subst hx <;>
      exact (Run.push rfl).trans (Run.any.trans (hex4_run hc.1 hc.2.1 hc.2.2.1 hc.2.2.2))
  | x ds =>
    refine ⟨120 :: 123 :: (ds ++ [125]), by simp [Char1.print], ?_⟩
    simp only [Char1.WF] at hc
    have := fun st => hexBraces_run (P := P) (k := k) (rest := rest) (st := st) (stk := stk) (.inr rfl) hc.1 hc.2.1 hc.2.2
    simp only [List.cons_append, List.append_assoc, List.nil_append]
    cases x <;> simp only [escTail, Option.some.injEq, reduceCtorEq] at hx <;> subst hx <;>
      exact (Run.push rfl).trans (Run.any.trans (this _))
  | u ds =>
    refine ⟨117 :: 123 :: (ds ++ [125]), by simp [Char1.print], ?_⟩
    simp only [Char1.WF] at hc
    have := fun st => hexBraces_run (P := P) (k := k) (rest := rest) (st := st) (stk := stk) (.inl rfl) hc.1 hc.2.1 hc.2.2
    simp only [List.cons_append, List.append_assoc, List.nil_append]
    cases x <;> simp only [escTail, Option.some.injEq, reduceCtorEq] at hx <;> subst hx <;>
      exact (Run.push rfl).trans (Run.any.trans (this _))

end Ctre.Parse
