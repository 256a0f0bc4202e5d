import Verif.Lemmas.ParseTokens

/-
Reading names, properties, sets and quantifiers.
-/
namespace Ctre.Parse
open Surface

/-! ### Names and properties -/

/-- No unfinished property on the stack, and no unfinished name if `n`. -/
def Clean (n : Bool) : List PItem → Prop
  | .propName _ :: _ => False
  | .propValue _ :: _ => False
  | .name _ :: _ => n = false
  | _ => True

theorem Clean.mono {n : Bool} {stk : List PItem} (h : Clean true stk) : Clean n stk := by
  cases stk with
  | nil => trivial
  | cons x _ => cases x <;> simp_all [Clean]

theorem Clean.weak {n : Bool} {stk : List PItem} (h : Clean n stk) : Clean false stk := by
  cases stk with
  | nil => trivial
  | cons x _ => cases x <;> simp_all [Clean]

theorem blockName2_run {P : PropTable} {k : Nat} {rest : List Nat} (hr : rest.head? = some 62 ∨ rest.head? = some 125)
    {st : List Sym} {stk : List PItem} : ∀ {w u : List Nat}, (∀ v ∈ w, isNameChar v) →
    Run P (w ++ rest) (.nt .blockName2 :: st) ⟨.name u :: stk, k⟩ rest st ⟨.name (u ++ w) :: stk, k⟩
  | [], u, _ => by
    rw [List.append_nil]
    refine .eps ?_
    rcases hr with h | h <;> simp only [List.nil_append, h] <;> rfl
  | v :: w, u, h => by
    refine (Run.push (l := [.any, .act .pushName, .nt .blockName2]) ?_).trans ?_
    · exact rule_set (l := chars6) (by simp [rules, rules_blockName2]) (mem_chars6.2 (h v (by simp)))
    · refine (Run.anyAct (c' := ⟨.name (u ++ [v]) :: stk, k⟩) rfl).trans ?_
      have := blockName2_run (P := P) (k := k) hr (st := st) (stk := stk) (w := w) (u := u ++ [v])
        (fun d hd => h d (List.mem_cons_of_mem _ hd))
      simpa using this

theorem pushName_clean {P : PropTable} {v k : Nat} {stk : List PItem} (h : Clean true stk) :
    applyTerm P v ⟨stk, k⟩ .pushName = .ok ⟨.name [v] :: stk, k⟩ := by
  cases stk with
  | nil => rfl
  | cons x l => cases x <;> first | rfl | exact (Bool.noConfusion h)

theorem pushPropertyName_clean {P : PropTable} {v k : Nat} {stk : List PItem} (h : Clean false stk) :
    applyTerm P v ⟨stk, k⟩ .pushPropertyName = .ok ⟨.propName [v] :: stk, k⟩ := by
  cases stk with
  | nil => rfl
  | cons x l => cases x <;> first | rfl | exact h.elim

theorem propertyValue2_run {P : PropTable} {k : Nat} {rest : List Nat} {st : List Sym} {stk : List PItem} :
    ∀ {w u : List Nat}, (∀ v ∈ w, isPropChar v) →
    Run P (w ++ 125 :: rest) (.nt .propertyValue2 :: st) ⟨.propValue u :: stk, k⟩ (125 :: rest) st
      ⟨.propValue (u ++ w) :: stk, k⟩
  | [], u, _ => by
    rw [List.append_nil]
    exact .eps rfl
  | v :: w, u, h => by
    refine (Run.push (l := [.any, .act .pushPropertyValue, .nt .propertyValue2]) ?_).trans ?_
    · exact rule_set (l := chars19) (by simp [rules, rules_propertyValue2]) (mem_chars19.2 (h v (by simp)))
    · refine (Run.anyAct (c' := ⟨.propValue (u ++ [v]) :: stk, k⟩) rfl).trans ?_
      have := propertyValue2_run (P := P) (k := k) (rest := rest) (st := st) (stk := stk) (w := w) (u := u ++ [v])
        (fun d hd => h d (List.mem_cons_of_mem _ hd))
      simpa using this

/-- Stack after the name and value of a property. -/
def propStack (name : List Nat) : Option (List Nat) → List PItem → List PItem
  | none, stk => .propName name :: stk
  | some w, stk => .propValue w :: .propName name :: stk

theorem propertyName2_run {P : PropTable} {k : Nat} {rest : List Nat} {st : List Sym} {stk : List PItem} {value : Option (List Nat)}
    (hv : ∀ w, value = some w → isPropWord w) : ∀ {w u : List Nat}, (∀ v ∈ w, isPropChar v) →
    Run P (w ++ (printValue value ++ 125 :: rest)) (.nt .propertyName2 :: st) ⟨.propName u :: stk, k⟩ (125 :: rest) st
      ⟨propStack (u ++ w) value stk, k⟩
  | [], u, _ => by
    rw [List.append_nil]
    cases value with
    | none => exact .eps rfl
    | some w =>
      obtain ⟨h0, h⟩ := hv w rfl
      cases w with
      | nil => exact (h0 rfl).elim
      | cons v w =>
        refine (Run.push (l := [.any, .nt .propertyValue]) rfl).trans (Run.any.trans ?_)
        refine (Run.push (l := [.any, .act .pushPropertyValue, .nt .propertyValue2]) ?_).trans ?_
        · exact rule_set (l := chars19) (by simp [rules, rules_propertyValue]) (mem_chars19.2 (h v (by simp)))
        · refine (Run.anyAct (c' := ⟨.propValue [v] :: .propName u :: stk, k⟩) rfl).trans ?_
          exact propertyValue2_run (fun d hd => h d (List.mem_cons_of_mem _ hd))
  | v :: w, u, h => by
    refine (Run.push (l := [.any, .act .pushPropertyName, .nt .propertyName2]) ?_).trans ?_
    · exact rule_set (l := chars19) (by simp [rules, rules_propertyName2]) (mem_chars19.2 (h v (by simp)))
    · refine (Run.anyAct (c' := ⟨.propName (u ++ [v]) :: stk, k⟩) rfl).trans ?_
      have := propertyName2_run (P := P) (k := k) (rest := rest) (st := st) (stk := stk) hv (w := w) (u := u ++ [v])
        (fun d hd => h d (List.mem_cons_of_mem _ hd))
      simpa using this

/-- `name}` or `name=value}` after `\p{`. -/
theorem property_run {P : PropTable} {k : Nat} {rest : List Nat} {st : List Sym} {stk : List PItem} {name : List Nat}
    {value : Option (List Nat)} (hn : isPropWord name) (hv : ∀ w, value = some w → isPropWord w) (hs : Clean false stk) :
    Run P (name ++ (printValue value ++ 125 :: rest)) (.nt .propertyName :: st) ⟨stk, k⟩ (125 :: rest) st
      ⟨propStack name value stk, k⟩ := by
  obtain ⟨h0, h⟩ := hn
  cases name with
  | nil => exact (h0 rfl).elim
  | cons v w =>
    refine (Run.push (l := [.any, .act .pushPropertyName, .nt .propertyName2]) ?_).trans ?_
    · exact rule_set (l := chars19) (by simp [rules, rules_propertyName]) (mem_chars19.2 (h v (by simp)))
    · refine (Run.anyAct (pushPropertyName_clean hs)).trans ?_
      exact propertyName2_run hv (fun d hd => h d (List.mem_cons_of_mem _ hd))

/-- Nonterminals that read a class after a backslash. -/
def isClsNT : NT → Bool
  | .backslash => true
  | .e => true
  | .f => true
  | _ => false

theorem cls_run {P : PropTable} {k : Nat} {rest : List Nat} {st : List Sym} {stk : List PItem} {x : NT}
    (hx : isClsNT x = true) {c : Cls} (hc : c.WF P.find) (hs : Clean false stk) :
    ∃ w, c.print = 92 :: w ∧ Run P (w ++ rest) (.nt x :: st) ⟨stk, k⟩ rest st ⟨.re (.cc (clsTree c)) :: stk, k⟩ := by
  cases c with
  | letter l =>
    refine ⟨[l], rfl, ?_⟩
    have hl : l = 100 ∨ l = 68 ∨ l = 115 ∨ l = 83 ∨ l = 119 ∨ l = 87 ∨ l = 104 ∨ l = 72 ∨ l = 118 ∨ l = 86 ∨ l = 78 := by
      simpa [Cls.WF] using hc
    cases x <;> simp only [isClsNT, reduceCtorEq, Bool.false_eq_true] at hx <;>
      rcases hl with rfl | rfl | rfl | rfl | rfl | rfl | rfl | rfl | rfl | rfl | rfl <;>
      exact (Run.push rfl).trans (Run.anyAct rfl)
  | prop neg p name value =>
    simp only [Cls.WF] at hc
    obtain ⟨h1, h2, h3⟩ := hc
    refine ⟨(if neg then 80 else 112) :: 123 :: (name ++ (printValue value ++ [125])), by simp [Cls.print], ?_⟩
    have h4 : ∀ v, applyTerm P v ⟨propStack name value stk, k⟩ (if neg then .makePropertyNegative else .makeProperty) =
        .ok ⟨.re (.cc (clsTree (.prop neg p name value))) :: stk, k⟩ := by
      intro v
      cases value <;> cases neg <;>
        simp only [PropTable.find] at h3 <;> simp [propStack, applyTerm, h3, Ctx.setStack, clsTree]
    have h5 := property_run (P := P) (k := k) (rest := rest) (stk := stk) h1 h2 hs
      (st := .term 125 :: .act (if neg then .makePropertyNegative else .makeProperty) :: st)
    have h6 := h5.trans (Run.term.trans (.act h4))
    simp only [List.cons_append, List.append_assoc, List.nil_append]
    cases neg <;> cases x <;> simp only [isClsNT, reduceCtorEq, Bool.false_eq_true] at hx <;>
      exact (Run.push rfl).trans (Run.any.trans (Run.term.trans h6))

/-! ### Sets -/

theorem range_eps {v : Option Nat} (h : v ≠ some 45) : rule .rangeNT v = .eps := by
  cases v with
  | none => rfl
  | some v =>
    have h : v ≠ 45 := fun e => h (by rw [e])
    by_cases hv : notOthers.contains v = true
    · have : ∀ v ∈ notOthers, v ≠ 45 → chars20.contains v = true := by decide
      exact rule_set (l := chars20) (by simp [rules, rules_rangeNT]) (this v (List.contains_iff_mem.1 hv) h)
    · exact rule_others (by simp [rules, rules_rangeNT]) (by simpa using hv)

/-- Nonterminals at the beginning of an item of a set: characters that have to be escaped, nonterminal after a
backslash, what follows. -/
def setEntry : NT → Option (List Nat × NT × List Sym)
  | .c => some (94 :: specialInSet, .e, [.act .setStart, .nt .set2b, .act .setMake, .term 93])
  | .set2a => some (specialInSet, .f, [.act .setStart, .nt .set2b])
  | .set2b => some (specialInSet, .f, [.act .setCombine, .nt .set2b])
  | _ => none

theorem set_plain {x y : NT} {bad : List Nat} {tl : List Sym} (hx : setEntry x = some (bad, y, tl)) {v : Nat} (hv : v ∉ bad) :
    rule x (some v) = .push ([.any, .act .pushCharacter, .nt .rangeNT] ++ tl) := by
  by_cases hn : notOthers.contains v = true
  · have h8 : ∀ v ∈ notOthers, v ∉ 94 :: specialInSet → chars8.contains v = true := by decide
    have h12 : ∀ v ∈ notOthers, v ∉ specialInSet → chars12.contains v = true := by decide
    cases x <;> simp only [setEntry, Option.some.injEq, reduceCtorEq, Prod.mk.injEq] at hx <;> obtain ⟨rfl, rfl, rfl⟩ := hx
    · exact rule_set (l := chars8) (by simp [rules, rules_c]) (h8 v (List.contains_iff_mem.1 hn) hv)
    · exact rule_set (l := chars12) (by simp [rules, rules_set2a]) (h12 v (List.contains_iff_mem.1 hn) hv)
    · exact rule_set (l := chars12) (by simp [rules, rules_set2b]) (h12 v (List.contains_iff_mem.1 hn) hv)
  · have hn : notOthers.contains v = false := by simpa using hn
    cases x <;> simp only [setEntry, Option.some.injEq, reduceCtorEq, Prod.mk.injEq] at hx <;> obtain ⟨rfl, rfl, rfl⟩ := hx <;>
      exact rule_others (by simp [rules, rules_c, rules_set2a, rules_set2b]) hn

theorem j_plain {v : Nat} (hv : v ∉ specialInSet) : rule .j (some v) = .push [.any, .act .pushCharacter, .act .makeRange] := by
  by_cases hn : notOthers.contains v = true
  · have h12 : ∀ v ∈ notOthers, v ∉ specialInSet → chars12.contains v = true := by decide
    exact rule_set (l := chars12) (by simp [rules, rules_j]) (h12 v (List.contains_iff_mem.1 hn) hv)
  · exact rule_others (by simp [rules, rules_j]) (by simpa using hn)

theorem set_esc {x y : NT} {bad : List Nat} {tl : List Sym} (hx : setEntry x = some (bad, y, tl)) :
    rule x (some 92) = .push ([.any, .nt y] ++ tl) ∧ escTail y = some [.nt .rangeNT] ∧ isClsNT y = true := by
  cases x <;> simp only [setEntry, Option.some.injEq, reduceCtorEq, Prod.mk.injEq] at hx <;> obtain ⟨rfl, rfl, rfl⟩ := hx <;>
    exact ⟨rfl, rfl, rfl⟩

theorem set_open {x y : NT} {bad : List Nat} {tl : List Sym} (hx : setEntry x = some (bad, y, tl)) :
    rule x (some 91) = .push ([.any, .term 58, .nt .i, .nt .rangeNT] ++ tl) := by
  cases x <;> simp only [setEntry, Option.some.injEq, reduceCtorEq, Prod.mk.injEq] at hx <;> obtain ⟨rfl, rfl, rfl⟩ := hx <;> rfl

/-- The first character of an item up to a possible range. -/
theorem char_run {P : PropTable} {k : Nat} {rest : List Nat} {st : List Sym} {stk : List PItem} {x y : NT} {bad : List Nat}
    {tl : List Sym} (hx : setEntry x = some (bad, y, tl)) {c : Char1} (hc : c.WF bad) :
    Run P (c.print ++ rest) (.nt x :: st) ⟨stk, k⟩ rest (.nt .rangeNT :: tl ++ st) ⟨.re (.cc (.chr (charTree c))) :: stk, k⟩ := by
  cases he : Char1.isEsc c with
  | false =>
    cases c <;> simp only [Char1.isEsc, reduceCtorEq] at he
    exact (Run.push (set_plain hx hc)).trans (Run.anyAct rfl)
  | true =>
    obtain ⟨h1, h2, _⟩ := set_esc hx
    obtain ⟨w, hw, h⟩ := escape_run (P := P) (k := k) (rest := rest) (st := tl ++ st) (stk := stk) h2 he hc
    rw [hw]
    refine (Run.push h1).trans (Run.any.trans ?_)
    simpa using h

/-- The end of a range. -/
theorem range_run {P : PropTable} {k a : Nat} {rest : List Nat} {st : List Sym} {stk : List PItem} {c : Char1}
    (hc : c.WF specialInSet) :
    Run P (45 :: (c.print ++ rest)) (.nt .rangeNT :: st) ⟨.re (.cc (.chr a)) :: stk, k⟩ rest st
      ⟨.re (.cc (.range a (charTree c))) :: stk, k⟩ := by
  refine (Run.push (l := [.any, .nt .j]) rfl).trans (Run.any.trans ?_)
  cases he : Char1.isEsc c with
  | false =>
    cases c <;> simp only [Char1.isEsc, reduceCtorEq] at he
    exact (Run.push (j_plain hc)).trans ((Run.anyAct rfl).trans (.act fun _ => rfl))
  | true =>
    obtain ⟨w, hw, h⟩ := escape_run (P := P) (k := k) (rest := rest) (st := .act .makeRange :: st)
      (stk := .re (.cc (.chr a)) :: stk) (x := .backslashRange) (tl := []) rfl he hc
    rw [hw]
    refine (Run.push (l := [.any, .nt .backslashRange, .act .makeRange]) rfl).trans (Run.any.trans (h.trans ?_))
    exact .act fun _ => rfl

macro "run_steps" : tactic =>
  `(tactic| repeat first
    | exact Run.refl
    | refine Run.trans Run.term ?_
    | refine Run.trans Run.any ?_
    | refine Run.trans (Run.push rfl) ?_
    | refine Run.trans (Run.act fun _ => rfl) ?_)

theorem posix_run {P : PropTable} {k : Nat} {rest : List Nat} {st : List Sym} {stk : List PItem} (neg : Bool) (n : Posix) :
    Run P ((if neg then [94] else []) ++ (n.name ++ 58 :: 93 :: rest)) (.nt .i :: st) ⟨stk, k⟩ rest st
      ⟨.re (.cc (itemTree (.posix neg n))) :: stk, k⟩ := by
  cases neg <;> cases n <;> (run_steps)

theorem item_run {P : PropTable} {k : Nat} {rest : List Nat} (hr : rest.head? ≠ some 45) {st : List Sym} {stk : List PItem}
    (hs : Clean false stk) {x y : NT} {bad : List Nat}
    {tl : List Sym} (hx : setEntry x = some (bad, y, tl)) {i : SetItem} (hi : i.WF P.find bad) :
    Run P (i.print ++ rest) (.nt x :: st) ⟨stk, k⟩ rest (tl ++ st) ⟨.re (.cc (itemTree i)) :: stk, k⟩ := by
  cases i with
  | one c => exact (char_run hx hi).trans (.eps (range_eps hr))
  | range a b =>
    have := (char_run (P := P) (k := k) (rest := 45 :: (b.print ++ rest)) (st := st) (stk := stk) hx hi.1).trans (range_run hi.2)
    simpa [SetItem.print, itemTree] using this
  | cls c =>
    obtain ⟨h1, _, h3⟩ := set_esc hx
    obtain ⟨w, hw, h⟩ := cls_run (P := P) (k := k) (rest := rest) (st := tl ++ st) (stk := stk) h3 hi hs
    rw [SetItem.print, hw]
    refine (Run.push h1).trans (Run.any.trans ?_)
    exact h
  | posix neg n =>
    have := (posix_run (P := P) (k := k) (rest := rest) (st := .nt .rangeNT :: tl ++ st) (stk := stk) neg n).trans
      (.eps (range_eps hr))
    have := (Run.push (P := P) (i := 91 :: 58 :: ((if neg then [94] else []) ++ (n.name ++ 58 :: 93 :: rest)))
      (st := st) (c := ⟨stk, k⟩) (set_open hx)).trans (Run.any.trans (Run.term.trans this))
    simpa [SetItem.print] using this

theorem items_head {l : List SetItem} {find : List Nat → Option (List Nat) → Option Nat} {rest : List Nat}
    (h : ∀ j ∈ l, j.WF find specialInSet) : (printItems l ++ 93 :: rest).head? ≠ some 45 := by
  have hc : ∀ c : Char1, c.WF specialInSet → ∀ r, (c.print ++ r).head? ≠ some 45 := by
    intro c hc r
    cases c with
    | plain v =>
      simp only [Char1.print, List.singleton_append, List.head?_cons, ne_eq, Option.some.injEq]
      rintro rfl
      exact hc (by simp [specialInSet])
    | _ => simp [Char1.print]
  cases l with
  | nil => simp [printItems]
  | cons i l =>
    have hi := h i (by simp)
    simp only [printItems, List.append_assoc]
    cases i with
    | one c => exact hc c hi _
    | range a b => simp only [SetItem.print, List.append_assoc]; exact hc a hi.1 _
    | cls c => cases c <;> simp [SetItem.print, Cls.print]
    | posix neg n => simp [SetItem.print]

theorem items_run {P : PropTable} {k : Nat} {rest : List Nat} {st : List Sym} {stk : List PItem} :
    ∀ {l : List SetItem} {acc : List CC}, (∀ j ∈ l, j.WF P.find specialInSet) →
    Run P (printItems l ++ 93 :: rest) (.nt .set2b :: st) ⟨.re (.cc (.set acc)) :: stk, k⟩ (93 :: rest) st
      ⟨.re (.cc (.set (l.foldl (fun acc j => pushBackIntoSet (itemTree j) acc) acc))) :: stk, k⟩
  | [], acc, _ => .eps rfl
  | i :: l, acc, h => by
    simp only [printItems, List.append_assoc]
    refine (item_run (items_head (fun j hj => h j (List.mem_cons_of_mem _ hj))) (by trivial) rfl (h i (by simp))).trans ?_
    refine (Run.act (fun _ => rfl)).trans ?_
    exact items_run (fun j hj => h j (List.mem_cons_of_mem _ hj))

theorem set_run {P : PropTable} {k : Nat} {rest : List Nat} {st : List Sym} {stk : List PItem} (hs : Clean false stk)
    {neg : Bool} {l : List SetItem} (h : SetWF P.find neg l) :
    Run P ((if neg then [94] else []) ++ (printItems l ++ 93 :: rest)) (.nt .c :: st) ⟨stk, k⟩ rest st
      ⟨.re (.cc (setTree neg l)) :: stk, k⟩ := by
  cases neg with
  | true =>
    refine (Run.push (l := [.any, .nt .set2a, .act .setMakeNegative, .term 93]) rfl).trans (Run.any.trans ?_)
    cases l with
    | nil =>
      refine (Run.push rfl).trans ((Run.act fun _ => rfl).trans ((Run.act fun _ => rfl).trans ?_))
      exact Run.term
    | cons i l =>
      obtain ⟨h1, h2⟩ := h
      simp only [printItems, List.append_assoc, if_true, List.nil_append]
      refine (item_run (items_head h2) hs rfl h1).trans ?_
      refine (Run.act fun _ => rfl).trans ((items_run h2).trans ?_)
      exact (Run.act fun _ => rfl).trans Run.term
  | false =>
    cases l with
    | nil => simp [SetWF] at h
    | cons i l =>
      obtain ⟨h1, h2⟩ := h
      simp only [printItems, List.append_assoc, Bool.false_eq_true, if_false, List.nil_append]
      refine (item_run (items_head h2) hs rfl h1).trans ?_
      refine (Run.act fun _ => rfl).trans ((items_run h2).trans ?_)
      exact (Run.act fun _ => rfl).trans Run.term

/-! ### Quantifiers -/

/-- `?` and `+` after a quantifier. -/
def kindTree : RepKind → Re → Re
  | .lazy, .rep .greedy a b l => .rep .lazy a b l
  | .poss, .rep .greedy a b l => .rep .poss a b l
  | _, r => r

def quantTree (q : Quant) (r : Re) : Re :=
  match q with
  | .none => r
  | .opt k => kindTree k (makeOptional r)
  | .star k => kindTree k (.rep .greedy 0 0 (unpack r))
  | .plus k => kindTree k (.rep .greedy 1 0 (unpack r))
  | .exactly ds => .rep .greedy (decimal ds % szMod) (decimal ds % szMod) (unpack r)
  | .atLeast ds k => kindTree k (.rep .greedy (decimal ds % szMod) 0 (unpack r))
  | .between ds es k => kindTree k (.rep .greedy (decimal ds % szMod) (decimal es % szMod) (unpack r))

/-- Not a quantifier character. -/
def noQuant (v : Option Nat) : Prop := v ≠ some 42 ∧ v ≠ some 43 ∧ v ≠ some 63 ∧ v ≠ some 123 ∧ v ≠ some 125

theorem rept_eps {x : NT} (hx : x = .rept ∨ x = .modr) {v : Option Nat} (h : noQuant v) : rule x v = .eps := by
  cases v with
  | none => rcases hx with rfl | rfl <;> rfl
  | some v =>
    simp only [noQuant, ne_eq, Option.some.injEq] at h
    by_cases hv : notOthers.contains v = true
    · have : ∀ v ∈ notOthers, v ≠ 42 → v ≠ 43 → v ≠ 63 → v ≠ 123 → v ≠ 125 → chars15.contains v = true := by decide
      rcases hx with rfl | rfl <;>
        exact rule_set (l := chars15) (by simp [rules, rules_rept, rules_modr])
          (this v (List.contains_iff_mem.1 hv) h.1 h.2.1 h.2.2.1 h.2.2.2.1 h.2.2.2.2)
    · rcases hx with rfl | rfl <;> exact rule_others (by simp [rules, rules_rept, rules_modr]) (by simpa using hv)

/-- `makeLazy`, `makePossessive` apply to the tree. -/
def kindOK (q : RepKind) (r : Re) : Prop :=
  q = .greedy ∨ (∃ a b l, r = .rep .greedy a b l) ∨ (q = .lazy ∧ ∃ l, r = .rep .lazy 0 1 l)

theorem kind_run {P : PropTable} {k : Nat} {rest : List Nat} (hr : noQuant rest.head?) {st : List Sym} {stk : List PItem}
    {q : RepKind} {r : Re} (h : kindOK q r) :
    Run P (printKind q ++ rest) (.nt .modr :: st) ⟨.re r :: stk, k⟩ rest st ⟨.re (kindTree q r) :: stk, k⟩ := by
  rcases h with rfl | ⟨a, b, l, rfl⟩ | ⟨rfl, l, rfl⟩
  · exact .eps (rept_eps (.inr rfl) hr)
  · cases q with
    | greedy => exact .eps (rept_eps (.inr rfl) hr)
    | lazy => exact (Run.push rfl).trans (Run.any.trans (.act fun _ => rfl))
    | poss => exact (Run.push rfl).trans (Run.any.trans (.act fun _ => rfl))
  · exact (Run.push rfl).trans (Run.any.trans (.act fun _ => rfl))

theorem kindOK_greedy (q : RepKind) (a b : Nat) (l : List Re) : kindOK q (.rep .greedy a b l) :=
  .inr (.inl ⟨a, b, l, rfl⟩)

theorem quant_run {P : PropTable} {k : Nat} {rest : List Nat} (hr : noQuant rest.head?) {st : List Sym} {stk : List PItem}
    {q : Quant} {r : Re} (hq : q.WF) (h : ∀ c, q = .opt c → kindOK c (makeOptional r)) :
    Run P (q.print ++ rest) (.nt .rept :: st) ⟨.re r :: stk, k⟩ rest st ⟨.re (quantTree q r) :: stk, k⟩ := by
  cases q with
  | none => exact .eps (rept_eps (.inl rfl) hr)
  | opt c =>
    exact (Run.push rfl).trans (Run.any.trans ((Run.act fun _ => rfl).trans (kind_run hr (h c rfl))))
  | star c =>
    exact (Run.push rfl).trans (Run.any.trans ((Run.act fun _ => rfl).trans (kind_run hr (kindOK_greedy _ _ _ _))))
  | plus c =>
    exact (Run.push rfl).trans (Run.any.trans ((Run.act fun _ => rfl).trans (kind_run hr (kindOK_greedy _ _ _ _))))
  | exactly ds =>
    have h1 := number_run (P := P) (k := k) (rest := 125 :: rest) (.inr rfl) (st := .nt .b :: st) (stk := .re r :: stk) hq
    have h2 : Run P (125 :: rest) (.nt .b :: st) ⟨.num (decimal ds % szMod) :: .re r :: stk, k⟩ rest st
        ⟨.re (quantTree (.exactly ds) r) :: stk, k⟩ :=
      (Run.push rfl).trans ((Run.act fun _ => rfl).trans Run.any)
    have := (Run.push (P := P) (i := 123 :: (ds ++ 125 :: rest)) (st := st) (c := ⟨.re r :: stk, k⟩) (x := .rept) rfl).trans
      (Run.any.trans (h1.trans h2))
    simpa [Quant.print] using this
  | atLeast ds c =>
    have h1 := number_run (P := P) (k := k) (rest := 44 :: 125 :: (printKind c ++ rest)) (.inl rfl) (st := .nt .b :: st)
      (stk := .re r :: stk) hq
    have h2 : Run P (44 :: 125 :: (printKind c ++ rest)) (.nt .b :: st) ⟨.num (decimal ds % szMod) :: .re r :: stk, k⟩ rest st
        ⟨.re (quantTree (.atLeast ds c) r) :: stk, k⟩ :=
      (Run.push rfl).trans (Run.any.trans ((Run.push rfl).trans ((Run.act fun _ => rfl).trans (Run.any.trans
        (kind_run hr (kindOK_greedy _ _ _ _))))))
    have := (Run.push (P := P) (i := 123 :: (ds ++ 44 :: 125 :: (printKind c ++ rest))) (st := st) (c := ⟨.re r :: stk, k⟩)
      (x := .rept) rfl).trans (Run.any.trans (h1.trans h2))
    simpa [Quant.print] using this
  | between ds es c =>
    have h1 := number_run (P := P) (k := k) (rest := 44 :: (es ++ 125 :: (printKind c ++ rest))) (.inl rfl) (st := .nt .b :: st)
      (stk := .re r :: stk) hq.1
    have h3 := number_run (P := P) (k := k) (rest := 125 :: (printKind c ++ rest)) (.inr rfl)
      (st := .act .repeatAb :: .term 125 :: .nt .modr :: st) (stk := .num (decimal ds % szMod) :: .re r :: stk) hq.2
    have h2 : Run P (44 :: (es ++ 125 :: (printKind c ++ rest))) (.nt .b :: st) ⟨.num (decimal ds % szMod) :: .re r :: stk, k⟩
        rest st ⟨.re (quantTree (.between ds es c) r) :: stk, k⟩ := by
      refine (Run.push (l := [.any, .nt .n]) rfl).trans (Run.any.trans ?_)
      refine (Run.push (l := [.nt .number, .act .repeatAb, .term 125, .nt .modr]) ?_).trans (h3.trans ?_)
      · obtain ⟨h0, h⟩ := hq.2
        cases es with
        | nil => exact (h0 rfl).elim
        | cons d es => exact rule_set (l := chars14) (by simp [rules, rules_n]) (mem_chars14.2 (h d (by simp)))
      · exact (Run.act fun _ => rfl).trans (Run.term.trans (kind_run hr (kindOK_greedy _ _ _ _)))
    have := (Run.push (P := P) (i := 123 :: (ds ++ 44 :: (es ++ 125 :: (printKind c ++ rest)))) (st := st)
      (c := ⟨.re r :: stk, k⟩) (x := .rept) rfl).trans (Run.any.trans (h1.trans h2))
    simpa [Quant.print] using this

end Ctre.Parse
