import Verif.Lemmas.ParsePrint

/-
The parser reads what `print` writes.
-/
namespace Ctre.Parse
open Surface

/-! ### Beginnings of items -/

/-- What the grammar does with the first character of an item. -/
def itemHead (v : Nat) : List Sym :=
  if v = 92 then [.any, .nt .backslash]
  else if v = 91 then [.any, .nt .c]
  else if v = 40 then [.any, .act .prepareCapture, .nt .block]
  else if v = 94 then [.any, .act .pushAssertBegin]
  else if v = 36 then [.any, .act .pushAssertEnd]
  else if v = 46 then [.any, .act .pushCharacterAnything]
  else [.any, .act .pushCharacter]

/-- Nonterminals that begin with an item, and what follows the items. -/
def entryTail : NT → Option (List Sym)
  | .s => some [.nt .content2]
  | .contentInCapture => some [.nt .content2]
  | .contentOrEmpty => some [.nt .content2]
  | .optContent => some [.nt .content2]
  | .a => some [.nt .content2, .act .makeAlternate]
  | .block => some [.nt .content2, .act .makeCapture, .term 41]
  | .string2 => some [.act .makeSequence]
  | _ => none

/-- Characters that do not begin an item. -/
def noItem : List Nat := [41, 42, 43, 63, 123, 124, 125]

theorem entry_rule {x : NT} {tl : List Sym} (hx : entryTail x = some tl) {v : Nat} (hv : v ∉ noItem) :
    rule x (some v) = .push (itemHead v ++ [.nt .rept, .nt .string2] ++ tl) := by
  have hrules : (Pat.set chars0, Rhs.push ([.any, .act .pushCharacter] ++ [.nt .rept, .nt .string2] ++ tl)) ∈ rules x ∧
      (Pat.others, Rhs.push ([.any, .act .pushCharacter] ++ [.nt .rept, .nt .string2] ++ tl)) ∈ rules x := by
    cases x <;> simp only [entryTail, Option.some.injEq, reduceCtorEq] at hx <;> subst hx <;>
      simp [rules, rules_s, rules_contentInCapture, rules_contentOrEmpty, rules_optContent, rules_a, rules_block, rules_string2]
  unfold itemHead
  repeat' split
  all_goals first
    | (subst v; cases x <;> simp only [entryTail, Option.some.injEq, reduceCtorEq] at hx <;> subst hx <;> rfl)
    | skip
  rename_i h1 h2 h3 h4 h5 h6
  by_cases hn : notOthers.contains v = true
  · have : ∀ v ∈ notOthers, v ∉ [92, 91, 40, 94, 36, 46] ++ noItem → chars0.contains v = true := by
      decide
    exact rule_set hrules.1 (this v (List.contains_iff_mem.1 hn) (by
      simp only [List.mem_append, List.mem_cons, List.not_mem_nil, or_false, not_or]
      exact ⟨⟨h1, h2, h3, h4, h5, h6⟩, hv⟩))
  · exact rule_others hrules.2 (by simpa using hn)

/-- The rest of the text does not continue the items. -/
def atEnd (rest : List Nat) : Prop := rest = [] ∨ rest.head? = some 41 ∨ rest.head? = some 124

theorem atEnd.noQuant {rest : List Nat} (h : atEnd rest) : noQuant rest.head? := by
  rcases h with rfl | h | h <;> simp [Parse.noQuant, *]

theorem string2_eps {rest : List Nat} (h : atEnd rest) : rule .string2 rest.head? = .eps := by
  rcases h with rfl | h | h
  · rfl
  · rw [h]; rfl
  · rw [h]; rfl

/-- Every item begins with a character that is not in `noItem`. -/
def Begins (w : List Nat) : Prop := ∃ v u, w = v :: u ∧ v ∉ noItem

theorem Begins.append {w : List Nat} (h : Begins w) (u : List Nat) : Begins (w ++ u) := by
  obtain ⟨v, w', rfl, h⟩ := h
  exact ⟨v, w' ++ u, rfl, h⟩

theorem Begins.noQuant {w : List Nat} (h : Begins w) : noQuant w.head? := by
  obtain ⟨v, u, rfl, h⟩ := h
  simp only [noItem, List.mem_cons, List.not_mem_nil, or_false, not_or] at h
  simp [Parse.noQuant]
  omega

theorem char_begins {c : Char1} (h : c.WF special) : Begins c.print := by
  cases c with
  | plain v =>
    refine ⟨v, [], rfl, fun hv => h ?_⟩
    revert hv
    simp only [noItem, special, List.mem_cons, List.not_mem_nil, or_false]
    omega
  | x ds => exact ⟨92, 120 :: 123 :: (ds ++ [125]), rfl, by decide⟩
  | u ds => exact ⟨92, 117 :: 123 :: (ds ++ [125]), rfl, by decide⟩
  | escaped v => exact ⟨92, [v], rfl, by decide⟩
  | control v => exact ⟨92, [v], rfl, by decide⟩
  | x2 a b => exact ⟨92, [120, a, b], rfl, by decide⟩
  | u4 a b c d => exact ⟨92, [117, a, b, c, d], rfl, by decide⟩

theorem atom_begins {find : List Nat → Option (List Nat) → Option Nat} {k : Nat} {a : Atom} (h : a.WF find k) : Begins a.print := by
  cases a with
  | ch c => exact char_begins h
  | cls c =>
    cases c with
    | letter l => exact ⟨92, [l], rfl, by decide⟩
    | prop neg p name value => exact ⟨92, _, rfl, by decide⟩
  | unknown name w => exact ⟨92, _, rfl, by decide⟩
  | ref d => exact ⟨92, [d], rfl, by decide⟩
  | refNumber ds => exact ⟨92, _, rfl, by decide⟩
  | refRelative ds id => exact ⟨92, _, rfl, by decide⟩
  | refName n => exact ⟨92, _, rfl, by decide⟩
  | set neg l => exact ⟨91, _, rfl, by decide⟩
  | cap id b => exact ⟨40, _, rfl, by decide⟩
  | named id n b => exact ⟨40, _, rfl, by decide⟩
  | group b => exact ⟨40, _, rfl, by decide⟩
  | ahead pos b => exact ⟨40, _, rfl, by decide⟩
  | behind pos b => exact ⟨40, _, rfl, by decide⟩
  | atomic b => exact ⟨40, _, rfl, by decide⟩
  | mode m => exact ⟨40, _, rfl, by decide⟩
  | dot => exact ⟨46, [], rfl, by decide⟩
  | bol => exact ⟨94, [], rfl, by decide⟩
  | eol => exact ⟨36, [], rfl, by decide⟩
  | subjectBegin => exact ⟨92, [65], rfl, by decide⟩
  | subjectEnd => exact ⟨92, [122], rfl, by decide⟩
  | subjectEndLine => exact ⟨92, [90], rfl, by decide⟩
  | wordBoundary => exact ⟨92, [98], rfl, by decide⟩
  | notWordBoundary => exact ⟨92, [66], rfl, by decide⟩

theorem cat_begins {find : List Nat → Option (List Nat) → Option Nat} {k : Nat} {c : Cat} (h : c.WF find k) : Begins c.print := by
  cases c with
  | one a q => exact (atom_begins h.1).append _
  | cons a q l =>
    simp only [Cat.print, List.append_assoc]
    exact (atom_begins h.1).append _

/-! ### Atoms, concatenations, alternatives -/

theorem mode_apply {P : PropTable} {k : Nat} {stk : List PItem} (m : Mode) (rest : List Nat) (st : List Sym) :
    Run P (modeLetter m :: 41 :: rest) (.nt .d :: st) ⟨.capId (k + 1) :: stk, k + 1⟩ rest st ⟨.re (.mode m) :: stk, k⟩ := by
  cases m <;>
    exact (Run.push rfl).trans (Run.any.trans ((Run.act fun _ => rfl).trans ((Run.push rfl).trans Run.any)))

theorem clean_cons_re {r : Re} {stk : List PItem} {n : Bool} : Clean n (.re r :: stk) := by simp [Clean]

mutual
theorem atom_run {P : PropTable} : ∀ (a : Atom) {k : Nat} {rest : List Nat} {st : List Sym} {stk : List PItem},
    a.WF P.find k → Clean a.leadsName stk →
    ∃ v u, a.print = v :: u ∧
      Run P (v :: (u ++ rest)) (itemHead v ++ st) ⟨stk, k⟩ rest st ⟨.re (atomTree a) :: stk, k + a.groups⟩
  | .ch c, k, rest, st, stk, h, hs => by
    cases he : Char1.isEsc c with
    | false =>
      cases c <;> simp only [Char1.isEsc, reduceCtorEq] at he
      rename_i v
      refine ⟨v, [], rfl, ?_⟩
      have : itemHead v = [.any, .act .pushCharacter] := by
        simp only [Atom.WF, Char1.WF, special, List.mem_cons, List.not_mem_nil, or_false, not_or] at h
        simp only [itemHead]
        repeat' split
        all_goals first | rfl | (exfalso; omega)
      rw [this]
      exact Run.anyAct rfl
    | true =>
      obtain ⟨w, hw, hrun⟩ := escape_run (P := P) (k := k) (rest := rest) (st := st) (stk := stk) (x := .backslash) rfl he h
      exact ⟨92, w, hw, Run.any.trans hrun⟩
  | .cls c, k, rest, st, stk, h, hs => by
    obtain ⟨w, hw, hrun⟩ := cls_run (P := P) (k := k) (rest := rest) (st := st) (stk := stk) (x := .backslash) rfl h hs
    exact ⟨92, w, hw, Run.any.trans hrun⟩
  | .unknown name w, k, rest, st, stk, h, hs => by
    obtain ⟨h1, h2, h3⟩ := h
    refine ⟨92, 112 :: 123 :: (name ++ (printValue (some w) ++ [125])), by simp [Atom.print, printValue], Run.any.trans ?_⟩
    have h4 : ∀ v, applyTerm P v ⟨propStack name (some w) stk, k⟩ .makeProperty = .ok ⟨.re (.reject false) :: stk, k⟩ := by
      intro v
      simp only [PropTable.find] at h3
      simp [propStack, applyTerm, h3, Ctx.setStack]
    have h5 := property_run (P := P) (k := k) (rest := rest) (stk := stk) h1 (value := some w) (fun _ e => by cases e; exact h2) hs
      (st := .term 125 :: .act .makeProperty :: st)
    have h6 := h5.trans (Run.term.trans (.act h4))
    simp only [List.cons_append, List.append_assoc, List.nil_append]
    exact (Run.push rfl).trans (Run.any.trans (Run.term.trans h6))
  | .set neg l, k, rest, st, stk, h, hs => by
    refine ⟨91, (if neg then [94] else []) ++ printItems l ++ [93], rfl, Run.any.trans ?_⟩
    have := set_run (P := P) (k := k) (rest := rest) (st := st) (stk := stk) hs h
    simpa [atomTree, Atom.groups] using this
  | .dot, k, rest, st, stk, _, _ => ⟨46, [], rfl, Run.anyAct rfl⟩
  | .bol, k, rest, st, stk, _, _ => ⟨94, [], rfl, Run.anyAct rfl⟩
  | .eol, k, rest, st, stk, _, _ => ⟨36, [], rfl, Run.anyAct rfl⟩
  | .subjectBegin, k, rest, st, stk, _, _ => ⟨92, [65], rfl, Run.any.trans ((Run.push rfl).trans (Run.anyAct rfl))⟩
  | .subjectEnd, k, rest, st, stk, _, _ => ⟨92, [122], rfl, Run.any.trans ((Run.push rfl).trans (Run.anyAct rfl))⟩
  | .subjectEndLine, k, rest, st, stk, _, _ => ⟨92, [90], rfl, Run.any.trans ((Run.push rfl).trans (Run.anyAct rfl))⟩
  | .wordBoundary, k, rest, st, stk, _, _ => ⟨92, [98], rfl, Run.any.trans ((Run.push rfl).trans (Run.anyAct rfl))⟩
  | .notWordBoundary, k, rest, st, stk, _, _ => ⟨92, [66], rfl, Run.any.trans ((Run.push rfl).trans (Run.anyAct rfl))⟩
  | .ref d, k, rest, st, stk, h, hs => by
    simp only [Atom.WF] at h
    refine ⟨92, [d], rfl, Run.any.trans ((Run.push (l := [.any, .act .createNumber, .act .makeBackReference]) ?_).trans ?_)⟩
    · refine rule_set (l := chars2) (by simp [rules, rules_backslash]) ?_
      simp only [List.contains_iff_mem, chars2, List.mem_cons, List.not_mem_nil, or_false]
      omega
    · refine (Run.anyAct rfl).trans (.act fun _ => ?_)
      simp only [applyTerm]
      rw [if_neg (by omega)]
      rfl
  | .refNumber ds, k, rest, st, stk, h, hs => by
    simp only [Atom.WF] at h
    obtain ⟨⟨h0, h1⟩, h2⟩ := h
    cases ds with
    | nil => exact (h0 rfl).elim
    | cons d ds =>
      refine ⟨92, 103 :: 123 :: d :: (ds ++ [125]), rfl, Run.any.trans ?_⟩
      simp only [List.cons_append, List.append_assoc, List.nil_append]
      refine (Run.push (l := [.any, .term 123, .nt .m]) rfl).trans (Run.any.trans (Run.term.trans ?_))
      refine (Run.push (l := [.any, .act .createNumber, .nt .number2, .term 125, .act .makeBackReference]) ?_).trans ?_
      · exact rule_set (l := chars14) (by simp [rules, rules_m]) (mem_chars14.2 (h1 d (by simp)))
      refine (Run.anyAct rfl).trans ?_
      refine (number2_run (.inr rfl) (fun d hd => h1 d (List.mem_cons_of_mem _ hd))).trans (Run.term.trans (.act fun _ => ?_))
      rw [decimal_cons_mod (h1 d (by simp))]
      simp only [applyTerm]
      rw [if_neg (by simp only [szMod]; omega)]
      rfl
  | .refRelative ds id, k, rest, st, stk, h, hs => by
    simp only [Atom.WF] at h
    obtain ⟨h1, h2, h3⟩ := h
    refine ⟨92, 103 :: 123 :: 45 :: (ds ++ [125]), rfl, Run.any.trans ?_⟩
    simp only [List.cons_append, List.append_assoc, List.nil_append]
    refine (Run.push (l := [.any, .term 123, .nt .m]) rfl).trans (Run.any.trans (Run.term.trans ?_))
    refine (Run.push (l := [.any, .nt .number, .term 125, .act .makeRelativeBackReference]) rfl).trans (Run.any.trans ?_)
    refine (number_run (.inr rfl) h1).trans (Run.term.trans (.act fun _ => ?_))
    simp only [applyTerm]
    rw [if_neg (by simp only [szMod]; omega), h3]
    rfl
  | .refName n, k, rest, st, stk, h, hs => by
    obtain ⟨v, w, rfl, h1, h2⟩ := h
    refine ⟨92, 103 :: 123 :: v :: (w ++ [125]), rfl, Run.any.trans ?_⟩
    simp only [List.cons_append, List.append_assoc, List.nil_append]
    refine (Run.push (l := [.any, .term 123, .nt .m]) rfl).trans (Run.any.trans (Run.term.trans ?_))
    refine (Run.push (l := [.any, .act .pushName, .nt .blockName2, .term 125, .act .makeBackReference]) ?_).trans ?_
    · exact rule_set (l := chars7) (by simp [rules, rules_m]) (mem_chars7.2 h1)
    refine (Run.anyAct (pushName_clean hs)).trans ?_
    exact (blockName2_run (.inr rfl) h2).trans (Run.term.trans (.act fun _ => rfl))
  | .cap id b, k, rest, st, stk, h, hs => by
    simp only [Atom.WF] at h
    obtain ⟨rfl, h⟩ := h
    refine ⟨40, b.print ++ [41], rfl, Run.any.trans ((Run.act fun _ => rfl).trans ?_)⟩
    have := block_run b (P := P) (k := k + 1) (rest := rest) (st := st) (stk := stk) (id := k + 1) h
    rw [show k + (Atom.cap (k + 1) b).groups = k + 1 + b.groups by simp only [Atom.groups]; omega]
    simpa [atomTree] using this
  | .named id n b, k, rest, st, stk, h, hs => by
    simp only [Atom.WF] at h
    obtain ⟨rfl, h, ⟨v, w, rfl, h1, h2⟩, h3⟩ := h
    refine ⟨40, 63 :: 60 :: v :: (w ++ 62 :: (b.print ++ [41])), by simp [Atom.print], Run.any.trans ((Run.act fun _ => rfl).trans ?_)⟩
    simp only [List.cons_append, List.append_assoc, List.nil_append]
    refine (Run.push (l := [.any, .nt .d]) rfl).trans (Run.any.trans ?_)
    refine (Run.push (l := [.any, .nt .o]) rfl).trans (Run.any.trans ?_)
    refine (Run.push (l := [.nt .blockName, .term 62, .nt .contentInCapture, .act .makeCaptureWithName, .term 41]) ?_).trans ?_
    · exact rule_set (l := chars7) (by simp [rules, rules_o]) (mem_chars7.2 h1)
    refine (Run.push (l := [.any, .act .pushName, .nt .blockName2]) ?_).trans ?_
    · exact rule_set (l := chars7) (by simp [rules, rules_blockName]) (mem_chars7.2 h1)
    refine (Run.anyAct (c' := ⟨.name [v] :: .capId (k + 1) :: stk, k + 1⟩) rfl).trans ?_
    refine (blockName2_run (.inl rfl) h2).trans (Run.term.trans ?_)
    refine (body_run b h (by rw [h3]; simp [Clean])).trans ?_
    refine (Run.act fun _ => rfl).trans ?_
    rw [show k + (Atom.named (k + 1) (v :: w) b).groups = k + 1 + b.groups by simp only [Atom.groups]; omega]
    simp only [atomTree]
    exact Run.term
  | .group b, k, rest, st, stk, h, hs => by
    refine ⟨40, 63 :: 58 :: (b.print ++ [41]), by simp [Atom.print], Run.any.trans ((Run.act fun _ => rfl).trans ?_)⟩
    simp only [List.cons_append, List.append_assoc, List.nil_append]
    refine (Run.push (l := [.any, .nt .d]) rfl).trans (Run.any.trans ?_)
    refine (Run.push (l := [.any, .act .resetCapture, .nt .contentInCapture, .term 41]) rfl).trans (Run.any.trans ?_)
    refine (Run.act (c' := ⟨stk, k⟩) fun _ => rfl).trans ?_
    refine (body_run b h hs).trans ?_
    simp only [atomTree, Atom.groups]
    exact Run.term
  | .ahead pos b, k, rest, st, stk, h, hs => by
    refine ⟨40, 63 :: (if pos then 61 else 33) :: (b.print ++ [41]), by simp [Atom.print], Run.any.trans ((Run.act fun _ => rfl).trans ?_)⟩
    simp only [List.cons_append, List.append_assoc, List.nil_append]
    refine (Run.push (l := [.any, .nt .d]) rfl).trans (Run.any.trans ?_)
    refine (Run.push (l := [.any, .act .resetCapture, .act (if pos then .startLookaheadPositive else .startLookaheadNegative),
      .nt .contentInCapture, .act .lookFinish, .term 41]) (by cases pos <;> rfl)).trans (Run.any.trans ?_)
    refine (Run.act (c' := ⟨stk, k⟩) fun _ => rfl).trans ?_
    refine (Run.act (c' := ⟨.lookStart true pos :: stk, k⟩) fun _ => by cases pos <;> rfl).trans ?_
    refine (body_run b h (by simp [Clean])).trans ((Run.act fun _ => rfl).trans ?_)
    simp only [atomTree, Atom.groups]
    exact Run.term
  | .behind pos b, k, rest, st, stk, h, hs => by
    refine ⟨40, 63 :: 60 :: (if pos then 61 else 33) :: (b.print ++ [41]), by simp [Atom.print], Run.any.trans ((Run.act fun _ => rfl).trans ?_)⟩
    simp only [List.cons_append, List.append_assoc, List.nil_append]
    refine (Run.push (l := [.any, .nt .d]) rfl).trans (Run.any.trans ?_)
    refine (Run.push (l := [.any, .nt .o]) rfl).trans (Run.any.trans ?_)
    refine (Run.push (l := [.any, .act .resetCapture, .act (if pos then .startLookbehindPositive else .startLookbehindNegative),
      .nt .contentInCapture, .act .lookFinish, .term 41]) (by cases pos <;> rfl)).trans (Run.any.trans ?_)
    refine (Run.act (c' := ⟨stk, k⟩) fun _ => rfl).trans ?_
    refine (Run.act (c' := ⟨.lookStart false pos :: stk, k⟩) fun _ => by cases pos <;> rfl).trans ?_
    refine (body_run b h.1 (by simp [Clean])).trans ?_
    have hr := rotateList_iff.2 (rot_unpack (rot_body b h.2))
    obtain ⟨l, hl⟩ := Option.ne_none_iff_exists'.1 hr
    refine (Run.act (c' := ⟨.re (.behind pos l.reverse) :: stk, k + b.groups⟩) fun _ => ?_).trans ?_
    · simp only [applyTerm, hl]
      rfl
    simp only [atomTree, Atom.groups, rotated, hl, Option.getD_some]
    exact Run.term
  | .atomic b, k, rest, st, stk, h, hs => by
    refine ⟨40, 63 :: 62 :: (b.print ++ [41]), by simp [Atom.print], Run.any.trans ((Run.act fun _ => rfl).trans ?_)⟩
    simp only [List.cons_append, List.append_assoc, List.nil_append]
    refine (Run.push (l := [.any, .nt .d]) rfl).trans (Run.any.trans ?_)
    refine (Run.push (l := [.any, .act .resetCapture, .act .startAtomic, .nt .contentInCapture, .act .makeAtomic,
      .term 41]) rfl).trans (Run.any.trans ?_)
    refine (Run.act (c' := ⟨stk, k⟩) fun _ => rfl).trans ?_
    refine (Run.act (c' := ⟨.atomicStart :: stk, k⟩) fun _ => rfl).trans ?_
    refine (body_run b h (by simp [Clean])).trans ((Run.act fun _ => rfl).trans ?_)
    simp only [atomTree, Atom.groups]
    exact Run.term
  | .mode m, k, rest, st, stk, h, hs => by
    refine ⟨40, [63, modeLetter m, 41], rfl, Run.any.trans ((Run.act fun _ => rfl).trans ?_)⟩
    refine (Run.push (l := [.any, .nt .d]) rfl).trans (Run.any.trans ?_)
    exact mode_apply m rest st

theorem cat_run {P : PropTable} : ∀ (c : Cat) {k : Nat} {rest : List Nat} {st : List Sym} {stk : List PItem} {x : NT}
    {tl : List Sym}, entryTail x = some tl → c.WF P.find k → Clean c.leadsName stk → atEnd rest →
    Run P (c.print ++ rest) (.nt x :: st) ⟨stk, k⟩ rest (tl ++ st) ⟨.re (catTree c) :: stk, k + c.groups⟩
  | .one a q, k, rest, st, stk, x, tl, hx, h, hs, hr => by
    obtain ⟨v, u, hp, h1⟩ := atom_run a (P := P) (k := k) (rest := q.print ++ rest)
      (st := .nt .rept :: .nt .string2 :: (tl ++ st)) (stk := stk) h.1 hs
    obtain ⟨v', u', hp', hv⟩ := atom_begins h.1
    rw [hp] at hp'
    simp only [List.cons.injEq] at hp'
    obtain ⟨rfl, rfl⟩ := hp'
    simp only [Cat.print, hp, List.cons_append, List.append_assoc]
    refine (Run.push (entry_rule hx hv)).trans ?_
    simp only [List.cons_append, List.append_assoc, List.nil_append]
    refine h1.trans ((quant_run hr.noQuant h.2.1 (optOK h.2.2)).trans ?_)
    simp only [catTree, Cat.groups]
    exact .eps (string2_eps hr)
  | .cons a q l, k, rest, st, stk, x, tl, hx, h, hs, hr => by
    obtain ⟨v, u, hp, h1⟩ := atom_run a (P := P) (k := k) (rest := q.print ++ (l.print ++ rest))
      (st := .nt .rept :: .nt .string2 :: (tl ++ st)) (stk := stk) h.1 hs
    obtain ⟨v', u', hp', hv⟩ := atom_begins h.1
    rw [hp] at hp'
    simp only [List.cons.injEq] at hp'
    obtain ⟨rfl, rfl⟩ := hp'
    simp only [Cat.print, hp, List.cons_append, List.append_assoc]
    refine (Run.push (entry_rule hx hv)).trans ?_
    simp only [List.cons_append, List.append_assoc, List.nil_append]
    refine h1.trans ((quant_run ((cat_begins h.2.2.2).append _).noQuant h.2.1 (optOK h.2.2.1)).trans ?_)
    refine (cat_run l rfl h.2.2.2 clean_cons_re hr).trans ?_
    simp only [catTree, Cat.groups, ← Nat.add_assoc]
    exact Run.act fun _ => rfl

theorem alt_run {P : PropTable} : ∀ (l : Alt) {k : Nat} {rest : List Nat} {st : List Sym} {stk : List PItem} {x : NT}
    {tl : List Sym}, l.print ≠ [] → entryTail x = some (.nt .content2 :: tl) → l.WF P.find k → Clean l.leadsName stk →
    (rest = [] ∨ rest.head? = some 41) →
    Run P (l.print ++ rest) (.nt x :: st) ⟨stk, k⟩ rest (tl ++ st) ⟨.re (altTree l) :: stk, k + l.groups⟩
  | .empty, k, rest, st, stk, x, tl, h0, hx, h, hs, hr => (h0 rfl).elim
  | .one c, k, rest, st, stk, x, tl, h0, hx, h, hs, hr => by
    refine (cat_run c hx h hs (hr.imp id .inl)).trans ?_
    simp only [altTree, Alt.groups, List.cons_append]
    refine .eps ?_
    rcases hr with rfl | hr
    · rfl
    · rw [hr]; rfl
  | .bar c l, k, rest, st, stk, x, tl, h0, hx, h, hs, hr => by
    have h1 := cat_run c (P := P) (st := st) (rest := 124 :: (l.print ++ rest)) hx h.1 hs (.inr (.inr rfl))
    simp only [Alt.print, List.append_assoc, List.cons_append, List.nil_append]
    refine h1.trans ?_
    refine (Run.push (l := [.any, .nt .a]) rfl).trans (Run.any.trans ?_)
    simp only [altTree, Alt.groups, ← Nat.add_assoc, List.nil_append]
    by_cases hl : l.print = []
    · cases l with
      | empty =>
        refine (Run.push (l := [.act .pushEmpty, .act .makeAlternate]) ?_).trans ?_
        · rcases hr with rfl | hr
          · rfl
          · simp only [Alt.print, List.nil_append, hr]; rfl
        · exact (Run.act fun _ => rfl).trans (Run.act fun _ => rfl)
      | one c =>
        obtain ⟨v, u, hp, _⟩ := cat_begins h.2
        simp [Alt.print, hp] at hl
      | bar c l => simp [Alt.print] at hl
    · refine (alt_run l hl rfl h.2 clean_cons_re hr).trans ?_
      exact Run.act fun _ => rfl

theorem body_run {P : PropTable} : ∀ (b : Body) {k : Nat} {rest : List Nat} {st : List Sym} {stk : List PItem},
    b.WF P.find k → Clean b.leadsName stk →
    Run P (b.print ++ 41 :: rest) (.nt .contentInCapture :: st) ⟨stk, k⟩ (41 :: rest) st ⟨.re (bodyTree b) :: stk, k + b.groups⟩
  | .alt l, k, rest, st, stk, h, hs => by
    simp only [Body.print, bodyTree, Body.groups]
    by_cases hl : l.print = []
    · cases l with
      | empty => exact (Run.push (l := [.act .pushEmpty]) rfl).trans (Run.act fun _ => rfl)
      | one c =>
        obtain ⟨v, u, hp, _⟩ := cat_begins h
        simp [Alt.print, hp] at hl
      | bar c l => simp [Alt.print] at hl
    · exact alt_run l (rest := 41 :: rest) (x := .contentInCapture) (tl := []) hl rfl h hs (.inr rfl)
  | .lead l, k, rest, st, stk, h, hs => by
    simp only [Body.print, bodyTree, Body.groups]
    refine (Run.push (l := [.any, .act .pushEmpty, .nt .contentOrEmpty, .act .makeAlternate]) rfl).trans (Run.any.trans ?_)
    refine (Run.act fun _ => rfl).trans ?_
    simp only [List.nil_append]
    by_cases hl : l.print = []
    · cases l with
      | empty =>
        exact (Run.push (l := [.act .pushEmpty]) rfl).trans ((Run.act fun _ => rfl).trans (Run.act fun _ => rfl))
      | one c =>
        obtain ⟨v, u, hp, _⟩ := cat_begins h
        simp [Alt.print, hp] at hl
      | bar c l => simp [Alt.print] at hl
    · exact (alt_run l hl rfl h clean_cons_re (.inr rfl)).trans (Run.act fun _ => rfl)

theorem block_run {P : PropTable} : ∀ (b : Body) {k id : Nat} {rest : List Nat} {st : List Sym} {stk : List PItem},
    b.WF P.find k →
    Run P (b.print ++ 41 :: rest) (.nt .block :: st) ⟨.capId id :: stk, k⟩ rest st
      ⟨.re (.cap id none (unpack (bodyTree b))) :: stk, k + b.groups⟩
  | .alt l, k, id, rest, st, stk, h => by
    simp only [Body.print, bodyTree, Body.groups]
    by_cases hl : l.print = []
    · cases l with
      | empty =>
        exact (Run.push (l := [.act .pushEmpty, .act .makeCapture, .any]) rfl).trans ((Run.act fun _ => rfl).trans
          ((Run.act fun _ => rfl).trans Run.any))
      | one c =>
        obtain ⟨v, u, hp, _⟩ := cat_begins h
        simp [Alt.print, hp] at hl
      | bar c l => simp [Alt.print] at hl
    · refine (alt_run l hl rfl h (by simp [Clean]) (.inr rfl)).trans ?_
      exact (Run.act fun _ => rfl).trans Run.term
  | .lead l, k, id, rest, st, stk, h => by
    simp only [Body.print, bodyTree, Body.groups]
    refine (Run.push (l := [.any, .act .pushEmpty, .nt .contentOrEmpty, .act .makeAlternate, .act .makeCapture, .term 41])
      rfl).trans (Run.any.trans ?_)
    refine (Run.act fun _ => rfl).trans ?_
    simp only [List.nil_append]
    by_cases hl : l.print = []
    · cases l with
      | empty =>
        refine (Run.push (l := [.act .pushEmpty]) rfl).trans ((Run.act fun _ => rfl).trans ((Run.act fun _ => rfl).trans ?_))
        exact (Run.act fun _ => rfl).trans Run.term
      | one c =>
        obtain ⟨v, u, hp, _⟩ := cat_begins h
        simp [Alt.print, hp] at hl
      | bar c l => simp [Alt.print] at hl
    · refine (alt_run l hl rfl h clean_cons_re (.inr rfl)).trans ((Run.act fun _ => rfl).trans ?_)
      exact (Run.act fun _ => rfl).trans Run.term
end

/-! ### Whole patterns -/

theorem top_run {P : PropTable} {b : Body} (h : b.WF P.find 0) (h0 : b.print ≠ []) :
    Run P b.print [.nt .s] {} [] [] ⟨[.re (bodyTree b)], b.groups⟩ := by
  cases b with
  | alt l =>
    have := alt_run l (P := P) (k := 0) (rest := []) (st := []) (stk := []) (x := .s) (tl := []) h0 rfl h (by simp [Clean]) (.inl rfl)
    simpa [Body.print, bodyTree, Body.groups] using this
  | lead l =>
    simp only [Body.print, bodyTree, Body.groups]
    refine (Run.push (l := [.any, .act .pushEmpty, .nt .optContent, .act .makeAlternate]) rfl).trans (Run.any.trans ?_)
    refine (Run.act fun _ => rfl).trans ?_
    by_cases hl : l.print = []
    · cases l with
      | empty =>
        exact (Run.push (l := [.act .pushEmpty]) rfl).trans ((Run.act fun _ => rfl).trans (Run.act fun _ => rfl))
      | one c =>
        obtain ⟨v, u, hp, _⟩ := cat_begins h
        simp [Alt.print, hp] at hl
      | bar c l => simp [Alt.print] at hl
    · have := (alt_run l (P := P) (k := 0) (rest := []) (st := [.act .makeAlternate]) (stk := [.re .empty]) (x := .optContent)
        (tl := []) hl rfl h clean_cons_re (.inl rfl)).trans (Run.act fun _ => rfl)
      simpa using this

theorem body_first {P : PropTable} {b : Body} (h : b.WF P.find 0) {v : Nat} {u : List Nat} (hp : b.print = v :: u) :
    ∃ l, rule .s (some v) = .push (.any :: l) := by
  have key : v ∉ noItem → ∃ l, rule .s (some v) = .push (.any :: l) := by
    intro hv
    have := entry_rule (x := .s) rfl hv
    unfold itemHead at this
    repeat' split at this
    all_goals exact ⟨_, this⟩
  cases b with
  | lead l =>
    simp only [Body.print, List.cons_append, List.cons.injEq] at hp
    obtain ⟨rfl, _⟩ := hp
    exact ⟨_, rfl⟩
  | alt l =>
    cases l with
    | empty => simp [Body.print, Alt.print] at hp
    | one c =>
      obtain ⟨v', u', hp', hv⟩ := cat_begins h
      simp only [Body.print, Alt.print, hp', List.cons.injEq] at hp
      exact key (hp.1 ▸ hv)
    | bar c l =>
      obtain ⟨v', u', hp', hv⟩ := cat_begins h.1
      simp only [Body.print, Alt.print, hp', List.cons_append, List.cons.injEq] at hp
      exact key (hp.1 ▸ hv)

theorem parse_print {P : PropTable} {b : Body} (h : b.WF P.find 0) :
    parse P b.print = .accept ⟨[.re (bodyTree b)], b.groups⟩ := by
  cases hb : b.print with
  | nil =>
    have : b = .alt .empty := by
      cases b with
      | lead l => simp [Body.print] at hb
      | alt l =>
        cases l with
        | empty => rfl
        | one c => obtain ⟨v, u, hp, _⟩ := cat_begins h; simp [Body.print, Alt.print, hp] at hb
        | bar c l => simp [Body.print, Alt.print] at hb
    subst this
    rfl
  | cons v u =>
    obtain ⟨l, hl⟩ := body_first h hb
    obtain ⟨v', k, hk⟩ := top_run h (by rw [hb]; simp) 0
    rw [hb] at hk
    have h1 : ∀ m, decide P (m + 2) none (v :: u) [.nt .s] {} = decide P (m + 2) (some 0) (v :: u) [.nt .s] {} := by
      intro m
      simp only [decide, List.head?_cons, hl, List.cons_append]
    have h2 : decide P (1 + k + 2) none (v :: u) [.nt .s] {} = .accept ⟨[.re (bodyTree b)], b.groups⟩ := by
      rw [h1, show 1 + k + 2 = 3 + k by omega, hk]
      rfl
    have h3 := parse_terminates P (v :: u) (n := parseFuel (v :: u).length) (by simp only [parseFuel]; omega)
    unfold parse
    rcases Nat.le_total (1 + k + 2) (parseFuel (v :: u).length) with h4 | h4
    · rw [decide_of_le P h4 (by rw [h2]; simp), h2]
    · rw [← decide_of_le P h4 h3, h2]

theorem build_print {P : PropTable} {b : Body} (h : b.WF P.find 0) : build P b.print = .pattern (bodyTree b) := by
  unfold build
  rw [parse_print h]

end Ctre.Parse
