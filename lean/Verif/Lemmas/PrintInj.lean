import Verif.Lemmas.ParseBody

/-
A text can be read in at most one way: `print` is injective on well-formed trees.
-/
namespace Ctre.Parse
open Surface

theorem split_at {p : Nat → Prop} : ∀ {w w' : List Nat} {d d' : Nat} {rest rest' : List Nat}, (∀ v ∈ w, p v) → (∀ v ∈ w', p v) →
    ¬ p d → ¬ p d' → w ++ d :: rest = w' ++ d' :: rest' → w = w' ∧ d = d' ∧ rest = rest'
  | [], [], _, _, _, _, _, _, _, _, e => by simpa using e
  | [], v :: w', _, _, _, _, _, hw', hd, _, e => by
    simp only [List.nil_append, List.cons_append, List.cons.injEq] at e
    exact (hd (e.1 ▸ hw' v (by simp))).elim
  | v :: w, [], _, _, _, _, hw, _, _, hd', e => by
    simp only [List.nil_append, List.cons_append, List.cons.injEq] at e
    exact (hd' (e.1 ▸ hw v (by simp))).elim
  | v :: w, v' :: w', _, _, _, _, hw, hw', hd, hd', e => by
    simp only [List.cons_append, List.cons.injEq] at e
    obtain ⟨rfl, h, h'⟩ := split_at (fun v h => hw v (by simp [h])) (fun v h => hw' v (by simp [h])) hd hd' e.2
    exact ⟨by rw [e.1], h, h'⟩

/-! ### Characters, classes, sets -/

theorem char_inj {bad bad' : List Nat} (hb : 92 ∈ bad) (hb' : 92 ∈ bad') {c c' : Char1} {rest rest' : List Nat} (h : c.WF bad)
    (h' : c'.WF bad') (e : c.print ++ rest = c'.print ++ rest') : c = c' ∧ rest = rest' := by
  have h125 : ¬ isHex 125 := by simp [isHex, isDec]
  cases c <;> cases c' <;>
    simp only [Char1.print, List.cons_append, List.nil_append, List.append_assoc, List.cons.injEq] at e <;>
    simp only [Char1.WF, escapable, isHex, isDec, List.mem_cons, List.not_mem_nil, or_false] at h h'
  all_goals first
    | (obtain ⟨_, rfl, rfl⟩ := e; exact ⟨rfl, rfl⟩)
    | (obtain ⟨rfl, rfl⟩ := e; exact ⟨rfl, rfl⟩)
    | (obtain ⟨_, _, rfl, rfl, rfl⟩ := e; exact ⟨rfl, rfl⟩)
    | (obtain ⟨_, _, rfl, rfl, rfl, rfl, rfl⟩ := e; exact ⟨rfl, rfl⟩)
    | (obtain ⟨rfl, _⟩ := e; exact (h hb).elim)
    | (have e1 := e.1; subst e1; exact (h' hb').elim)
    | (obtain ⟨_, _, _, e⟩ := e
       have e2 := split_at h.2.1 h'.2.1 h125 h125 e
       clear e
       obtain ⟨rfl, _, rfl⟩ := e2
       exact ⟨rfl, rfl⟩)
    | (exfalso; omega)

theorem cls_inj {find : List Nat → Option (List Nat) → Option Nat} {c c' : Cls} {rest rest' : List Nat} (h : c.WF find)
    (h' : c'.WF find) (e : c.print ++ rest = c'.print ++ rest') : c = c' ∧ rest = rest' := by
  have hp : ∀ {v}, ¬ isPropChar v ↔ ¬ (((65 ≤ v ∧ v ≤ 90) ∨ v = 95 ∨ (97 ≤ v ∧ v ≤ 122)) ∨ (48 ≤ v ∧ v ≤ 57)) ∧ v ≠ 46 := by
    intro v
    simp only [isPropChar, isNameChar, isNameStart, isDec, not_or, ne_eq]
  have h125 : ¬ isPropChar 125 := by rw [hp]; omega
  have h61 : ¬ isPropChar 61 := by rw [hp]; omega
  cases c with
  | letter l =>
    cases c' with
    | letter l' =>
      simp only [Cls.print, List.cons_append, List.nil_append, List.cons.injEq] at e
      obtain ⟨_, rfl, rfl⟩ := e
      exact ⟨rfl, rfl⟩
    | prop neg p name value =>
      simp only [Cls.print, List.cons_append, List.nil_append, List.append_assoc, List.cons.injEq] at e
      simp only [Cls.WF, List.mem_cons, List.not_mem_nil, or_false] at h
      have := e.2.1
      split at this <;> omega
  | prop neg p name value =>
    cases c' with
    | letter l' =>
      simp only [Cls.print, List.cons_append, List.nil_append, List.append_assoc, List.cons.injEq] at e
      simp only [Cls.WF, List.mem_cons, List.not_mem_nil, or_false] at h'
      have := e.2.1
      split at this <;> omega
    | prop neg' p' name' value' =>
      simp only [Cls.print, List.cons_append, List.nil_append, List.append_assoc, List.cons.injEq] at e
      obtain ⟨_, e1, _, e⟩ := e
      have hn : neg = neg' := by
        revert e1
        cases neg <;> cases neg' <;> simp
      subst hn
      have key : name = name' ∧ value = value' ∧ rest = rest' := by
        cases value with
        | none =>
          cases value' with
          | none =>
            simp only [printValue, List.nil_append] at e
            have e2 := split_at h.1.2 h'.1.2 h125 h125 e
            clear e
            obtain ⟨h1, _, h2⟩ := e2
            exact ⟨h1, rfl, h2⟩
          | some w' =>
            simp only [printValue, List.nil_append, List.cons_append] at e
            have e2 := split_at h.1.2 h'.1.2 h125 h61 e
            clear e
            obtain ⟨_, h1, _⟩ := e2
            omega
        | some w =>
          cases value' with
          | none =>
            simp only [printValue, List.nil_append, List.cons_append] at e
            have e2 := split_at h.1.2 h'.1.2 h61 h125 e
            clear e
            obtain ⟨_, h1, _⟩ := e2
            omega
          | some w' =>
            simp only [printValue, List.cons_append] at e
            have e2 := split_at h.1.2 h'.1.2 h61 h61 e
            clear e
            obtain ⟨h1, _, h2⟩ := e2
            obtain ⟨h3, _, h4⟩ := split_at (h.2.1 w rfl).2 (h'.2.1 w' rfl).2 h125 h125 h2
            exact ⟨h1, by rw [h3], h4⟩
      obtain ⟨rfl, rfl, rfl⟩ := key
      have := h.2.2.symm.trans h'.2.2
      simp only [Option.some.injEq] at this
      subst this
      exact ⟨rfl, rfl⟩

theorem unknown_inj {find : List Nat → Option (List Nat) → Option Nat} {k : Nat} {name w : List Nat} {rest rest' : List Nat}
    (h : (Atom.unknown name w).WF find k) :
    (∀ {name' w'}, (Atom.unknown name' w').WF find k → (Atom.unknown name w).print ++ rest = (Atom.unknown name' w').print ++ rest' →
      Atom.unknown name w = .unknown name' w' ∧ rest = rest') ∧
    (∀ {c : Cls}, c.WF find → (Atom.unknown name w).print ++ rest ≠ c.print ++ rest') := by
  have hc : (Cls.prop false 0 name (some w)).WF (fun _ _ => some 0) := ⟨h.1, fun _ e => by cases e; exact h.2.1, rfl⟩
  have hp : ∀ name w, (Atom.unknown name w).print = (Cls.prop false 0 name (some w)).print := by
    intro name w; simp [Atom.print, Cls.print, printValue]
  refine ⟨fun {name' w'} h' e => ?_, fun {c} h' e => ?_⟩
  · have hc' : (Cls.prop false 0 name' (some w')).WF (fun _ _ => some 0) := ⟨h'.1, fun _ e => by cases e; exact h'.2.1, rfl⟩
    rw [hp, hp] at e
    obtain ⟨e1, e2⟩ := cls_inj hc hc' e
    simp only [Cls.prop.injEq, Option.some.injEq, true_and] at e1
    exact ⟨by rw [e1.1, e1.2], e2⟩
  · cases c with
    | letter l =>
      simp only [Atom.print, Cls.print, List.cons_append, List.nil_append, List.append_assoc, List.cons.injEq] at e
      simp only [Cls.WF, List.mem_cons, List.not_mem_nil, or_false] at h'
      omega
    | prop neg p name' value' =>
      have hc' : (Cls.prop neg 0 name' value').WF (fun _ _ => some 0) := ⟨h'.1, h'.2.1, rfl⟩
      rw [hp] at e
      have e1 := (cls_inj hc hc' e).1
      simp only [Cls.prop.injEq] at e1
      have h1 := h.2.2
      have h2 := h'.2.2
      rw [e1.2.2.1, e1.2.2.2, h2] at h1
      cases h1

theorem posix_name {n : Posix} : ∀ v ∈ n.name, 97 ≤ v := by cases n <;> decide

theorem posix_name_inj {n n' : Posix} (h : n.name = n'.name) : n = n' := by
  cases n <;> cases n' <;> first | rfl | (simp [Posix.name] at h)

/-- Which kind of escape a text begins with: `some true` a character, `some false` a class. -/
def escKind : List Nat → Option Bool
  | 92 :: v :: _ => if v ∈ [100, 68, 115, 83, 119, 87, 104, 72, 118, 86, 78, 112, 80] then some false else some true
  | _ => none

theorem escKind_char {bad : List Nat} (hb : 92 ∈ bad) {c : Char1} (h : c.WF bad) (rest : List Nat) :
    escKind (c.print ++ rest) ≠ some false := by
  cases c <;> simp only [Char1.print, List.cons_append, List.nil_append, escKind]
  case plain v =>
    split
    · rename_i e
      simp only [List.cons.injEq] at e
      obtain ⟨rfl, _⟩ := e
      exact (h hb).elim
    · simp
  case escaped v =>
    simp only [Char1.WF, escapable, List.mem_cons, List.not_mem_nil, or_false] at h
    rw [if_neg (by simp only [List.mem_cons, List.not_mem_nil, or_false]; omega)]
    simp
  case control v =>
    simp only [Char1.WF, List.mem_cons, List.not_mem_nil, or_false] at h
    rw [if_neg (by simp only [List.mem_cons, List.not_mem_nil, or_false]; omega)]
    simp
  all_goals simp

theorem escKind_cls {find : List Nat → Option (List Nat) → Option Nat} {c : Cls} (h : c.WF find) (rest : List Nat) :
    escKind (c.print ++ rest) = some false := by
  cases c with
  | letter l =>
    simp only [Cls.print, List.cons_append, List.nil_append, escKind]
    simp only [Cls.WF, List.mem_cons, List.not_mem_nil, or_false] at h
    rw [if_pos (by simp only [List.mem_cons, List.not_mem_nil, or_false]; omega)]
  | prop neg p name value => cases neg <;> simp [Cls.print, escKind]

/-- The first character of an item. -/
theorem item_head {find : List Nat → Option (List Nat) → Option Nat} {bad : List Nat} (hb : 45 ∈ bad ∧ 93 ∈ bad) {i : SetItem}
    (h : i.WF find bad) : ∃ v u, i.print = v :: u ∧ v ≠ 45 ∧ v ≠ 93 := by
  have hc : ∀ c : Char1, c.WF bad → ∃ v u, c.print = v :: u ∧ v ≠ 45 ∧ v ≠ 93 := by
    intro c h
    cases c with
    | plain v => exact ⟨v, [], rfl, fun e => h (e ▸ hb.1), fun e => h (e ▸ hb.2)⟩
    | _ => exact ⟨92, _, rfl, by omega, by omega⟩
  cases i with
  | one c => exact hc c h
  | range a b =>
    obtain ⟨v, u, e, h1⟩ := hc a h.1
    exact ⟨v, u ++ 45 :: b.print, by simp [SetItem.print, e], h1⟩
  | cls c => cases c <;> exact ⟨92, _, rfl, by omega, by omega⟩
  | posix neg n => exact ⟨91, _, rfl, by omega, by omega⟩

/-- An unescaped `[` or a class begins otherwise than a character. -/
theorem char_ne_posix {bad : List Nat} (hb : 91 ∈ bad) {c : Char1} (h : c.WF bad) {rest u : List Nat} : c.print ++ rest ≠ 91 :: u := by
  intro e
  cases c <;> simp only [Char1.print, List.cons_append, List.nil_append, List.cons.injEq] at e
  · exact h (e.1 ▸ hb)
  all_goals omega

theorem item_inj {find : List Nat → Option (List Nat) → Option Nat} {bad : List Nat} (hb : 92 ∈ bad ∧ 91 ∈ bad)
    {i i' : SetItem} {rest rest' : List Nat} (h : i.WF find bad) (h' : i'.WF find bad) (hr : rest.head? ≠ some 45)
    (hr' : rest'.head? ≠ some 45) (e : i.print ++ rest = i'.print ++ rest') : i = i' ∧ rest = rest' := by
  have h92 : 92 ∈ specialInSet := by decide
  cases i with
  | one c =>
    cases i' with
    | one c' =>
      have e2 := char_inj hb.1 hb.1 h h' e
      clear e
      obtain ⟨rfl, h⟩ := e2
      exact ⟨rfl, h⟩
    | range a b =>
      simp only [SetItem.print, List.append_assoc] at e
      have e2 := char_inj hb.1 hb.1 h h'.1 e
      clear e
      obtain ⟨_, rfl⟩ := e2
      simp at hr
    | cls c' =>
      have := escKind_char hb.1 h rest
      simp only [SetItem.print] at e
      rw [e, escKind_cls h'] at this
      exact (this rfl).elim
    | posix neg n => exact (char_ne_posix hb.2 h e).elim
  | range a b =>
    cases i' with
    | one c' =>
      simp only [SetItem.print, List.append_assoc] at e
      have e2 := char_inj hb.1 hb.1 h.1 h' e
      clear e
      obtain ⟨_, h1⟩ := e2
      rw [← h1] at hr'
      simp at hr'
    | range a' b' =>
      simp only [SetItem.print, List.append_assoc] at e
      have e2 := char_inj hb.1 hb.1 h.1 h'.1 e
      clear e
      obtain ⟨rfl, e⟩ := e2
      simp only [List.cons_append, List.nil_append, List.cons.injEq, true_and] at e
      have e2 := char_inj h92 h92 h.2 h'.2 e
      clear e
      obtain ⟨rfl, e⟩ := e2
      exact ⟨rfl, e⟩
    | cls c' =>
      have := escKind_char hb.1 h.1 ([45] ++ (b.print ++ rest))
      simp only [SetItem.print, List.append_assoc] at e
      rw [e, escKind_cls h'] at this
      exact (this rfl).elim
    | posix neg n =>
      simp only [SetItem.print, List.append_assoc] at e
      exact (char_ne_posix hb.2 h.1 e).elim
  | cls c =>
    cases i' with
    | one c' =>
      have := escKind_char hb.1 h' rest'
      simp only [SetItem.print] at e
      rw [← e, escKind_cls h] at this
      exact (this rfl).elim
    | range a b =>
      have := escKind_char hb.1 h'.1 ([45] ++ (b.print ++ rest'))
      simp only [SetItem.print, List.append_assoc] at e
      rw [← e, escKind_cls h] at this
      exact (this rfl).elim
    | cls c' =>
      have e2 := cls_inj h h' e
      clear e
      obtain ⟨rfl, h⟩ := e2
      exact ⟨rfl, h⟩
    | posix neg n => cases c <;> simp [SetItem.print, Cls.print] at e
  | posix neg n =>
    cases i' with
    | one c' => exact (char_ne_posix hb.2 h' e.symm).elim
    | range a b =>
      simp only [SetItem.print, List.append_assoc] at e
      exact (char_ne_posix hb.2 h'.1 e.symm).elim
    | cls c' => cases c' <;> simp [SetItem.print, Cls.print] at e
    | posix neg' n' =>
      have h58 : ¬ (97 ≤ 58) := by omega
      have hne : ∀ (m : Posix) (l u : List Nat), m.name ++ l ≠ 94 :: u := by
        intro m l u e
        cases m <;> simp [Posix.name] at e
      simp only [SetItem.print, List.cons_append, List.nil_append, List.append_assoc, List.cons.injEq, true_and] at e
      have key : neg = neg' ∧ n.name ++ 58 :: 93 :: rest = n'.name ++ 58 :: 93 :: rest' := by
        cases neg <;> cases neg' <;> simp only [if_true, if_false, Bool.false_eq_true, List.nil_append, List.cons_append, List.cons.injEq, true_and] at e
        · exact ⟨rfl, e⟩
        · exact (hne _ _ _ e).elim
        · exact (hne _ _ _ e.symm).elim
        · exact ⟨rfl, e⟩
      clear e
      obtain ⟨rfl, e⟩ := key
      have e2 := split_at posix_name posix_name h58 h58 e
      clear e
      obtain ⟨h1, _, h2⟩ := e2
      simp only [List.cons.injEq, true_and] at h2
      exact ⟨by rw [posix_name_inj h1], h2⟩

theorem set_items_head {find : List Nat → Option (List Nat) → Option Nat} {l : List SetItem} (h : ∀ j ∈ l, j.WF find specialInSet)
    (rest : List Nat) : (printItems l ++ 93 :: rest).head? ≠ some 45 := by
  cases l with
  | nil => simp [printItems]
  | cons i l =>
    obtain ⟨v, u, e, h1, _⟩ := item_head (by decide) (h i (by simp))
    simp only [printItems, e, List.cons_append, List.head?_cons, ne_eq, Option.some.injEq]
    exact h1

theorem items_inj {find : List Nat → Option (List Nat) → Option Nat} : ∀ {l l' : List SetItem} {rest rest' : List Nat},
    (∀ j ∈ l, j.WF find specialInSet) → (∀ j ∈ l', j.WF find specialInSet) →
    printItems l ++ 93 :: rest = printItems l' ++ 93 :: rest' → l = l' ∧ rest = rest'
  | [], [], _, _, _, _, e => by simpa [printItems] using e
  | [], i :: l', _, _, _, h', e => by
    obtain ⟨v, u, e1, _, h1⟩ := item_head (by decide) (h' i (by simp))
    simp only [printItems, e1, List.nil_append, List.cons_append, List.cons.injEq] at e
    exact (h1 e.1.symm).elim
  | i :: l, [], _, _, h, _, e => by
    obtain ⟨v, u, e1, _, h1⟩ := item_head (by decide) (h i (by simp))
    simp only [printItems, e1, List.nil_append, List.cons_append, List.cons.injEq] at e
    exact (h1 e.1).elim
  | i :: l, i' :: l', rest, rest', h, h', e => by
    have hl : ∀ j ∈ l, j.WF find specialInSet := fun j hj => h j (by simp [hj])
    have hl' : ∀ j ∈ l', j.WF find specialInSet := fun j hj => h' j (by simp [hj])
    simp only [printItems, List.append_assoc] at e
    have e2 := item_inj (by decide) (h i (by simp)) (h' i' (by simp)) (set_items_head hl _) (set_items_head hl' _) e
    clear e
    obtain ⟨rfl, e⟩ := e2
    have e2 := items_inj hl hl' e
    clear e
    obtain ⟨rfl, e⟩ := e2
    exact ⟨rfl, e⟩

/-- `[^` begins a negative set. -/
theorem set_ne_neg {find : List Nat → Option (List Nat) → Option Nat} {l : List SetItem} (h : SetWF find false l) {rest u : List Nat} :
    printItems l ++ 93 :: rest ≠ 94 :: u := by
  cases l with
  | nil => cases h
  | cons i l =>
    intro e
    have hi := h.1
    simp only [Bool.false_eq_true, if_false] at hi
    simp only [printItems, List.append_assoc] at e
    have hc : ∀ (c : Char1) (w : List Nat), c.WF (94 :: specialInSet) → c.print ++ w ≠ 94 :: u := by
      intro c w hc e
      cases c <;> simp only [Char1.print, List.cons_append, List.nil_append, List.cons.injEq] at e
      · exact hc (e.1 ▸ by simp)
      all_goals omega
    cases i with
    | one c => exact hc c _ hi e
    | range a b =>
      simp only [SetItem.print, List.append_assoc] at e
      exact hc a _ hi.1 e
    | cls c => cases c <;> simp [SetItem.print, Cls.print] at e
    | posix neg n => simp [SetItem.print] at e

theorem set_inj {find : List Nat → Option (List Nat) → Option Nat} {neg neg' : Bool} {l l' : List SetItem} {rest rest' : List Nat}
    (h : SetWF find neg l) (h' : SetWF find neg' l')
    (e : (if neg then [94] else []) ++ (printItems l ++ 93 :: rest) = (if neg' then [94] else []) ++ (printItems l' ++ 93 :: rest')) :
    neg = neg' ∧ l = l' ∧ rest = rest' := by
  have key : neg = neg' ∧ printItems l ++ 93 :: rest = printItems l' ++ 93 :: rest' := by
    cases neg <;> cases neg' <;> simp only [if_true, if_false, Bool.false_eq_true, List.nil_append, List.cons_append, List.cons.injEq, true_and] at e
    · exact ⟨rfl, e⟩
    · exact (set_ne_neg h e).elim
    · exact (set_ne_neg h' e.symm).elim
    · exact ⟨rfl, e⟩
  clear e
  obtain ⟨rfl, e⟩ := key
  have hbad : ∀ bad, bad = (if neg then specialInSet else 94 :: specialInSet) → 92 ∈ bad ∧ 91 ∈ bad ∧ 45 ∈ bad ∧ 93 ∈ bad := by
    intro bad hb
    subst hb
    cases neg <;> decide
  have hbad := hbad _ rfl
  refine ⟨rfl, ?_⟩
  cases l with
  | nil =>
    cases l' with
    | nil => simpa [printItems] using e
    | cons i l' =>
      obtain ⟨v, u, e1, _, h1⟩ := item_head hbad.2.2 h'.1
      simp only [printItems, e1, List.nil_append, List.cons_append, List.cons.injEq] at e
      exact (h1 e.1.symm).elim
  | cons i l =>
    cases l' with
    | nil =>
      obtain ⟨v, u, e1, _, h1⟩ := item_head hbad.2.2 h.1
      simp only [printItems, e1, List.nil_append, List.cons_append, List.cons.injEq] at e
      exact (h1 e.1).elim
    | cons i' l' =>
      simp only [printItems, List.append_assoc] at e
      have e2 := item_inj ⟨hbad.1, hbad.2.1⟩ h.1 h'.1 (set_items_head h.2 _) (set_items_head h'.2 _) e
      clear e
      obtain ⟨rfl, e⟩ := e2
      have e2 := items_inj h.2 h'.2 e
      clear e
      obtain ⟨rfl, e⟩ := e2
      exact ⟨rfl, e⟩

/-! ### Quantifiers -/

theorem kind_inj {k k' : RepKind} {rest rest' : List Nat} (hr : noQuant rest.head?) (hr' : noQuant rest'.head?)
    (e : printKind k ++ rest = printKind k' ++ rest') : k = k' ∧ rest = rest' := by
  have hn : ∀ {v : Nat} {l u : List Nat}, noQuant l.head? → (v = 63 ∨ v = 43) → l ≠ v :: u := by
    intro v l u h hv e
    subst e
    simp only [noQuant, List.head?_cons, ne_eq, Option.some.injEq] at h
    omega
  cases k <;> cases k' <;> simp only [printKind, List.nil_append, List.cons_append, List.cons.injEq, true_and] at e
  · exact ⟨rfl, e⟩
  · exact (hn hr (.inl rfl) e).elim
  · exact (hn hr (.inr rfl) e).elim
  · exact (hn hr' (.inl rfl) e.symm).elim
  · exact ⟨rfl, e⟩
  · omega
  · exact (hn hr' (.inr rfl) e.symm).elim
  · omega
  · exact ⟨rfl, e⟩

theorem quant_inj {q q' : Quant} {rest rest' : List Nat} (h : q.WF) (h' : q'.WF) (hr : noQuant rest.head?) (hr' : noQuant rest'.head?)
    (e : q.print ++ rest = q'.print ++ rest') : q = q' ∧ rest = rest' := by
  have hn : ∀ {v : Nat} {l u : List Nat}, noQuant l.head? → (v = 63 ∨ v = 42 ∨ v = 43 ∨ v = 123) → l ≠ v :: u := by
    intro v l u h hv e
    subst e
    simp only [noQuant, List.head?_cons, ne_eq, Option.some.injEq] at h
    omega
  have h44 : ¬ isDec 44 := by simp [isDec]
  have h125 : ¬ isDec 125 := by simp [isDec]
  have hcons : ∀ {ds : List Nat} {l u : List Nat}, isNumber ds → 125 :: l ≠ ds ++ u := by
    intro ds l u hd e
    cases ds with
    | nil => exact hd.1 rfl
    | cons d ds =>
      simp only [List.cons_append, List.cons.injEq] at e
      exact h125 (e.1 ▸ hd.2 d (by simp))
  cases q <;> cases q' <;>
    simp only [Quant.print, List.nil_append, List.cons_append, List.append_assoc, List.cons.injEq, true_and] at e <;>
    simp only [Quant.WF] at h h'
  all_goals first
    | exact ⟨rfl, e⟩
    | exact (hn hr (by omega) e).elim
    | exact (hn hr' (by omega) e.symm).elim
    | (exfalso; omega)
    | (have e2 := kind_inj hr hr' e; clear e; obtain ⟨rfl, e⟩ := e2; exact ⟨rfl, e⟩)
    | skip
  · have e2 := split_at h.2 h'.2 h125 h125 e
    clear e
    obtain ⟨rfl, _, e⟩ := e2
    exact ⟨rfl, e⟩
  · have e2 := split_at h.2 h'.2 h125 h44 e
    clear e
    obtain ⟨_, e, _⟩ := e2
    omega
  · have e2 := split_at h.2 h'.1.2 h125 h44 e
    clear e
    obtain ⟨_, e, _⟩ := e2
    omega
  · have e2 := split_at h.2 h'.2 h44 h125 e
    clear e
    obtain ⟨_, e, _⟩ := e2
    omega
  · have e2 := split_at h.2 h'.2 h44 h44 e
    clear e
    obtain ⟨rfl, _, e⟩ := e2
    simp only [List.cons.injEq, true_and] at e
    have e2 := kind_inj hr hr' e
    clear e
    obtain ⟨rfl, e⟩ := e2
    exact ⟨rfl, e⟩
  · have e2 := split_at h.2 h'.1.2 h44 h44 e
    clear e
    obtain ⟨_, _, e⟩ := e2
    exact (hcons h'.2 e).elim
  · have e2 := split_at h.1.2 h'.2 h44 h125 e
    clear e
    obtain ⟨_, e, _⟩ := e2
    omega
  · have e2 := split_at h.1.2 h'.2 h44 h44 e
    clear e
    obtain ⟨_, _, e⟩ := e2
    exact (hcons h.2 e.symm).elim
  · have e2 := split_at h.1.2 h'.1.2 h44 h44 e
    clear e
    obtain ⟨rfl, _, e⟩ := e2
    have e2 := split_at h.2.2 h'.2.2 h125 h125 e
    clear e
    obtain ⟨rfl, _, e⟩ := e2
    have e2 := kind_inj hr hr' e
    clear e
    obtain ⟨rfl, e⟩ := e2
    exact ⟨rfl, e⟩

/-! ### Patterns -/

/-- Which atom an escape begins. -/
def escKey (v : Nat) (t : List Nat) : Nat :=
  if v ∈ [100, 68, 115, 83, 119, 87, 104, 72, 118, 86, 78, 112, 80] then 1
  else if v = 65 then 6 else if v = 122 then 7 else if v = 90 then 8 else if v = 98 then 9 else if v = 66 then 10
  else if 49 ≤ v ∧ v ≤ 57 then 11
  else if v = 103 then
    match t with
    | _ :: w :: _ => if w = 45 then 13 else if 48 ≤ w ∧ w ≤ 57 then 12 else 14
    | _ => 0
  else 0

/-- Which atom a text begins with. -/
def textKey : List Nat → Nat
  | [] => 0
  | v :: t =>
    if v = 91 then 2 else if v = 46 then 3 else if v = 94 then 4 else if v = 36 then 5
    else if v = 92 then
      match t with
      | [] => 0
      | w :: t => escKey w t
    else if v = 40 then
      match t with
      | 63 :: w :: t =>
        if w = 60 then
          match t with
          | x :: _ => if x = 61 ∨ x = 33 then 19 else 16
          | [] => 0
        else if w = 58 then 17 else if w = 61 ∨ w = 33 then 18 else if w = 62 then 20 else 21
      | _ => 15
    else 0

def atomKey : Atom → Nat
  | .ch _ => 0
  | .cls _ => 1
  | .unknown _ _ => 1
  | .set _ _ => 2
  | .dot => 3
  | .bol => 4
  | .eol => 5
  | .subjectBegin => 6
  | .subjectEnd => 7
  | .subjectEndLine => 8
  | .wordBoundary => 9
  | .notWordBoundary => 10
  | .ref _ => 11
  | .refNumber _ => 12
  | .refRelative _ _ => 13
  | .refName _ => 14
  | .cap _ _ => 15
  | .named _ _ _ => 16
  | .group _ => 17
  | .ahead _ _ => 18
  | .behind _ _ => 19
  | .atomic _ => 20
  | .mode _ => 21

/-- The text of a group does not begin with `?`. -/
theorem body_no_question {find : List Nat → Option (List Nat) → Option Nat} {k : Nat} {b : Body} (h : b.WF find k) (rest u : List Nat) :
    b.print ++ 41 :: rest ≠ 63 :: u := by
  intro e
  have hb : ∀ {w l : List Nat}, Begins w → w ++ l ≠ 63 :: u := by
    rintro w l ⟨v, w', rfl, hv⟩ e
    simp only [List.cons_append, List.cons.injEq] at e
    obtain ⟨rfl, _⟩ := e
    exact hv (by decide)
  cases b with
  | lead l => simp [Body.print] at e
  | alt l =>
    cases l with
    | empty => simp [Body.print, Alt.print] at e
    | one c => exact hb (cat_begins h) e
    | bar c l =>
      simp only [Body.print, Alt.print, List.append_assoc] at e
      exact hb (cat_begins h.1) e

theorem textKey_print {find : List Nat → Option (List Nat) → Option Nat} {k : Nat} {a : Atom} (h : a.WF find k) (rest : List Nat) :
    textKey (a.print ++ rest) = atomKey a := by
  cases a with
  | ch c =>
    cases c <;> simp only [Atom.print, Char1.print, List.cons_append, List.nil_append, textKey, atomKey]
    case plain v =>
      simp only [Atom.WF, Char1.WF, special, List.mem_cons, List.not_mem_nil, or_false, not_or] at h
      simp [h]
    case escaped v =>
      simp only [Atom.WF, Char1.WF, escapable, List.mem_cons, List.not_mem_nil, or_false] at h
      rcases h with rfl | rfl | rfl | rfl | rfl | rfl | rfl | rfl | rfl | rfl | rfl | rfl | rfl | rfl | rfl | rfl | rfl | rfl | rfl <;> simp [escKey]
    case control v =>
      simp only [Atom.WF, Char1.WF, List.mem_cons, List.not_mem_nil, or_false] at h
      rcases h with rfl | rfl | rfl | rfl | rfl | rfl | rfl <;> simp [escKey]
    all_goals simp [escKey]
  | cls c =>
    cases c with
    | letter l =>
      simp only [Atom.WF, Cls.WF] at h
      have : l ∈ [100, 68, 115, 83, 119, 87, 104, 72, 118, 86, 78, 112, 80] := by
        simp only [List.mem_cons, List.not_mem_nil, or_false] at h ⊢
        omega
      simp only [Atom.print, Cls.print, List.cons_append, List.nil_append, textKey, atomKey, escKey]
      simp [this]
    | prop neg p name value => cases neg <;> simp [Atom.print, Cls.print, textKey, atomKey, escKey]
  | unknown name w => simp [Atom.print, textKey, atomKey, escKey]
  | set neg l => simp [Atom.print, textKey, atomKey]
  | dot | bol | eol | subjectBegin | subjectEnd | subjectEndLine | wordBoundary | notWordBoundary =>
    simp [Atom.print, textKey, atomKey, escKey]
  | ref d =>
    simp only [Atom.WF] at h
    have h1 : d ∉ [100, 68, 115, 83, 119, 87, 104, 72, 118, 86, 78, 112, 80] := by
      simp only [List.mem_cons, List.not_mem_nil, or_false]
      omega
    simp only [Atom.print, List.cons_append, List.nil_append, textKey, atomKey, escKey]
    rw [if_neg h1]
    simp only [Nat.reduceEqDiff, if_false, if_true]
    repeat' split
    all_goals omega
  | refNumber ds =>
    obtain ⟨⟨h0, h1⟩, _⟩ := h
    cases ds with
    | nil => exact (h0 rfl).elim
    | cons d ds =>
      have := h1 d (by simp)
      simp only [isDec] at this
      simp [Atom.print, textKey, atomKey, escKey, this]
      omega
  | refRelative ds id => simp [Atom.print, textKey, atomKey, escKey]
  | refName n =>
    obtain ⟨v, w, rfl, h1, _⟩ := h
    simp only [isNameStart] at h1
    simp only [Atom.print, List.cons_append, List.nil_append, textKey, atomKey, escKey]
    simp [show v ≠ 45 by omega, show ¬ (48 ≤ v ∧ v ≤ 57) by omega]
  | cap id b =>
    have := body_no_question h.2 rest
    simp only [Atom.print, List.cons_append, List.nil_append, List.append_assoc, textKey, atomKey]
    simp only [Nat.reduceEqDiff, if_false, if_true]
    split
    · rename_i e
      exact (this _ e).elim
    · rfl
  | named id n b =>
    obtain ⟨_, _, ⟨v, w, rfl, h1, _⟩, _⟩ := h
    simp only [isNameStart] at h1
    simp [Atom.print, textKey, atomKey]
    omega
  | group b => simp [Atom.print, textKey, atomKey]
  | ahead pos b => cases pos <;> simp [Atom.print, textKey, atomKey]
  | behind pos b => cases pos <;> simp [Atom.print, textKey, atomKey]
  | atomic b => simp [Atom.print, textKey, atomKey]
  | mode m => cases m <;> simp [Atom.print, textKey, atomKey, modeLetter]

/-- What may follow the alternatives. -/
def closes (rest : List Nat) : Prop := rest = [] ∨ rest.head? = some 41

theorem closes.not_begins {rest w : List Nat} (h : closes rest) (hb : Begins w) (u : List Nat) : rest ≠ w ++ u := by
  obtain ⟨v, w', rfl, hv⟩ := hb
  intro e
  subst e
  rcases h with h | h
  · simp at h
  · simp only [List.cons_append, List.head?_cons, Option.some.injEq] at h
    subst h
    exact hv (by decide)

theorem atEnd.not_begins {rest w : List Nat} (h : atEnd rest) (hb : Begins w) (u : List Nat) : rest ≠ w ++ u := by
  obtain ⟨v, w', rfl, hv⟩ := hb
  intro e
  subst e
  rcases h with h | h | h
  · simp at h
  all_goals
    simp only [List.cons_append, List.head?_cons, Option.some.injEq] at h
    subst h
    exact hv (by decide)

theorem closes.atEnd {rest : List Nat} (h : closes rest) : atEnd rest := h.imp id .inl

section
variable {find : List Nat → Option (List Nat) → Option Nat}

theorem name_no {d : Nat} (hd : d = 125 ∨ d = 62) : ¬ isNameChar d := by
  rcases hd with rfl | rfl <;> simp [isNameChar, isNameStart, isDec]

/-- Alternatives do not begin with `|`. -/
theorem no_lead {l : Alt} {k : Nat} {rest u : List Nat} (h : l.WF find k) (hr : closes rest) : l.print ++ rest ≠ 124 :: u := by
  have hb : ∀ {w v : List Nat}, Begins w → w ++ v ≠ 124 :: u := by
    rintro w v ⟨x, w', rfl, hv⟩ e
    simp only [List.cons_append, List.cons.injEq] at e
    obtain ⟨rfl, _⟩ := e
    exact hv (by decide)
  intro e
  cases l with
  | empty =>
    simp only [Alt.print, List.nil_append] at e
    subst e
    rcases hr with hr | hr <;> simp at hr
  | one c => exact hb (cat_begins h) e
  | bar c l =>
    simp only [Alt.print, List.append_assoc] at e
    exact hb (cat_begins h.1) e

mutual
theorem atom_inj : ∀ (a a' : Atom) {k : Nat} {rest rest' : List Nat}, a.WF find k → a'.WF find k →
    a.print ++ rest = a'.print ++ rest' → a = a' ∧ rest = rest'
  | a, a', k, rest, rest', h, h', e => by
    have hk : atomKey a = atomKey a' := by rw [← textKey_print h rest, e, textKey_print h' rest']
    have h125 : ¬ isDec 125 := by simp [isDec]
    match a, a', hk with
    | .ch c, .ch c', _ =>
      have e2 := char_inj (by decide) (by decide) h h' e
      clear e
      obtain ⟨rfl, e⟩ := e2
      exact ⟨rfl, e⟩
    | .cls c, .cls c', _ =>
      have e2 := cls_inj h h' e
      clear e
      obtain ⟨rfl, e⟩ := e2
      exact ⟨rfl, e⟩
    | .unknown name w, .unknown name' w', _ => exact (unknown_inj h).1 h' e
    | .unknown name w, .cls c, _ => exact ((unknown_inj h).2 h' e).elim
    | .cls c, .unknown name w, _ => exact ((unknown_inj h').2 h e.symm).elim
    | .set neg l, .set neg' l', _ =>
      simp only [Atom.print, List.cons_append, List.nil_append, List.append_assoc, List.cons.injEq, true_and] at e
      have e2 := set_inj h h' e
      clear e
      obtain ⟨rfl, rfl, e⟩ := e2
      exact ⟨rfl, e⟩
    | .dot, .dot, _ | .bol, .bol, _ | .eol, .eol, _ | .subjectBegin, .subjectBegin, _ | .subjectEnd, .subjectEnd, _
    | .subjectEndLine, .subjectEndLine, _ | .wordBoundary, .wordBoundary, _ | .notWordBoundary, .notWordBoundary, _ =>
      simp only [Atom.print, List.cons_append, List.nil_append, List.cons.injEq, true_and] at e
      exact ⟨rfl, e⟩
    | .ref d, .ref d', _ =>
      simp only [Atom.print, List.cons_append, List.nil_append, List.cons.injEq, true_and] at e
      exact ⟨by rw [e.1], e.2⟩
    | .refNumber ds, .refNumber ds', _ =>
      simp only [Atom.print, List.cons_append, List.nil_append, List.append_assoc, List.cons.injEq, true_and] at e
      have e2 := split_at h.1.2 h'.1.2 h125 h125 e
      clear e
      obtain ⟨rfl, _, e⟩ := e2
      exact ⟨rfl, e⟩
    | .refRelative ds id, .refRelative ds' id', _ =>
      simp only [Atom.print, List.cons_append, List.nil_append, List.append_assoc, List.cons.injEq, true_and] at e
      have e2 := split_at h.1.2 h'.1.2 h125 h125 e
      clear e
      obtain ⟨rfl, _, e⟩ := e2
      exact ⟨by rw [h.2.2, h'.2.2], e⟩
    | .refName n, .refName n', _ =>
      obtain ⟨v, w, rfl, h1, h2⟩ := h
      obtain ⟨v', w', rfl, h1', h2'⟩ := h'
      simp only [Atom.print, List.cons_append, List.nil_append, List.append_assoc, List.cons.injEq, true_and] at e
      obtain ⟨rfl, e⟩ := e
      have e2 := split_at h2 h2' (name_no (.inl rfl)) (name_no (.inl rfl)) e
      clear e
      obtain ⟨rfl, _, e⟩ := e2
      exact ⟨rfl, e⟩
    | .cap id b, .cap id' b', _ =>
      simp only [Atom.print, List.cons_append, List.nil_append, List.append_assoc, List.cons.injEq, true_and] at e
      have e2 := body_inj b b' h.2 h'.2 (.inr rfl) (.inr rfl) e
      clear e
      obtain ⟨rfl, e⟩ := e2
      simp only [List.cons.injEq, true_and] at e
      exact ⟨by rw [h.1, h'.1], e⟩
    | .named id n b, .named id' n' b', _ =>
      obtain ⟨rfl, h3, ⟨v, w, rfl, h1, h2⟩, _⟩ := h
      obtain ⟨rfl, h3', ⟨v', w', rfl, h1', h2'⟩, _⟩ := h'
      simp only [Atom.print, List.cons_append, List.nil_append, List.append_assoc, List.cons.injEq, true_and] at e
      obtain ⟨rfl, e⟩ := e
      have e2 := split_at h2 h2' (name_no (.inr rfl)) (name_no (.inr rfl)) e
      clear e
      obtain ⟨rfl, _, e⟩ := e2
      have e2 := body_inj b b' h3 h3' (.inr rfl) (.inr rfl) e
      clear e
      obtain ⟨rfl, e⟩ := e2
      simp only [List.cons.injEq, true_and] at e
      exact ⟨rfl, e⟩
    | .group b, .group b', _ =>
      simp only [Atom.print, List.cons_append, List.nil_append, List.append_assoc, List.cons.injEq, true_and] at e
      have e2 := body_inj b b' h h' (.inr rfl) (.inr rfl) e
      clear e
      obtain ⟨rfl, e⟩ := e2
      simp only [List.cons.injEq, true_and] at e
      exact ⟨rfl, e⟩
    | .ahead pos b, .ahead pos' b', _ =>
      simp only [Atom.print, List.cons_append, List.nil_append, List.append_assoc, List.cons.injEq, true_and] at e
      obtain ⟨e1, e⟩ := e
      have e2 := body_inj b b' h h' (.inr rfl) (.inr rfl) e
      clear e
      obtain ⟨rfl, e⟩ := e2
      simp only [List.cons.injEq, true_and] at e
      refine ⟨?_, e⟩
      cases pos <;> cases pos' <;> first | rfl | (simp at e1)
    | .behind pos b, .behind pos' b', _ =>
      simp only [Atom.print, List.cons_append, List.nil_append, List.append_assoc, List.cons.injEq, true_and] at e
      obtain ⟨e1, e⟩ := e
      have e2 := body_inj b b' h.1 h'.1 (.inr rfl) (.inr rfl) e
      clear e
      obtain ⟨rfl, e⟩ := e2
      simp only [List.cons.injEq, true_and] at e
      refine ⟨?_, e⟩
      cases pos <;> cases pos' <;> first | rfl | (simp at e1)
    | .atomic b, .atomic b', _ =>
      simp only [Atom.print, List.cons_append, List.nil_append, List.append_assoc, List.cons.injEq, true_and] at e
      have e2 := body_inj b b' h h' (.inr rfl) (.inr rfl) e
      clear e
      obtain ⟨rfl, e⟩ := e2
      simp only [List.cons.injEq, true_and] at e
      exact ⟨rfl, e⟩
    | .mode m, .mode m', _ =>
      simp only [Atom.print, List.cons_append, List.nil_append, List.cons.injEq, true_and] at e
      obtain ⟨e1, e⟩ := e
      refine ⟨?_, e⟩
      cases m <;> cases m' <;> first | rfl | (simp [modeLetter] at e1)

theorem cat_inj : ∀ (c c' : Cat) {k : Nat} {rest rest' : List Nat}, c.WF find k → c'.WF find k → atEnd rest → atEnd rest' →
    c.print ++ rest = c'.print ++ rest' → c = c' ∧ rest = rest'
  | .one a q, .one a' q', k, rest, rest', h, h', hr, hr', e => by
    simp only [Cat.print, List.append_assoc] at e
    have e2 := atom_inj a a' h.1 h'.1 e
    clear e
    obtain ⟨rfl, e⟩ := e2
    have e2 := quant_inj h.2.1 h'.2.1 hr.noQuant hr'.noQuant e
    clear e
    obtain ⟨rfl, e⟩ := e2
    exact ⟨rfl, e⟩
  | .one a q, .cons a' q' l', k, rest, rest', h, h', hr, hr', e => by
    simp only [Cat.print, List.append_assoc] at e
    have e2 := atom_inj a a' h.1 h'.1 e
    clear e
    obtain ⟨rfl, e⟩ := e2
    have hb := cat_begins h'.2.2.2
    have e2 := quant_inj h.2.1 h'.2.1 hr.noQuant (hb.append _).noQuant e
    clear e
    obtain ⟨rfl, e⟩ := e2
    exact (hr.not_begins hb _ e).elim
  | .cons a q l, .one a' q', k, rest, rest', h, h', hr, hr', e => by
    simp only [Cat.print, List.append_assoc] at e
    have e2 := atom_inj a a' h.1 h'.1 e
    clear e
    obtain ⟨rfl, e⟩ := e2
    have hb := cat_begins h.2.2.2
    have e2 := quant_inj h.2.1 h'.2.1 (hb.append _).noQuant hr'.noQuant e
    clear e
    obtain ⟨rfl, e⟩ := e2
    exact (hr'.not_begins hb _ e.symm).elim
  | .cons a q l, .cons a' q' l', k, rest, rest', h, h', hr, hr', e => by
    simp only [Cat.print, List.append_assoc] at e
    have e2 := atom_inj a a' h.1 h'.1 e
    clear e
    obtain ⟨rfl, e⟩ := e2
    have e2 := quant_inj h.2.1 h'.2.1 ((cat_begins h.2.2.2).append _).noQuant ((cat_begins h'.2.2.2).append _).noQuant e
    clear e
    obtain ⟨rfl, e⟩ := e2
    have e2 := cat_inj l l' h.2.2.2 h'.2.2.2 hr hr' e
    clear e
    obtain ⟨rfl, e⟩ := e2
    exact ⟨rfl, e⟩

theorem alt_inj : ∀ (l l' : Alt) {k : Nat} {rest rest' : List Nat}, l.WF find k → l'.WF find k → closes rest → closes rest' →
    l.print ++ rest = l'.print ++ rest' → l = l' ∧ rest = rest'
  | .empty, .empty, k, rest, rest', h, h', hr, hr', e => ⟨rfl, by simpa [Alt.print] using e⟩
  | .empty, .one c, k, rest, rest', h, h', hr, hr', e => (hr.not_begins (cat_begins h') _ e).elim
  | .empty, .bar c l, k, rest, rest', h, h', hr, hr', e => by
    simp only [Alt.print, List.append_assoc] at e
    exact (hr.not_begins (cat_begins h'.1) _ e).elim
  | .one c, .empty, k, rest, rest', h, h', hr, hr', e => (hr'.not_begins (cat_begins h) _ e.symm).elim
  | .bar c l, .empty, k, rest, rest', h, h', hr, hr', e => by
    simp only [Alt.print, List.append_assoc] at e
    exact (hr'.not_begins (cat_begins h.1) _ e.symm).elim
  | .one c, .one c', k, rest, rest', h, h', hr, hr', e => by
    have e2 := cat_inj c c' h h' hr.atEnd hr'.atEnd e
    clear e
    obtain ⟨rfl, e⟩ := e2
    exact ⟨rfl, e⟩
  | .one c, .bar c' l', k, rest, rest', h, h', hr, hr', e => by
    simp only [Alt.print, List.append_assoc] at e
    have e2 := cat_inj c c' h h'.1 hr.atEnd (.inr (.inr rfl)) e
    clear e
    obtain ⟨_, rfl⟩ := e2
    rcases hr with hr | hr <;> simp at hr
  | .bar c l, .one c', k, rest, rest', h, h', hr, hr', e => by
    simp only [Alt.print, List.append_assoc] at e
    have e2 := cat_inj c c' h.1 h' (.inr (.inr rfl)) hr'.atEnd e
    clear e
    obtain ⟨_, e⟩ := e2
    subst e
    rcases hr' with hr | hr <;> simp at hr
  | .bar c l, .bar c' l', k, rest, rest', h, h', hr, hr', e => by
    simp only [Alt.print, List.append_assoc] at e
    have e2 := cat_inj c c' h.1 h'.1 (.inr (.inr rfl)) (.inr (.inr rfl)) e
    clear e
    obtain ⟨rfl, e⟩ := e2
    simp only [List.cons_append, List.nil_append, List.cons.injEq, true_and] at e
    have e2 := alt_inj l l' h.2 h'.2 hr hr' e
    clear e
    obtain ⟨rfl, e⟩ := e2
    exact ⟨rfl, e⟩

theorem body_inj : ∀ (b b' : Body) {k : Nat} {rest rest' : List Nat}, b.WF find k → b'.WF find k → closes rest → closes rest' →
    b.print ++ rest = b'.print ++ rest' → b = b' ∧ rest = rest'
  | .alt l, .alt l', k, rest, rest', h, h', hr, hr', e => by
    have e2 := alt_inj l l' h h' hr hr' e
    clear e
    obtain ⟨rfl, e⟩ := e2
    exact ⟨rfl, e⟩
  | .lead l, .lead l', k, rest, rest', h, h', hr, hr', e => by
    simp only [Body.print, List.cons_append, List.nil_append, List.cons.injEq, true_and] at e
    have e2 := alt_inj l l' h h' hr hr' e
    clear e
    obtain ⟨rfl, e⟩ := e2
    exact ⟨rfl, e⟩
  | .alt l, .lead l', k, rest, rest', h, h', hr, hr', e => by
    simp only [Body.print, List.cons_append, List.nil_append] at e
    exact (no_lead h hr e).elim
  | .lead l, .alt l', k, rest, rest', h, h', hr, hr', e => by
    simp only [Body.print, List.cons_append, List.nil_append] at e
    exact (no_lead h' hr' e.symm).elim
end

end

end Ctre.Parse
