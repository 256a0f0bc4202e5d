import Verif.Lemmas.ParseBody
import Verif.Spec.Letters

/-
The parser on an inline mode of several letters.
-/
namespace Ctre.Parse
open Ctre.Surface

/-- The tree of a piece. -/
def pieceTree (p : Atom × Quant) : Re := quantTree p.2 (atomTree p.1)

/-- The stack after `n` concatenations. -/
def joins : Nat → List PItem → List PItem
  | 0, s => s
  | n + 1, s => match joins n s with
    | .re b :: .re a :: s => .re (makeSequence b a) :: s
    | s => s

theorem joins_take : ∀ (n : Nat) (l : List (Atom × Quant)) (c : Cat) (stk : List PItem), n ≤ l.length →
    joins n (.re (catTree c) :: (l.map fun p => PItem.re (pieceTree p)) ++ stk) =
      .re (catTree (Cat.preceded (l.take n).reverse c)) :: ((l.drop n).map fun p => PItem.re (pieceTree p)) ++ stk
  | 0, l, c, stk, _ => by simp [joins, Cat.preceded]
  | n + 1, l, c, stk, h => by
    rw [joins, joins_take n l c stk (by omega), List.drop_eq_getElem_cons (by omega)]
    have : (l.take (n + 1)).reverse = l[n] :: (l.take n).reverse := by
      rw [List.take_succ_eq_append_getElem (by omega)]; simp
    simp only [List.map_cons, List.cons_append, this]
    rfl

theorem letters_tail {P : PropTable} {k : Nat} (rest : List Nat) (st : List Sym) : ∀ (ms : List Mode) (r : Re) (stk : List PItem),
    Run P (ms.map modeLetter ++ 41 :: rest) (.nt .modeSwitch2 :: st) ⟨.re r :: stk, k⟩ rest st
      ⟨((ms.map fun m => PItem.re (.mode m)).reverse) ++ .re r :: stk, k⟩
  | [], r, stk => (Run.push rfl).trans Run.any
  | m :: ms, r, stk => by
    have ih := letters_tail (P := P) (k := k) rest st ms (.mode m) (.re r :: stk)
    simp only [List.map_cons, List.cons_append, List.reverse_cons, List.append_assoc, List.nil_append]
    cases m <;> exact (Run.push rfl).trans (Run.any.trans ((Run.act fun _ => rfl).trans ih))

theorem letters_apply {P : PropTable} {k : Nat} {stk : List PItem} (m : Mode) (ms : List Mode) (rest : List Nat) (st : List Sym) :
    Run P ((m :: ms).map modeLetter ++ 41 :: rest) (.nt .d :: st) ⟨.capId (k + 1) :: stk, k + 1⟩ rest st
      ⟨(((m :: ms).map fun m => PItem.re (.mode m)).reverse) ++ stk, k⟩ := by
  have ih := letters_tail (P := P) (k := k) rest st ms (.mode m) stk
  simp only [List.map_cons, List.cons_append, List.reverse_cons, List.append_assoc, List.nil_append]
  cases m <;> exact (Run.push rfl).trans (Run.any.trans ((Run.act fun _ => rfl).trans ih))

/-- The stack after the items of a sequence with `(?im…)`: one concatenation for every item and one for all letters. -/
theorem letters_run {P : PropTable} {post : Cat} {m : Mode} {ms : List Mode} {rest : List Nat} (hr : atEnd rest) :
    ∀ (pre : List (Atom × Quant)) {k : Nat} {st : List Sym} {stk : List PItem} {x : NT} {tl : List Sym},
      entryTail x = some tl → (Cat.preceded pre post).WF P.find k → Clean (Cat.preceded pre post).leadsName stk →
      Run P (piecesText pre ++ (lettersText (m :: ms) ++ (post.print ++ rest))) (.nt x :: st) ⟨stk, k⟩ rest (tl ++ st)
        ⟨joins (pre.length + 1) (.re (catTree post) ::
          ((pre ++ letterPieces (m :: ms)).reverse.map fun p => PItem.re (pieceTree p)) ++ stk),
          k + (Cat.preceded pre post).groups⟩
  | [], k, st, stk, x, tl, hx, h, hs => by
    have h1 := letters_apply (P := P) (k := k) (stk := stk) m ms (post.print ++ rest) (.nt .rept :: .nt .string2 :: (tl ++ st))
    have e : ((letterPieces (m :: ms)).reverse.map fun p => PItem.re (pieceTree p)) =
        ((m :: ms).map fun m => PItem.re (.mode m)).reverse := by
      simp [letterPieces, pieceTree, quantTree, atomTree, List.map_reverse, Function.comp_def]
    obtain ⟨r, u, hu⟩ : ∃ r u, ((m :: ms).map fun m => PItem.re (.mode m)).reverse ++ stk = .re r :: u := by
      cases hl : ((m :: ms).map fun m => PItem.re (.mode m)).reverse with
      | nil => simp at hl
      | cons y l =>
        have : y ∈ ((m :: ms).map fun m => PItem.re (.mode m)).reverse := by rw [hl]; simp
        simp only [List.mem_reverse, List.mem_map] at this
        obtain ⟨m', _, rfl⟩ := this
        exact ⟨_, _, rfl⟩
    simp only [piecesText, lettersText, List.nil_append, List.append_assoc, List.cons_append]
    refine (Run.push (entry_rule hx (v := 40) (by decide))).trans ?_
    refine Run.any.trans ((Run.act fun _ => rfl).trans ?_)
    refine (Run.push (l := [.any, .nt .d]) rfl).trans (Run.any.trans ?_)
    refine h1.trans ?_
    rw [e, hu]
    refine (Run.eps (rept_eps (.inl rfl) ((cat_begins h).append _).noQuant)).trans ?_
    refine (cat_run post rfl h clean_cons_re hr).trans ?_
    exact Run.act fun _ => rfl
  | (a, q) :: l, k, st, stk, x, tl, hx, h, hs => by
    obtain ⟨v, u, hp, h1⟩ := atom_run a (P := P) (k := k)
      (rest := q.print ++ (piecesText l ++ (lettersText (m :: ms) ++ (post.print ++ rest))))
      (st := .nt .rept :: .nt .string2 :: (tl ++ st)) (stk := stk) h.1 hs
    obtain ⟨v', u', hp', hv⟩ := atom_begins h.1
    rw [hp] at hp'
    simp only [List.cons.injEq] at hp'
    obtain ⟨rfl, rfl⟩ := hp'
    have hb : Begins (piecesText l ++ (lettersText (m :: ms) ++ (post.print ++ rest))) := by
      cases l with
      | nil => exact ⟨40, _, rfl, by decide⟩
      | cons p l =>
        obtain ⟨a', q'⟩ := p
        simp only [piecesText, List.append_assoc]
        exact (atom_begins h.2.2.2.1).append _
    simp only [piecesText, hp, List.cons_append, List.append_assoc]
    refine (Run.push (entry_rule hx hv)).trans ?_
    simp only [List.cons_append, List.append_assoc, List.nil_append]
    refine h1.trans ((quant_run hb.noQuant h.2.1 (optOK h.2.2.1)).trans ?_)
    have ih := letters_run (post := post) (m := m) (ms := ms) hr l (st := tl ++ st)
      (stk := .re (quantTree q (atomTree a)) :: stk) (x := .string2) (tl := [.act .makeSequence]) rfl h.2.2.2 clean_cons_re
    refine ih.trans ?_
    have e : (.re (catTree post) :: ((l ++ letterPieces (m :: ms)).reverse.map fun p => PItem.re (pieceTree p)) ++
          .re (quantTree q (atomTree a)) :: stk) =
        (.re (catTree post) :: (((a, q) :: l ++ letterPieces (m :: ms)).reverse.map fun p => PItem.re (pieceTree p)) ++ stk) := by
      simp [pieceTree]
    rw [e]
    simp only [List.length_cons]
    have key := joins_take (l.length + 1) ((a, q) :: l ++ letterPieces (m :: ms)).reverse post stk (by simp)
    obtain ⟨b, b', s, hj⟩ : ∃ b b' s, joins (l.length + 1) (.re (catTree post) ::
        (((a, q) :: l ++ letterPieces (m :: ms)).reverse.map fun p => PItem.re (pieceTree p)) ++ stk) = .re b :: .re b' :: s := by
      rw [key, List.drop_eq_getElem_cons (by simp [letterPieces]; omega)]
      exact ⟨_, _, _, rfl⟩
    have hj2 : joins (l.length + 1 + 1) (.re (catTree post) ::
        (((a, q) :: l ++ letterPieces (m :: ms)).reverse.map fun p => PItem.re (pieceTree p)) ++ stk) =
          .re (makeSequence b b') :: s := by
      rw [joins, hj]
    simp only [List.cons_append] at hj hj2 ⊢
    rw [hj, hj2]
    simp only [Cat.preceded, Cat.groups, ← Nat.add_assoc]
    exact Run.act fun _ => rfl

theorem parse_of_run {P : PropTable} {v : Nat} {u : List Nat} {l : List Sym} {c : Ctx} (hl : rule .s (some v) = .push (.any :: l))
    (hrun : Run P (v :: u) [.nt .s] {} [] [] c) : parse P (v :: u) = .accept c := by
  obtain ⟨v', k, hk⟩ := hrun 0
  have h1 : ∀ m, decide P (m + 2) none (v :: u) [.nt .s] {} = decide P (m + 2) (some 0) (v :: u) [.nt .s] {} := by
    intro m
    simp only [decide, List.head?_cons, hl, List.cons_append]
  have h2 : decide P (1 + k + 2) none (v :: u) [.nt .s] {} = .accept c := by
    rw [h1, show 1 + k + 2 = 3 + k by omega, hk]
    rfl
  have h3 := parse_terminates P (v :: u) (n := parseFuel (v :: u).length) (by simp only [parseFuel]; omega)
  unfold parse
  rcases Nat.le_total (1 + k + 2) (parseFuel (v :: u).length) with h4 | h4
  · rw [decide_of_le P h4 (by rw [h2]; simp), h2]
  · rw [← decide_of_le P h4 h3, h2]

theorem item_first {v : Nat} (hv : v ∉ noItem) : ∃ l, rule .s (some v) = .push (.any :: l) := by
  have := entry_rule (x := .s) rfl hv
  unfold itemHead at this
  repeat' split at this
  all_goals exact ⟨_, this⟩

theorem letters_begin {find : List Nat → Option (List Nat) → Option Nat} {pre : List (Atom × Quant)} {ms : List Mode} {post : Cat}
    {k : Nat} (h : (Cat.preceded pre post).WF find k) (w : List Nat) : Begins (piecesText pre ++ (lettersText ms ++ w)) := by
  cases pre with
  | nil => exact ⟨40, _, rfl, by decide⟩
  | cons p l =>
    obtain ⟨a', q'⟩ := p
    simp only [piecesText, List.append_assoc]
    exact (atom_begins h.1).append _

theorem build_of_run {P : PropTable} {w : List Nat} {r : Re} {stk : List PItem} {k : Nat} (hb : Begins w)
    (hrun : Run P w [.nt .s] {} [] [] ⟨.re r :: stk, k⟩) : build P w = .pattern r := by
  obtain ⟨v, u, rfl, hv⟩ := hb
  obtain ⟨l, hl⟩ := item_first hv
  unfold build
  rw [parse_of_run hl hrun]

/-- A pattern that begins with a sequence with `(?im…)`: what is left of the sequence are its last items. -/
theorem build_letters {P : PropTable} {pre : List (Atom × Quant)} {m : Mode} {ms : List Mode} {post : Cat} {l : Option Alt}
    (h : ((Cat.preceded pre post).orElse l).WF P.find 0) :
    build P (piecesText pre ++ lettersText (m :: ms) ++ (post.orElse l).print) =
      .pattern (altTree ((Cat.preceded ((pre ++ letterPieces (m :: ms)).drop ms.length) post).orElse l)) := by
  have key := joins_take (pre.length + 1) (pre ++ letterPieces (m :: ms)).reverse post [] (by simp [letterPieces])
  have e : ((pre ++ letterPieces (m :: ms)).reverse.take (pre.length + 1)).reverse = (pre ++ letterPieces (m :: ms)).drop ms.length := by
    rw [List.take_reverse, List.reverse_reverse]
    congr 1
    simp [letterPieces]; omega
  rw [e] at key
  rw [List.append_assoc]
  cases l with
  | none =>
    have hw : (Cat.preceded pre post).WF P.find 0 := h
    have := letters_run (P := P) (post := post) (m := m) (ms := ms) (rest := []) (.inl rfl) pre (k := 0) (st := []) (stk := [])
      (x := .s) (tl := [.nt .content2]) rfl hw (by simp [Clean])
    rw [key] at this
    simp only [List.append_nil] at this
    exact build_of_run (letters_begin hw _) (this.trans (.eps rfl))
  | some l =>
    have hw : (Cat.preceded pre post).WF P.find 0 := h.1
    have := letters_run (P := P) (post := post) (m := m) (ms := ms) (rest := 124 :: l.print) (.inr (.inr rfl)) pre (k := 0) (st := [])
      (stk := []) (x := .s) (tl := [.nt .content2]) rfl hw (by simp [Clean])
    rw [key] at this
    simp only [List.append_nil] at this
    have h1 := this.trans ((Run.push (l := [.any, .nt .a]) rfl).trans Run.any)
    have e1 : (post.orElse (some l)).print = post.print ++ 124 :: l.print := by simp [Cat.orElse, Alt.print]
    rw [e1]
    by_cases hl : l.print = []
    · cases l with
      | empty =>
        exact build_of_run (letters_begin hw _) (h1.trans ((Run.push (l := [.act .pushEmpty, .act .makeAlternate]) rfl).trans
          ((Run.act fun _ => rfl).trans (Run.act fun _ => rfl))))
      | one c =>
        obtain ⟨v, u, hp, _⟩ := cat_begins h.2
        simp [Alt.print, hp] at hl
      | bar c l => simp [Alt.print] at hl
    · have h2 := fun r stk k (hk : l.WF P.find k) => alt_run l (P := P) (rest := []) (st := []) (stk := .re r :: stk) (x := .a)
        (tl := [.act .makeAlternate]) hl rfl hk clean_cons_re (.inl rfl)
      simp only [List.append_nil] at h2
      exact build_of_run (letters_begin hw _) (h1.trans ((h2 _ _ _ (by simpa using h.2)).trans (Run.act fun _ => rfl)))

theorem preceded_print (post : Cat) : ∀ pre, (Cat.preceded pre post).print = piecesText pre ++ post.print
  | [] => rfl
  | (a, q) :: l => by simp [Cat.preceded, Cat.print, piecesText, preceded_print post l]

theorem orElse_print {c c' : Cat} {w : List Nat} (h : c'.print = w ++ c.print) (l : Option Alt) :
    (c'.orElse l).print = w ++ (c.orElse l).print := by
  cases l <;> simp [Cat.orElse, Alt.print, h]

variable {find : List Nat → Option (List Nat) → Option Nat}

theorem preceded_letters (ms : List Mode) (post : Cat) : ∀ (pre : List (Atom × Quant)) {k : Nat},
    (Cat.preceded pre post).WF find k → (Cat.preceded (pre ++ letterPieces ms) post).WF find k ∧
      (Cat.preceded (pre ++ letterPieces ms) post).groups = (Cat.preceded pre post).groups
  | (a, q) :: l, k, h => by
    have ih := preceded_letters ms post l h.2.2.2
    exact ⟨⟨h.1, h.2.1, h.2.2.1, ih.1⟩, by simp only [List.cons_append, Cat.preceded, Cat.groups, ih.2]⟩
  | [], k, h => by
    induction ms with
    | nil => exact ⟨h, rfl⟩
    | cons m ms ih =>
      refine ⟨⟨trivial, trivial, (fun h => by cases h), ?_⟩, ?_⟩
      · simpa [Atom.groups, letterPieces] using ih.1
      · have := ih.2
        simp only [List.nil_append, letterPieces, List.map_cons, Cat.preceded, Cat.groups, Atom.groups] at this ⊢
        omega

theorem preceded_drop (post : Cat) : ∀ (n : Nat) (l : List (Atom × Quant)) {k : Nat}, (∀ p ∈ l.take n, p.1.groups = 0) →
    (Cat.preceded l post).WF find k → (Cat.preceded (l.drop n) post).WF find k ∧
      (Cat.preceded (l.drop n) post).groups = (Cat.preceded l post).groups
  | 0, l, k, _, h => ⟨h, rfl⟩
  | n + 1, [], k, _, h => ⟨h, rfl⟩
  | n + 1, (a, q) :: l, k, h0, h => by
    have ha : a.groups = 0 := h0 (a, q) (by simp)
    have h' := h.2.2.2
    rw [ha] at h'
    have ih := preceded_drop post n l (fun p hp => h0 p (by simp [hp])) h'
    exact ⟨ih.1, by simp only [List.drop_succ_cons, ih.2, Cat.preceded, Cat.groups, ha]; omega⟩

end Ctre.Parse
