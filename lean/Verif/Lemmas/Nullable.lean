import Verif.Lemmas.FirstSound

/-
Stacks that succeed on empty text everywhere, and the soundness of the first-character analysis.
-/
namespace Ctre

mutual
/-- Succeeds on empty text at every position, by its form. -/
def Re.free : Re → Bool
  | .empty => true
  | .str cs => cs.isEmpty
  | .sel l => freeAny l
  | .seq l | .cap _ _ l => !l.isEmpty && freeAll l
  | .rep _ a _ _ => decide (a = 0)
  | _ => false

def freeAny : List Re → Bool
  | [] => false
  | r :: l => r.free || freeAny l

def freeAll : List Re → Bool
  | [] => true
  | r :: l => r.free && freeAll l
end

def freeSt : Stack → Bool
  | [] => false
  | [.accept] | [.endCycle] | [.endAhead] | [.endBehind] => true
  | .re r :: t => r.free && freeSt t
  | .numMark _ :: t | .startMark :: t | .endMark :: t => freeSt t
  | _ => false

mutual
theorem Re.free_moves : ∀ r : Re, r.free = true → r.moves = false
  | .str cs, h => by simp [Re.free] at h; simp [Re.moves, h]
  | .sel l, h => by simp only [Re.free] at h; simp only [Re.moves]; exact freeAny_moves l h
  | .seq l, h => by
    simp only [Re.free, Bool.and_eq_true] at h; simp only [Re.moves]; exact freeAll_moves l h.2
  | .cap _ _ l, h => by
    simp only [Re.free, Bool.and_eq_true] at h; simp only [Re.moves]; exact freeAll_moves l h.2
  | .rep k a b l, h => by simp [Re.free] at h; simp [Re.moves, h]
  | .empty, _ => rfl
  | .cc _, h | .any, h | .bref _, h | .brefName _, h | .ahead _ _, h | .behind _ _, h | .atomic _, h | .boundary _, h
  | .notBoundary _, h | .sBegin, h | .sEnd, h | .sEndLine, h | .lBegin, h | .lEnd, h | .mode _, h | .reject _, h => by
    simp [Re.free] at h

theorem freeAny_moves : ∀ l : List Re, freeAny l = true → movesAll l = false
  | [], h => by simp [freeAny] at h
  | r :: l, h => by
    simp only [freeAny, Bool.or_eq_true] at h
    rcases h with h | h
    · simp [movesAll, Re.free_moves r h]
    · simp [movesAll, freeAny_moves l h]

theorem freeAll_moves : ∀ l : List Re, freeAll l = true → movesAny l = false
  | [], _ => by simp [movesAny]
  | r :: l, h => by
    simp only [freeAll, Bool.and_eq_true] at h
    simp [movesAny, Re.free_moves r h.1, freeAll_moves l h.2]
end

theorem freeSt_moves (st : Stack) (h : freeSt st = true) : movesSt st = false := by
  induction st with
  | nil => rfl
  | cons i t ih =>
    cases i with
    | re r =>
      simp only [freeSt, Bool.and_eq_true] at h
      simp [movesSt, Re.free_moves r h.1, ih h.2]
    | numMark id => simp only [freeSt] at h; simpa [movesSt] using ih h
    | startMark => simp only [freeSt] at h; simpa [movesSt] using ih h
    | endMark => simp only [freeSt] at h; simpa [movesSt] using ih h
    | _ =>
      cases t with
      | nil => rfl
      | cons j t => simp [freeSt] at h

/-- The stacks of the evaluation machine: patterns and captures, then an end. -/
def closed : Stack → Bool
  | [.accept] | [.endMark, .accept] | [.endCycle] | [.endAhead] | [.endBehind] => true
  | .re _ :: t | .numMark _ :: t | .startMark :: t => closed t
  | _ => false

theorem closed_items {l : List Re} {t : Stack} (h : closed t = true) : closed (items l t) = true := by
  induction l with
  | nil => exact h
  | cons r l ih => simpa [items, closed] using ih

def testsSt : Stack → Bool
  | [] => false
  | .re r :: t => r.tests || testsSt t
  | _ :: t => testsSt t

theorem testsSt_items (l : List Re) (t : Stack) : testsSt (items l t) = (testsAny l || testsSt t) := by
  induction l with
  | nil => simp [items, testsAny]
  | cons r l ih => simp only [items, List.map_cons, List.cons_append, testsSt, testsAny] at *; rw [ih, Bool.or_assoc]

/-- Every pattern of the stack is steady in its place. -/
def steadySt (ml : Bool) : Stack → Bool
  | [] => true
  | .re r :: t => r.steady ml (movesSt t) (testsSt t) && steadySt ml t
  | _ :: t => steadySt ml t

theorem steadySt_items {ml : Bool} (l : List Re) (t : Stack) :
    steadySt ml (items l t) = (steadyAll ml (movesSt t) (testsSt t) l && steadySt ml t) := by
  induction l with
  | nil => simp [items, steadyAll]
  | cons r l ih =>
    have h1 := movesSt_items l t
    have h2 := testsSt_items l t
    simp only [items, List.map_cons, List.cons_append, steadySt, steadyAll] at *
    rw [ih, h1, h2, Bool.and_assoc]

theorem steadySt_body {ml : Bool} {k : RepKind} {a b : Nat} {m : List Re} {t : Stack}
    (h : steadySt ml (.re (.rep k a b m) :: t) = true) :
    movesAny m = true ∧ steadySt ml (items m [.endCycle]) = true ∧ steadySt ml t = true := by
  simp only [steadySt, Re.steady, Bool.and_eq_true] at h
  refine ⟨h.1.1.1, ?_, h.2⟩
  rw [steadySt_items]
  simpa [movesSt, testsSt, steadySt] using h.1.2

theorem steadySt_sel {ml : Bool} {r : Re} {l : List Re} {t : Stack} (h : steadySt ml (.re (.sel (r :: l)) :: t) = true) :
    steadySt ml (.re r :: t) = true ∧ steadySt ml (.re (.sel l) :: t) = true := by
  simp only [steadySt, Re.steady, steadyEach, Bool.and_eq_true] at h ⊢
  exact ⟨⟨h.1.1, h.2⟩, h.1.2, h.2⟩

theorem steadySt_seq {ml : Bool} {r : Re} {l : List Re} {t : Stack} (h : steadySt ml (.re (.seq (r :: l)) :: t) = true) :
    steadySt ml (.re r :: .re (.seq l) :: t) = true := by
  simp only [steadySt, Re.steady, steadyAll, movesSt, testsSt, Re.moves, Re.tests, Bool.and_eq_true] at h ⊢
  exact ⟨h.1.1, h.1.2, h.2⟩

theorem steadySt_one {ml : Bool} {r : Re} {t : Stack} (h : steadySt ml (.re (.seq [r]) :: t) = true) :
    steadySt ml (.re r :: t) = true := by
  simp only [steadySt, Re.steady, steadyAll, movesAny, testsAny, Bool.false_or, Bool.and_eq_true, and_true] at h ⊢
  exact h

theorem steadySt_cap {ml : Bool} {id : Nat} {nm : Option (List Nat)} {l : List Re} {t : Stack}
    (h : steadySt ml (.re (.cap id nm l) :: t) = true) : steadySt ml (.re (.seq l) :: .numMark id :: t) = true := by
  simpa only [steadySt, Re.steady, movesSt, testsSt] using h

theorem steadySt_atomic {ml : Bool} {l : List Re} {t : Stack}
    (h : steadySt ml (.re (.atomic l) :: t) = true) : steadySt ml (.re (.rep .poss 1 1 l) :: t) = true := by
  simpa [steadySt, Re.steady] using h

theorem steadySt_greedy {ml : Bool} {a b : Nat} {m : List Re} {t : Stack}
    (h : steadySt ml (.re (.rep .greedy a b m) :: t) = true) : movesSt t = true ∨ testsSt t = false := by
  simp only [steadySt, Re.steady, Bool.and_eq_true] at h
  have := h.1.1.2
  cases h1 : movesSt t <;> simp_all

/-! ### How loops begin -/

section loops
variable {body tail : Nat → Caps → Out}

theorem greedyRec_start {b m i p : Nat} {c x : Caps} (h : greedyRec body tail b m i p c = .ok x) :
    (∃ q d, step body p c = .go q d) ∨ tail p c = .ok x := by
  cases m with
  | zero => simp [greedyRec] at h
  | succ m =>
    unfold greedyRec at h
    split at h
    · split at h
      · exact .inr h
      · rename_i o h1 h2
        subst h
        exact absurd h2 step_ne_ok
      · rename_i q d h1
        exact .inl ⟨q, d, h1⟩
    · exact .inr h

theorem lazyLoop_start {b m i p : Nat} {c x : Caps} (h : lazyLoop body tail b m i p c = .ok x) :
    (∃ q d, step body p c = .go q d) ∨ tail p c = .ok x := by
  cases m with
  | zero => simp [lazyLoop] at h
  | succ m =>
    unfold lazyLoop at h
    split at h
    · split at h
      · rename_i o h2
        subst h
        exact absurd h2 step_ne_ok
      · rename_i q d h1
        exact .inl ⟨q, d, h1⟩
    · exact .inr h

theorem mandLoop_start {a p p' : Nat} {c c' : Caps} (h : mandLoop body a p c = .go p' c') :
    (∃ q d, step body p c = .go q d) ∨ (a = 0 ∧ p' = p ∧ c' = c) := by
  cases a with
  | zero => simp only [mandLoop, Loop.go.injEq] at h; exact .inr ⟨rfl, h.1.symm, h.2.symm⟩
  | succ a =>
    unfold mandLoop at h
    split at h
    · simp at h
    · rename_i q d h1
      exact .inl ⟨q, d, h1⟩

theorem possLoop_start {a b m p p' : Nat} {c c' : Caps} (h : possLoop body a b m 0 p c = .go p' c') :
    (∃ q d, step body p c = .go q d) ∨ (a = 0 ∧ p' = p ∧ c' = c) := by
  cases m with
  | zero => simp [possLoop] at h
  | succ m =>
    unfold possLoop at h
    have hl : lessInf b 0 = true := by unfold lessInf; split <;> simp; omega
    rw [if_pos hl] at h
    split at h
    · split at h
      · simp at h
      · rename_i h1 h2
        simp only [Loop.go.injEq] at h
        refine .inr ⟨?_, h.1.symm, h.2.symm⟩
        cases a with
        | zero => rfl
        | succ a => simp [lessThan] at h2
    · simp at h
    · rename_i q d h1
      exact .inl ⟨q, d, h1⟩

end loops

theorem step_go_ok {body : Nat → Caps → Out} {p q : Nat} {c d : Caps} (h : step body p c = .go q d) :
    ∃ x, body p c = .ok x := by
  unfold step at h
  split at h
  · rename_i x hx; exact ⟨x, hx⟩
  · simp at h

/-- A successful repetition begins with an iteration or, with minimum 0, with what follows. -/
theorem rep_start {C : Cfg} (hC : C.greedyOpt = false) {n : Nat} {s : List Ch} {lb : Bool} {cur : Nat} {f : Flags} {c : Caps}
    {k : RepKind} {a b : Nat} {m : List Re} {t : Stack} {x : Caps}
    (h : eval C (n+1) s lb cur f c (.re (.rep k a b m) :: t) = .ok x) :
    (∃ y, eval C n s lb cur f.notEmpty c (items m [.endCycle]) = .ok y) ∨
      (a = 0 ∧ ∃ z, eval C n s lb cur (f.consumed z) c t = .ok x) := by
  cases k with
  | greedy =>
    simp only [eval_greedy, hC, greedyRecRef_eq, ite_self] at h
    split at h
    · simp at h
    · split at h
      · simp at h
      · simp only [Bool.false_eq_true, if_false] at h
        split at h
        · rename_i o ho
          subst h
          exact absurd rfl (mandLoop_stop_P (Q := fun _ => False) _ ho x)
        · rename_i p' c' hm
          rcases mandLoop_start hm with ⟨q, d, h1⟩ | ⟨h0, rfl, rfl⟩
          · exact .inl (step_go_ok h1)
          · rcases greedyRec_start h with ⟨q, d, h1⟩ | h1
            · exact .inl (step_go_ok h1)
            · exact .inr ⟨h0, true, h1⟩
  | lazy =>
    simp only [eval_lazy] at h
    split at h
    · simp at h
    · split at h
      · simp at h
      · split at h
        · rename_i o ho
          subst h
          exact absurd rfl (mandLoop_stop_P (Q := fun _ => False) _ ho x)
        · rename_i p' c' hm
          rcases mandLoop_start hm with ⟨q, d, h1⟩ | ⟨h0, rfl, rfl⟩
          · exact .inl (step_go_ok h1)
          · rcases Out.orElse_eq_ok.1 h with h | ⟨_, h⟩
            · exact .inr ⟨h0, _, h⟩
            · rcases lazyLoop_start h with ⟨q, d, h1⟩ | h1
              · exact .inl (step_go_ok h1)
              · exact .inr ⟨h0, true, h1⟩
  | poss =>
    simp only [eval_poss] at h
    split at h
    · simp at h
    · split at h
      · simp at h
      · split at h
        · rename_i o ho
          subst h
          exact absurd rfl (possLoop_stop_P (Q := fun _ => False) ho x)
        · rename_i p' c' hm
          rcases possLoop_start hm with ⟨q, d, h1⟩ | ⟨h0, rfl, rfl⟩
          · exact .inl (step_go_ok h1)
          · exact .inr ⟨h0, _, h⟩

end Ctre
