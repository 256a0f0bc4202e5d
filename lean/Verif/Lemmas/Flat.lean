import Verif.Lemmas.Swap
import Verif.Spec.Flat
import Verif.Spec.Runs

/-
The outcome of an evaluation does not depend on the bracketing of concatenations.
-/
namespace Ctre

theorem Re.flat_ne_nil : ∀ r : Re, r.flat ≠ [] := by
  intro r
  refine Re.rec (motive_1 := fun r => r.flat ≠ []) (motive_2 := fun l => l ≠ [] → flatList l ≠ [])
    ?_ ?_ ?_ ?_ ?_ ?_ ?_ ?_ ?_ ?_ ?_ ?_ ?_ ?_ ?_ ?_ ?_ ?_ ?_ ?_ ?_ ?_ ?_ ?_ r
  all_goals intros
  all_goals simp_all [Re.flat, flatList]
  all_goals split <;> simp_all

theorem flatList_eq_nil {l : List Re} : flatList l = [] ↔ l = [] := by
  cases l with
  | nil => simp [flatList]
  | cons r l => simp [flatList, Re.flat_ne_nil]

theorem flatList_append (l l' : List Re) : flatList (l ++ l') = flatList l ++ flatList l' := by
  induction l with
  | nil => rfl
  | cons r l ih => simp [flatList, ih]

theorem Re.flat_seq_cons (r : Re) (l : List Re) : (Re.seq (r :: l)).flat = r.flat ++ flatList l := by
  simp [Re.flat, flatList]

def Item.flat : Item → Stack
  | .re r => r.flat.map .re
  | x => [x]

def flatStack : Stack → Stack
  | [] => []
  | x :: t => x.flat ++ flatStack t

theorem Item.flat_ne_nil (x : Item) : x.flat ≠ [] := by
  cases x <;> simp [Item.flat, Re.flat_ne_nil]

theorem flatStack_eq_nil {st : Stack} : flatStack st = [] ↔ st = [] := by
  cases st with
  | nil => simp [flatStack]
  | cons r l => simp [flatStack, Item.flat_ne_nil]

theorem flatStack_append (l l' : Stack) : flatStack (l ++ l') = flatStack l ++ flatStack l' := by
  induction l with
  | nil => rfl
  | cons r l ih => simp [flatStack, ih]

theorem flatStack_items (l : List Re) (t : Stack) : flatStack (items l t) = (flatList l).map .re ++ flatStack t := by
  unfold items
  rw [flatStack_append]
  congr 1
  induction l with
  | nil => rfl
  | cons r l ih => simp [flatStack, flatList, Item.flat, ih]

theorem flatStack_items_congr {l l' : List Re} {t t' : Stack} (h : flatList l = flatList l')
    (ht : flatStack t = flatStack t') : flatStack (items l t) = flatStack (items l' t') := by
  rw [flatStack_items, flatStack_items, h, ht]

theorem flatStack_seq_congr {l l' : List Re} {t t' : Stack} (h : flatList l = flatList l')
    (ht : flatStack t = flatStack t') : flatStack (.re (.seq l) :: t) = flatStack (.re (.seq l') :: t') := by
  simp only [flatStack, Item.flat, Re.flat, ht]
  rcases l with _ | ⟨r, l⟩
  · rw [flatList] at h
    rw [flatList_eq_nil.1 h.symm]
  · rcases l' with _ | ⟨r', l'⟩
    · rw [show flatList [] = [] from rfl, flatList_eq_nil] at h; simp at h
    · simp [h]

/-! First lists -/

theorem firstSeq_append (k : List FC → Option (List FC)) : ∀ (m m' : List Re) l,
    firstSeq k l (m ++ m') = firstSeq (fun l' => firstSeq k l' m') l m := by
  intro m m'
  induction m with
  | nil => intro l; simp [firstSeq]
  | cons r m ih => intro l; simp [firstSeq, ih]

theorem firstRe_flat (r : Re) : ∀ k l, firstSeq k l r.flat = firstRe k l r := by
  induction r using Re.rec (motive_2 := fun m => (∀ k l, firstSeq k l (flatList m) = firstSeq k l m) ∧
      (∀ k l, firstSel k l (flatAlts m) = firstSel k l m)) with
  | seq m ih =>
    intro k l
    cases m with
    | nil => simp [Re.flat, firstSeq, firstRe]
    | cons r m => simp only [Re.flat, List.isEmpty_cons, Bool.false_eq_true, if_false, ih.1, firstRe]
  | cons r m ih1 ih2 =>
    refine ⟨?_, ?_⟩
    · intro k l; simp only [flatList, firstSeq_append, firstSeq, ih1, ih2.1]
    · intro k l; simp only [flatAlts, firstSel, firstRe, ih1, ih2.2]
  | nil => simp [flatList, flatAlts]
  | str s => intro k l; cases s <;> simp [Re.flat, firstSeq, firstRe]
  | _ =>
    intros
    simp_all only [Re.flat, firstSeq, firstRe]

theorem first_items_nil (m : List Re) (t : Stack) : first (items m t) = fun l => firstSeq (first t) l m := by
  induction m with
  | nil => funext l; simp [items, firstSeq]
  | cons r m ih =>
    funext l
    have : items (r :: m) t = .re r :: items m t := rfl
    rw [this, first, ih, firstSeq]

theorem first_flat : ∀ st, first (flatStack st) = first st
  | [] => rfl
  | .re r :: t => by
    have ih := first_flat t
    funext l
    have : flatStack (.re r :: t) = items r.flat (flatStack t) := rfl
    rw [this, first_items_nil, ih, first]; exact firstRe_flat ..
  | .accept :: t | .endMark :: t | .endCycle :: t | .endAhead :: t | .startMark :: t | .endBehind :: t => by
    funext l; simp [flatStack, Item.flat, first]
  | .numMark _ :: t => by
    have ih := first_flat t
    funext l; simp [flatStack, Item.flat, first, ih]

theorem loopCollides_flat {m m' : List Re} {t t' : Stack} (hm : flatList m = flatList m')
    (ht : flatStack t = flatStack t') : loopCollides m t = loopCollides m' t' := by
  have h1 : first t = first t' := by rw [← first_flat t, ht, first_flat]
  have h2 : first (items m []) = first (items m' []) := by
    rw [← first_flat (items m []), flatStack_items, hm, ← flatStack_items, first_flat]
  unfold loopCollides
  rw [h1, h2]

/-! Sizes -/

mutual
def Re.sz : Re → Nat
  | .sel l | .seq l | .rep _ _ _ l | .cap _ _ l | .ahead _ l | .behind _ l | .atomic l => 1 + szList l
  | _ => 1
def szList : List Re → Nat
  | [] => 0
  | r :: l => r.sz + szList l
end

theorem Re.sz_pos (r : Re) : 1 ≤ r.sz := by
  cases r <;> simp only [Re.sz] <;> omega

theorem sz_mem {r : Re} {l : List Re} (h : r ∈ l) : r.sz ≤ szList l := by
  induction l with
  | nil => simp at h
  | cons x l ih =>
    simp only [szList]
    rcases List.mem_cons.1 h with rfl | h
    · omega
    · have := ih h; omega

/-- All patterns on the stack have size at most `S`. -/
def Small (S : Nat) (st : Stack) : Prop := ∀ r, Item.re r ∈ st → r.sz ≤ S

theorem small_nil (S : Nat) : Small S [] := fun _ h => by simp at h

theorem small_cons {S : Nat} {x : Item} {t : Stack} :
    Small S (x :: t) ↔ (∀ r, x = .re r → r.sz ≤ S) ∧ Small S t := by
  unfold Small
  constructor
  · intro h
    exact ⟨fun r hr => h r (by simp [hr]), fun r hr => h r (by simp [hr])⟩
  · intro h r hr
    rcases List.mem_cons.1 hr with hr | hr
    · exact h.1 r hr.symm
    · exact h.2 r hr

theorem small_re {S : Nat} {r : Re} {t : Stack} : Small S (.re r :: t) ↔ r.sz ≤ S ∧ Small S t := by
  rw [small_cons]; simp

theorem small_items {S : Nat} {l : List Re} {t : Stack} (h : szList l ≤ S) (ht : Small S t) : Small S (items l t) := by
  intro r hr
  simp only [items, List.mem_append, List.mem_map, Item.re.injEq, exists_eq_right] at hr
  rcases hr with hr | hr
  · have := sz_mem hr; omega
  · exact ht r hr

/-- The top of the stack is not a non-empty concatenation. -/
def Hard : Stack → Prop
  | .re (.seq (_ :: _)) :: _ => False
  | _ => True

/-- Unpacking concatenations on the top of the stack. -/
theorem peel (C : Cfg) {S : Nat} : ∀ (k : Nat) (st : Stack), Small S st → (∀ r t, st = .re r :: t → r.sz ≤ k) →
    ∃ st' j, j ≤ k ∧ Hard st' ∧ flatStack st' = flatStack st ∧ Small S st' ∧
      ∀ N s lb cur f c, eval C (N + j) s lb cur f c st = eval C N s lb cur f c st' := by
  intro k
  induction k with
  | zero =>
    intro st hS hk
    refine ⟨st, 0, Nat.le_refl _, ?_, rfl, hS, fun _ _ _ _ _ _ => rfl⟩
    unfold Hard
    split
    · rename_i r l t
      have := hk _ _ rfl
      simp only [Re.sz] at this
      omega
    · trivial
  | succ k ih =>
    intro st hS hk
    by_cases hh : ∃ r l t, st = .re (.seq (r :: l)) :: t
    · obtain ⟨r, l, t, rfl⟩ := hh
      have hz := hk _ _ rfl
      rw [small_re] at hS
      simp only [Re.sz, szList] at hz hS
      cases l with
      | nil =>
        obtain ⟨st', j, hj, h1, h2, h3, h4⟩ := ih (.re r :: t) (by rw [small_re]; exact ⟨by omega, hS.2⟩)
          (by rintro r' t' h; simp only [List.cons.injEq, Item.re.injEq] at h; rw [← h.1]; omega)
        refine ⟨st', j + 1, by omega, h1, ?_, h3, ?_⟩
        · rw [h2]; simp [flatStack, Item.flat, Re.flat, flatList]
        · intros; rw [← h4]; rfl
      | cons r' l =>
        simp only [szList] at hS hz
        obtain ⟨st', j, hj, h1, h2, h3, h4⟩ := ih (.re r :: .re (.seq (r' :: l)) :: t)
          (by rw [small_re, small_re]; simp only [Re.sz, szList]; exact ⟨by omega, by omega, hS.2⟩)
          (by rintro r' t' h; simp only [List.cons.injEq, Item.re.injEq] at h; rw [← h.1]; omega)
        refine ⟨st', j + 1, by omega, h1, ?_, h3, ?_⟩
        · rw [h2]; simp [flatStack, Item.flat, Re.flat, flatList]
        · intros; rw [← h4]; rfl
    · refine ⟨st, 0, by omega, ?_, rfl, hS, fun _ _ _ _ _ _ => rfl⟩
      unfold Hard
      split
      · exact hh ⟨_, _, _, rfl⟩
      · trivial

theorem flat_heads {r : Re} {t st : Stack} (h1 : Hard (.re r :: t)) (h2 : Hard st)
    (h : flatStack (.re r :: t) = flatStack st) :
    ∃ r' t', st = .re r' :: t' ∧ r.flat = r'.flat ∧ flatStack t = flatStack t' ∧
      (∃ x, r.flat = [x]) := by
  have one : ∀ r : Re, ∀ t : Stack, Hard (.re r :: t) → ∃ x, r.flat = [x] := by
    intro r t hr
    cases r with
    | seq l =>
      cases l with
      | nil => exact ⟨_, rfl⟩
      | cons => exact hr.elim
    | _ => exact ⟨_, rfl⟩
  obtain ⟨x, hx⟩ := one _ _ h1
  rcases st with _ | ⟨y, t'⟩
  · simp [flatStack, Item.flat, hx] at h
  · cases y with
    | re r' =>
      obtain ⟨x', hx'⟩ := one _ _ h2
      simp only [flatStack, Item.flat, hx, hx', List.map_cons, List.map_nil, List.singleton_append, List.cons.injEq,
        Item.re.injEq] at h
      exact ⟨r', t', rfl, by rw [hx, hx', h.1], h.2, x, hx⟩
    | _ => simp [flatStack, Item.flat, hx] at h

theorem flat_heads_mark {x : Item} {t st : Stack} (hx : ∀ r, x ≠ .re r) (h2 : Hard st)
    (h : flatStack (x :: t) = flatStack st) : ∃ t', st = x :: t' ∧ flatStack t = flatStack t' := by
  have hf : x.flat = [x] := by
    cases x with
    | re r => exact absurd rfl (hx r)
    | _ => rfl
  rcases st with _ | ⟨y, t'⟩
  · simp [flatStack, hf] at h
  · simp only [flatStack, hf] at h
    cases y with
    | re r' =>
      obtain ⟨a, l, ha⟩ : ∃ a l, r'.flat = a :: l := by
        cases hr : r'.flat with
        | nil => exact absurd hr (Re.flat_ne_nil r')
        | cons a l => exact ⟨a, l, rfl⟩
      simp only [Item.flat, ha, List.map_cons, List.cons_append, List.cons.injEq] at h
      exact absurd h.1 (hx a)
    | _ =>
      simp only [Item.flat, List.cons_append, List.cons.injEq, List.nil_append] at h
      exact ⟨t', by rw [h.1], h.2⟩

end Ctre
