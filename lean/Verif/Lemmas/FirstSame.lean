import Verif.Lemmas.WaysFirm

/-
Lists of ways that cannot be told apart by looking for the first way with some property, and joined repetitions.
-/
namespace Ctre

/-- The first way with any given property is the same in both lists. -/
def FirstSame {α : Type} (L M : List α) : Prop := ∀ p : α → Bool, L.find? p = M.find? p

section
variable {α β : Type} {L M N L' M' : List α}

theorem FirstSame.refl (L : List α) : FirstSame L L := fun _ => rfl
theorem FirstSame.of_eq (h : L = M) : FirstSame L M := h ▸ .refl _
theorem FirstSame.symm (h : FirstSame L M) : FirstSame M L := fun p => (h p).symm
theorem FirstSame.trans (h : FirstSame L M) (h' : FirstSame M N) : FirstSame L N := fun p => (h p).trans (h' p)

theorem FirstSame.append (h : FirstSame L M) (h' : FirstSame L' M') : FirstSame (L ++ L') (M ++ M') := by
  intro p
  rw [List.find?_append, List.find?_append, h p, h' p]

theorem FirstSame.map (h : FirstSame L M) (f : α → β) : FirstSame (L.map f) (M.map f) := by
  intro p
  rw [List.find?_map, List.find?_map, h]

theorem FirstSame.filter (h : FirstSame L M) (q : α → Bool) : FirstSame (L.filter q) (M.filter q) := by
  intro p
  rw [List.find?_filter, List.find?_filter, h]

theorem FirstSame.head (h : FirstSame L M) : L.head? = M.head? := by
  have hh : ∀ L : List α, L.find? (fun _ => true) = L.head? := by intro L; cases L <;> simp
  rw [← hh, ← hh]; exact h _

theorem FirstSame.take_one (h : FirstSame L M) : L.take 1 = M.take 1 := by
  have := h.head
  cases L <;> cases M <;> simp_all

theorem FirstSame.mem (h : FirstSame L M) {x : α} : x ∈ L ↔ x ∈ M := by
  classical
  have key : ∀ {L M : List α}, FirstSame L M → x ∈ L → x ∈ M := by
    intro L M h hx
    have h1 : (L.find? (fun y => Decidable.decide (y = x))).isSome := by
      rw [List.find?_isSome]; exact ⟨x, hx, by simp⟩
    rw [h, List.find?_isSome] at h1
    obtain ⟨y, hy, e⟩ := h1
    simp only [decide_eq_true_eq] at e
    exact e ▸ hy
  exact ⟨key h, key h.symm⟩

theorem find?_flatMap' {f : α → List β} {p : β → Bool} : ∀ L : List α,
    (L.flatMap f).find? p = (L.find? fun x => ((f x).find? p).isSome).bind fun x => (f x).find? p
  | [] => rfl
  | x :: L => by
    simp only [List.flatMap_cons, List.find?_append, find?_flatMap' L, List.find?_cons]
    cases h : (f x).find? p <;> simp [h]

theorem FirstSame.flatMap {f g : α → List β} (h : FirstSame L M) (hf : ∀ x ∈ L, FirstSame (f x) (g x)) :
    FirstSame (L.flatMap f) (M.flatMap g) := by
  have h1 : FirstSame (L.flatMap f) (M.flatMap f) := by
    intro p
    rw [find?_flatMap', find?_flatMap', h]
  refine h1.trans ?_
  have hf : ∀ x ∈ M, FirstSame (f x) (g x) := fun x hx => hf x (h.mem.2 hx)
  clear h h1
  induction M with
  | nil => exact .refl _
  | cons x M ih =>
    simp only [List.flatMap_cons]
    exact (hf x (by simp)).append (ih fun y hy => hf y (List.mem_cons_of_mem _ hy))

/-- What has been seen before does not matter. -/
theorem FirstSame.drop_seen (h : ∀ x ∈ M, x ∈ L) (N : List α) : FirstSame (L ++ (M ++ N)) (L ++ N) := by
  intro p
  rw [List.find?_append, List.find?_append, List.find?_append]
  cases hL : L.find? p with
  | some x => rfl
  | none =>
    have : M.find? p = none := by
      rw [List.find?_eq_none] at hL ⊢
      exact fun x hx => hL x (h x hx)
    simp [this]
end

/-! ### Loops of an iteration with at most one way -/

section loops
variable {α : Type} {it : α → List α}

theorem times_add (a c : Nat) : ∀ x, times it (a + c) x = (times it a x).flatMap (times it c) := by
  induction a with
  | zero => intro x; simp [times]
  | succ a ih =>
    intro x
    rw [show a + 1 + c = a + c + 1 by omega]
    simp only [times, List.flatMap_assoc]
    exact flatMap_same fun y _ => ih y

theorem times_comm (c : Nat) (x : α) : (times it c x).flatMap it = (it x).flatMap (times it c) := by
  have h1 := times_add (it := it) c 1 x
  have h2 := times_add (it := it) 1 c x
  have ht : times it 1 = it := by funext x; simp [times]
  rw [ht] at h1 h2
  rw [← h1, ← h2, Nat.add_comm]

variable {I : α → Prop}

theorem most_times (h1 : ∀ x, I x → (it x).length ≤ 1) (hI : ∀ x y, I x → y ∈ it x → I y) (c m : Nat) : ∀ x, I x →
    (most it m x).flatMap (times it c) = (times it c x).flatMap (most it m) := by
  induction m with
  | zero =>
    intro x _
    have : most it 0 = fun x => [x] := by funext x; rfl
    simp [this]
  | succ m ih =>
    intro x hx
    have ht := length_times_le h1 hI c x hx
    have hc := times_comm (it := it) c x
    simp only [most, List.flatMap_append, List.flatMap_assoc, List.flatMap_cons, List.flatMap_nil, List.append_nil]
    rw [flatMap_same fun y hy => ih y (hI x y hx hy), ← List.flatMap_assoc, ← hc]
    rcases hT : times it c x with _ | ⟨z, _ | ⟨w, T⟩⟩
    · simp
    · simp [most]
    · rw [hT] at ht; simp at ht

theorem fewest_times (h1 : ∀ x, I x → (it x).length ≤ 1) (hI : ∀ x y, I x → y ∈ it x → I y) (c m : Nat) : ∀ x, I x →
    (fewest it m x).flatMap (times it c) = (times it c x).flatMap (fewest it m) := by
  induction m with
  | zero =>
    intro x _
    have : fewest it 0 = fun x => [x] := by funext x; rfl
    simp [this]
  | succ m ih =>
    intro x hx
    have ht := length_times_le h1 hI c x hx
    have hc := times_comm (it := it) c x
    simp only [fewest, List.flatMap_assoc, List.flatMap_cons]
    rw [flatMap_same fun y hy => ih y (hI x y hx hy), ← List.flatMap_assoc, ← hc]
    rcases hT : times it c x with _ | ⟨z, _ | ⟨w, T⟩⟩
    · simp
    · simp [fewest]
    · rw [hT] at ht; simp at ht

theorem most_mono {n m : Nat} (h : n ≤ m) {x y : α} (hy : y ∈ most it n x) : y ∈ most it m x := by
  obtain ⟨k, hk, hi⟩ := mem_most.1 hy
  exact mem_most.2 ⟨k, by omega, hi⟩

theorem most_most (m n : Nat) : ∀ x, FirstSame ((most it m x).flatMap (most it n)) (most it (m + n) x) := by
  induction m with
  | zero => intro x; simp [most, FirstSame.refl]
  | succ m ih =>
    intro x
    rw [show m + 1 + n = m + n + 1 by omega]
    simp only [most, List.flatMap_append, List.flatMap_assoc, List.flatMap_cons, List.flatMap_nil, List.append_nil]
    refine FirstSame.trans (M := (it x).flatMap (most it (m + n)) ++ most it n x) ?_ ?_
    · exact ((FirstSame.refl _).flatMap fun y _ => ih y).append (.refl _)
    · cases n with
      | zero => exact .refl _
      | succ n =>
        rw [show most it (n + 1) x = (it x).flatMap (most it n) ++ [x] from rfl]
        refine FirstSame.drop_seen ?_ _
        intro y hy
        obtain ⟨z, hz, hy⟩ := List.mem_flatMap.1 hy
        exact List.mem_flatMap.2 ⟨z, hz, most_mono (by omega) hy⟩

theorem fewest_fewest (h1 : ∀ x, I x → (it x).length ≤ 1) (hI : ∀ x y, I x → y ∈ it x → I y) (m n : Nat) : ∀ x, I x →
    FirstSame ((fewest it m x).flatMap (fewest it n)) (fewest it (m + n) x) := by
  -- a lazy repetition with a smaller bound is a prefix of one with a larger bound
  have pre : ∀ n m x, I x → n ≤ m → ∃ T, fewest it m x = fewest it n x ++ T := by
    intro n
    induction n with
    | zero => intro m x _ _; cases m <;> simp [fewest]
    | succ n ih =>
      intro m x hx hm
      obtain ⟨m, rfl⟩ : ∃ k, m = k + 1 := ⟨m - 1, by omega⟩
      simp only [fewest]
      have hl := h1 x hx
      rcases hT : it x with _ | ⟨z, _ | ⟨w, T⟩⟩
      · exact ⟨[], by simp⟩
      · obtain ⟨T, hT'⟩ := ih m z (hI x z hx (by rw [hT]; simp)) (by omega)
        exact ⟨T, by simp [hT']⟩
      · rw [hT] at hl; simp at hl
  induction m with
  | zero => intro x _; simp [fewest, FirstSame.refl]
  | succ m ih =>
    intro x hx
    rw [show m + 1 + n = m + n + 1 by omega]
    simp only [fewest, List.flatMap_assoc, List.flatMap_cons]
    have hl := h1 x hx
    rcases hT : it x with _ | ⟨z, _ | ⟨w, T⟩⟩
    · cases n <;> simp [fewest, hT, FirstSame.refl]
    · have hz := hI x z hx (by rw [hT]; simp)
      simp only [List.flatMap_cons, List.flatMap_nil, List.append_nil]
      refine FirstSame.trans (M := fewest it n x ++ fewest it (m + n) z) ((FirstSame.refl _).append (ih z hz)) ?_
      cases n with
      | zero => exact .refl _
      | succ n =>
        rw [show fewest it (n + 1) x = x :: (it x).flatMap (fewest it n) from rfl]
        simp only [hT, List.flatMap_cons, List.flatMap_nil, List.append_nil, List.cons_append]
        obtain ⟨T, hT'⟩ := pre n (m + (n + 1)) z hz (by omega)
        rw [hT']
        have := FirstSame.drop_seen (L := x :: fewest it n z) (M := fewest it n z) (fun y hy => List.mem_cons_of_mem _ hy) T
        simpa using this
    · rw [hT] at hl; simp at hl

/-- With room for all iterations, more room does not matter. -/
theorem most_room {μ : α → Nat} (hI : ∀ x y, I x → y ∈ it x → I y ∧ μ y < μ x) (n : Nat) : ∀ m x, I x → μ x ≤ n → μ x ≤ m →
    most it m x = most it n x := by
  induction n with
  | zero =>
    intro m x hx h0 _
    have : it x = [] := List.eq_nil_iff_forall_not_mem.2 fun y hy => by have := (hI x y hx hy).2; omega
    cases m <;> simp [most, this]
  | succ n ih =>
    intro m x hx hn hm
    cases m with
    | zero =>
      have : it x = [] := List.eq_nil_iff_forall_not_mem.2 fun y hy => by have := (hI x y hx hy).2; omega
      simp [most, this]
    | succ m =>
      simp only [most]
      rw [flatMap_same fun y hy => ih m y (hI x y hx hy).1 (by have := (hI x y hx hy).2; omega) (by have := (hI x y hx hy).2; omega)]

theorem fewest_room {μ : α → Nat} (hI : ∀ x y, I x → y ∈ it x → I y ∧ μ y < μ x) (n : Nat) : ∀ m x, I x → μ x ≤ n → μ x ≤ m →
    fewest it m x = fewest it n x := by
  induction n with
  | zero =>
    intro m x hx h0 _
    have : it x = [] := List.eq_nil_iff_forall_not_mem.2 fun y hy => by have := (hI x y hx hy).2; omega
    cases m <;> simp [fewest, this]
  | succ n ih =>
    intro m x hx hn hm
    cases m with
    | zero =>
      have : it x = [] := List.eq_nil_iff_forall_not_mem.2 fun y hy => by have := (hI x y hx hy).2; omega
      simp [fewest, this]
    | succ m =>
      simp only [fewest]
      rw [flatMap_same fun y hy => ih m y (hI x y hx hy).1 (by have := (hI x y hx hy).2; omega) (by have := (hI x y hx hy).2; omega)]

/-- Two repetitions of the same content, one after the other, are one repetition. -/
theorem repeats_join {μ : α → Nat} (h1 : ∀ x, I x → (it x).length ≤ 1) (hI : ∀ x y, I x → y ∈ it x → I y ∧ μ y < μ x) {room : Nat}
    (hr : ∀ x, I x → μ x ≤ room) {k : RepKind} (hk : k ≠ .poss) {a b c d : Nat} (hb : b = 0 ∨ a ≤ b) (hd : d = 0 ∨ c ≤ d) (x : α)
    (hx : I x) :
    FirstSame ((repeats it k a b room x).flatMap (repeats it k c d room))
      (repeats it k (a + c) (if b ≠ 0 ∧ d ≠ 0 then b + d else 0) room x) := by
  have hI' : ∀ x y, I x → y ∈ it x → I y := fun x y hx hy => (hI x y hx hy).1
  have e1 : ¬ (b ≠ 0 ∧ b < a) := by omega
  have e2 : ¬ (d ≠ 0 ∧ d < c) := by omega
  have e3 : ¬ ((if b ≠ 0 ∧ d ≠ 0 then b + d else 0) ≠ 0 ∧ (if b ≠ 0 ∧ d ≠ 0 then b + d else 0) < a + c) := by
    split <;> omega
  have hsum : ∀ y, I y → (most it (if (if b ≠ 0 ∧ d ≠ 0 then b + d else 0) = 0 then room else (if b ≠ 0 ∧ d ≠ 0 then b + d else 0) - (a + c)) y =
      most it ((if b = 0 then room else b - a) + (if d = 0 then room else d - c)) y) ∧
      (fewest it (if (if b ≠ 0 ∧ d ≠ 0 then b + d else 0) = 0 then room else (if b ≠ 0 ∧ d ≠ 0 then b + d else 0) - (a + c)) y =
      fewest it ((if b = 0 then room else b - a) + (if d = 0 then room else d - c)) y) := by
    intro y hy
    have := hr y hy
    by_cases hb0 : b = 0
    · have e : (if b ≠ 0 ∧ d ≠ 0 then b + d else 0) = 0 := if_neg (by omega)
      rw [e, if_pos rfl, if_pos hb0]
      exact ⟨most_room hI _ _ y hy (by omega) this, fewest_room hI _ _ y hy (by omega) this⟩
    · by_cases hd0 : d = 0
      · have e : (if b ≠ 0 ∧ d ≠ 0 then b + d else 0) = 0 := if_neg (by omega)
        rw [e, if_pos rfl, if_neg hb0, if_pos hd0]
        exact ⟨most_room hI _ _ y hy (by omega) this, fewest_room hI _ _ y hy (by omega) this⟩
      · have e : (if b ≠ 0 ∧ d ≠ 0 then b + d else 0) = b + d := if_pos ⟨hb0, hd0⟩
        rw [e, if_neg (by omega), if_neg hb0, if_neg hd0, show b + d - (a + c) = b - a + (d - c) by omega]
        exact ⟨rfl, rfl⟩
  have hflat : ∀ (F G : α → List α), (∀ y, I y → FirstSame (F y) (G y)) →
      FirstSame ((times it (a + c) x).flatMap F) ((times it (a + c) x).flatMap G) := by
    intro F G h
    exact (FirstSame.refl _).flatMap fun y hy => h y (times_keep hI' hx hy)
  cases k with
  | poss => exact (hk rfl).elim
  | greedy =>
    have hrep : repeats it .greedy c d room = fun y => (times it c y).flatMap (most it (if d = 0 then room else d - c)) := by
      funext y; simp only [repeats, if_neg e2]
    simp only [hrep]
    simp only [repeats, if_neg e1, if_neg e3]
    generalize hM : (if b = 0 then room else b - a) = M at hsum ⊢
    generalize hN : (if d = 0 then room else d - c) = N at hsum ⊢
    have : ((times it a x).flatMap (most it M)).flatMap (fun y => (times it c y).flatMap (most it N)) =
        (times it (a + c) x).flatMap fun y => (most it M y).flatMap (most it N) := by
      rw [times_add]
      simp only [List.flatMap_assoc]
      refine flatMap_same fun y hy => ?_
      rw [← List.flatMap_assoc, most_times h1 hI' c M y (times_keep hI' hx hy), List.flatMap_assoc]
    rw [this]
    refine hflat _ _ fun y hy => ?_
    rw [(hsum y hy).1]
    exact most_most M N y
  | lazy =>
    have hrep : repeats it .lazy c d room = fun y => (times it c y).flatMap (fewest it (if d = 0 then room else d - c)) := by
      funext y; simp only [repeats, if_neg e2]
    simp only [hrep]
    simp only [repeats, if_neg e1, if_neg e3]
    generalize hM : (if b = 0 then room else b - a) = M at hsum ⊢
    generalize hN : (if d = 0 then room else d - c) = N at hsum ⊢
    have : ((times it a x).flatMap (fewest it M)).flatMap (fun y => (times it c y).flatMap (fewest it N)) =
        (times it (a + c) x).flatMap fun y => (fewest it M y).flatMap (fewest it N) := by
      rw [times_add]
      simp only [List.flatMap_assoc]
      refine flatMap_same fun y hy => ?_
      rw [← List.flatMap_assoc, fewest_times h1 hI' c M y (times_keep hI' hx hy), List.flatMap_assoc]
    rw [this]
    refine hflat _ _ fun y hy => ?_
    rw [(hsum y hy).2]
    exact fewest_fewest h1 hI' M N y hy
end loops
end Ctre
