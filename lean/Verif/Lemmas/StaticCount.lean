import Verif.Model.Static
import Verif.Spec.Static

/-
The number of instantiations.
-/
namespace Ctre

mutual
/-- The stacks whose first item comes from the pattern, with `t` after it. -/
def Re.sites (lb : Bool) (t : Stack) : Re → List (Bool × Stack)
  | .sel l => selSites lb t l
  | .seq l => seqSites lb t l
  | .rep k a b l => (lb, .re (.rep k a b l) :: t) :: (lb, .re (.rep .poss a b l) :: t) :: (lb, [.endCycle]) ::
      itemSites lb [.endCycle] l
  | .cap id n l => (lb, .re (.cap id n l) :: t) :: (lb, .numMark id :: t) :: seqSites lb (.numMark id :: t) l
  | .ahead p l => (lb, .re (.ahead p l) :: t) :: (lb, [.endAhead]) :: seqSites lb [.endAhead] l
  | .behind p l => (lb, .re (.behind p l) :: t) :: (true, [.endBehind]) :: seqSites true [.endBehind] l
  | .atomic l => (lb, .re (.atomic l) :: t) :: (lb, .re (.rep .poss 1 1 l) :: t) :: (lb, [.endCycle]) ::
      itemSites lb [.endCycle] l
  | r => [(lb, .re r :: t)]

def selSites (lb : Bool) (t : Stack) : List Re → List (Bool × Stack)
  | [] => [(lb, .re (.sel []) :: t)]
  | r :: l => (lb, .re (.sel (r :: l)) :: t) :: (r.sites lb t ++ selSites lb t l)

def seqSites (lb : Bool) (t : Stack) : List Re → List (Bool × Stack)
  | [] => [(lb, .re (.seq []) :: t)]
  | r :: l => (lb, .re (.seq (r :: l)) :: t) ::
      (r.sites lb (if l.isEmpty then t else .re (.seq l) :: t) ++ seqSites lb t l)

def itemSites (lb : Bool) (t : Stack) : List Re → List (Bool × Stack)
  | [] => []
  | r :: l => r.sites lb (items l t) ++ itemSites lb t l
end

mutual
theorem Re.sites_length (lb : Bool) (t : Stack) : ∀ r : Re, (r.sites lb t).length + 1 ≤ 4 * r.nodes
  | .sel l => by have := selSites_length lb t l; simp only [Re.sites, Re.nodes]; omega
  | .seq l => by have := seqSites_length lb t l; simp only [Re.sites, Re.nodes]; omega
  | .rep k a b l => by have := itemSites_length lb [.endCycle] l; simp only [Re.sites, Re.nodes, List.length_cons]; omega
  | .cap id n l => by
    have := seqSites_length lb (.numMark id :: t) l; simp only [Re.sites, Re.nodes, List.length_cons]; omega
  | .ahead p l => by have := seqSites_length lb [.endAhead] l; simp only [Re.sites, Re.nodes, List.length_cons]; omega
  | .behind p l => by have := seqSites_length true [.endBehind] l; simp only [Re.sites, Re.nodes, List.length_cons]; omega
  | .atomic l => by have := itemSites_length lb [.endCycle] l; simp only [Re.sites, Re.nodes, List.length_cons]; omega
  | .cc _ | .any | .str _ | .empty | .bref _ | .brefName _ | .boundary _ | .notBoundary _ | .sBegin | .sEnd | .sEndLine | .lBegin
  | .lEnd | .mode _ | .reject _ => by simp [Re.sites, Re.nodes]

theorem selSites_length (lb : Bool) (t : Stack) : ∀ l : List Re, (selSites lb t l).length ≤ 4 * nodesAll l + 1
  | [] => by simp [selSites]
  | r :: l => by
    have h1 := r.sites_length lb t
    have h2 := selSites_length lb t l
    simp only [selSites, nodesAll, List.length_cons, List.length_append]
    omega

theorem seqSites_length (lb : Bool) (t : Stack) : ∀ l : List Re, (seqSites lb t l).length ≤ 4 * nodesAll l + 1
  | [] => by simp [seqSites]
  | r :: l => by
    have h1 := r.sites_length lb (if l.isEmpty then t else .re (.seq l) :: t)
    have h2 := seqSites_length lb t l
    simp only [seqSites, nodesAll, List.length_cons, List.length_append]
    omega

theorem itemSites_length (lb : Bool) (t : Stack) : ∀ l : List Re, (itemSites lb t l).length ≤ 4 * nodesAll l
  | [] => by simp [itemSites]
  | r :: l => by
    have h1 := r.sites_length lb (items l t)
    have h2 := itemSites_length lb t l
    simp only [itemSites, nodesAll, List.length_append]
    omega
end

theorem Re.mem_sites (lb : Bool) (t : Stack) (r : Re) : (lb, .re r :: t) ∈ r.sites lb t := by
  cases r with
  | sel l => cases l <;> simp [Re.sites, selSites]
  | seq l => cases l <;> simp [Re.sites, seqSites]
  | _ => simp [Re.sites]

theorem mem_itemSites (lb : Bool) (t : Stack) (l : List Re) : (lb, items l t) ∈ itemSites lb t l ∨ items l t = t := by
  cases l with
  | nil => exact .inr rfl
  | cons r l => exact .inl (by simp only [itemSites, List.mem_append]; exact .inl (r.mem_sites lb _))

/-- A list of instantiations that needs nothing but itself and `w`. -/
def Closed (C : Cfg) (K : Known) (L : List (Bool × Stack)) (w : Bool × Stack) : Prop :=
  ∀ x ∈ L, ∀ l, uses C K x.1 x.2 = some l → ∀ y ∈ l, y ∈ L ∨ y = w

mutual
theorem Re.sites_closed (C : Cfg) (K : Known) (lb : Bool) (t : Stack) : ∀ r : Re, Closed C K (r.sites lb t) (lb, t)
  | .sel l => selSites_closed C K lb t l
  | .seq l => seqSites_closed C K lb t l
  | .rep k a b m => by
    have hm := itemSites_closed C K lb [.endCycle] m
    have h0 := mem_itemSites lb [.endCycle] m
    have self : ∀ k l, uses C K lb (.re (.rep k a b m) :: t) = some l → ∀ y ∈ l,
        y = (lb, .re (.rep .poss a b m) :: t) ∨ y = (lb, items m [.endCycle]) ∨ y = (lb, t) := by
      intro k l hl y hy
      simp only [uses] at hl
      split at hl
      · simp only [Option.some.injEq] at hl; subst hl; simp at hy
      · split at hl
        · simp at hl
        · cases k with
          | greedy =>
            dsimp only at hl
            split at hl
            · simp at hl
            · simp only [Option.some.injEq] at hl; subst hl; simp at hy; exact .inl hy
            · simp only [Option.some.injEq] at hl; subst hl; simp at hy; exact .inr hy
          | _ => simp only [Option.some.injEq] at hl; subst hl; simp at hy; exact .inr hy
    have fin : ∀ k l, uses C K lb (.re (.rep k a b m) :: t) = some l → ∀ y ∈ l,
        y ∈ (Re.rep k a b m).sites lb t ∨ y = (lb, t) := by
      intro k l hl y hy
      simp only [Re.sites, List.mem_cons]
      rcases self k l hl y hy with rfl | rfl | rfl
      · exact .inl (.inr (.inl rfl))
      · rcases h0 with h0 | h0
        · exact .inl (.inr (.inr (.inr h0)))
        · rw [h0]; exact .inl (.inr (.inr (.inl rfl)))
      · exact .inr rfl
    intro x hx l hl y hy
    simp only [Re.sites, List.mem_cons] at hx
    rcases hx with rfl | rfl | rfl | hx
    · exact fin _ _ hl y hy
    · rcases fin _ _ hl y hy with h | h
      · left
        simp only [Re.sites, List.mem_cons] at h ⊢
        rcases h with h | h | h | h
        · exact .inr (.inl h)
        · exact .inr (.inl h)
        · exact .inr (.inr (.inl h))
        · exact .inr (.inr (.inr h))
      · exact .inr h
    · simp only [uses] at hl
      split at hl
      · simp at hl
      · simp only [Option.some.injEq] at hl; subst hl; simp at hy
    · left
      simp only [Re.sites, List.mem_cons]
      rcases hm x hx l hl y hy with h | h
      · exact .inr (.inr (.inr h))
      · exact .inr (.inr (.inl h))
  | .cap id n m => by
    have hm := seqSites_closed C K lb (.numMark id :: t) m
    intro x hx l hl y hy
    simp only [Re.sites, List.mem_cons] at hx ⊢
    rcases hx with rfl | rfl | hx
    · simp only [uses] at hl
      split at hl
      · simp at hl
      · split at hl
        · simp only [Option.some.injEq] at hl; subst hl
          simp only [List.mem_singleton] at hy
          subst hy
          exact .inl (.inr (.inr (by cases m <;> simp [seqSites])))
        · simp at hl
    · simp only [uses] at hl
      split at hl
      · simp at hl
      · split at hl
        · simp only [Option.some.injEq] at hl; subst hl
          simp only [List.mem_singleton] at hy
          exact .inr hy
        · simp at hl
    · rcases hm x hx l hl y hy with h | h
      · exact .inl (.inr (.inr h))
      · exact .inl (.inr (.inl h))
  | .ahead p m => by
    have hm := seqSites_closed C K lb [.endAhead] m
    intro x hx l hl y hy
    simp only [Re.sites, List.mem_cons] at hx ⊢
    rcases hx with rfl | rfl | hx
    · simp only [uses, Option.some.injEq] at hl
      subst hl
      simp only [List.mem_cons, List.not_mem_nil, or_false] at hy
      rcases hy with rfl | rfl
      · exact .inl (.inr (.inr (by cases m <;> simp [seqSites])))
      · exact .inr rfl
    · simp only [uses, Option.some.injEq] at hl
      subst hl
      simp at hy
    · rcases hm x hx l hl y hy with h | h
      · exact .inl (.inr (.inr h))
      · exact .inl (.inr (.inl h))
  | .behind p m => by
    have hm := seqSites_closed C K true [.endBehind] m
    intro x hx l hl y hy
    simp only [Re.sites, List.mem_cons] at hx ⊢
    rcases hx with rfl | rfl | hx
    · simp only [uses, Option.some.injEq] at hl
      subst hl
      simp only [List.mem_cons, List.not_mem_nil, or_false] at hy
      rcases hy with rfl | rfl
      · exact .inl (.inr (.inr (by cases m <;> simp [seqSites])))
      · exact .inr rfl
    · simp only [uses, Option.some.injEq] at hl
      subst hl
      simp at hy
    · rcases hm x hx l hl y hy with h | h
      · exact .inl (.inr (.inr h))
      · exact .inl (.inr (.inl h))
  | .atomic m => by
    have hm := itemSites_closed C K lb [.endCycle] m
    have h0 := mem_itemSites lb [.endCycle] m
    intro x hx l hl y hy
    simp only [Re.sites, List.mem_cons] at hx ⊢
    rcases hx with rfl | rfl | rfl | hx
    · simp only [uses, Option.some.injEq] at hl
      subst hl
      simp only [List.mem_singleton] at hy
      exact .inl (.inr (.inl hy))
    · simp only [uses] at hl
      split at hl
      · simp only [Option.some.injEq] at hl; subst hl; simp at hy
      · split at hl
        · simp at hl
        · simp only [Option.some.injEq] at hl
          subst hl
          simp only [List.mem_cons, List.not_mem_nil, or_false] at hy
          rcases hy with rfl | rfl
          · rcases h0 with h0 | h0
            · exact .inl (.inr (.inr (.inr h0)))
            · rw [h0]; exact .inl (.inr (.inr (.inl rfl)))
          · exact .inr rfl
    · simp only [uses] at hl
      split at hl
      · simp at hl
      · simp only [Option.some.injEq] at hl; subst hl; simp at hy
    · rcases hm x hx l hl y hy with h | h
      · exact .inl (.inr (.inr (.inr h)))
      · exact .inl (.inr (.inr (.inl h)))
  | .bref _ | .brefName _ => by
    intro x hx l hl y hy
    simp only [Re.sites, List.mem_singleton] at hx
    subst hx
    simp only [uses] at hl
    split at hl
    · simp at hl
    · split at hl
      · simp only [Option.some.injEq] at hl; subst hl
        exact .inr (by simpa using hy)
      · simp at hl
  | .reject _ => by
    intro x hx l hl y hy
    simp only [Re.sites, List.mem_singleton] at hx
    subst hx
    simp only [uses, Option.some.injEq] at hl
    subst hl
    simp at hy
  | .cc _ | .any | .str _ | .empty | .boundary _ | .notBoundary _ | .sBegin | .sEnd | .sEndLine | .lBegin
  | .lEnd | .mode _ => by
    intro x hx l hl y hy
    simp only [Re.sites, List.mem_singleton] at hx
    subst hx
    simp only [uses, Option.some.injEq] at hl
    subst hl
    exact .inr (by simpa using hy)

theorem selSites_closed (C : Cfg) (K : Known) (lb : Bool) (t : Stack) : ∀ l : List Re, Closed C K (selSites lb t l) (lb, t)
  | [] => by
    intro x hx l hl y hy
    simp only [selSites, List.mem_singleton] at hx
    subst hx
    simp only [uses, Option.some.injEq] at hl
    subst hl
    simp at hy
  | r :: m => by
    have h1 := r.sites_closed C K lb t
    have h2 := selSites_closed C K lb t m
    intro x hx l hl y hy
    simp only [selSites, List.mem_cons, List.mem_append] at hx ⊢
    rcases hx with rfl | hx | hx
    · simp only [uses, Option.some.injEq] at hl
      subst hl
      simp only [List.mem_cons, List.not_mem_nil, or_false] at hy
      rcases hy with rfl | rfl
      · exact .inl (.inr (.inl (r.mem_sites lb t)))
      · exact .inl (.inr (.inr (by cases m <;> simp [selSites])))
    · rcases h1 x hx l hl y hy with h | h
      · exact .inl (.inr (.inl h))
      · exact .inr h
    · rcases h2 x hx l hl y hy with h | h
      · exact .inl (.inr (.inr h))
      · exact .inr h

theorem seqSites_closed (C : Cfg) (K : Known) (lb : Bool) (t : Stack) : ∀ l : List Re, Closed C K (seqSites lb t l) (lb, t)
  | [] => by
    intro x hx l hl y hy
    simp only [seqSites, List.mem_singleton] at hx
    subst hx
    simp only [uses, Option.some.injEq] at hl
    subst hl
    simp at hy
  | r :: m => by
    have h1 := r.sites_closed C K lb (if m.isEmpty then t else .re (.seq m) :: t)
    have h2 := seqSites_closed C K lb t m
    intro x hx l hl y hy
    simp only [seqSites, List.mem_cons, List.mem_append] at hx ⊢
    rcases hx with rfl | hx | hx
    · left; right; left
      have : y = (lb, .re r :: (if m.isEmpty then t else .re (.seq m) :: t)) := by
        cases m with
        | nil => simp only [uses, Option.some.injEq] at hl; subst hl; simpa using hy
        | cons r' m => simp only [uses, Option.some.injEq] at hl; subst hl; simpa using hy
      rw [this]
      exact r.mem_sites _ _
    · rcases h1 x hx l hl y hy with h | h
      · exact .inl (.inr (.inl h))
      · cases m with
        | nil => exact .inr h
        | cons r' m => exact .inl (.inr (.inr (by rw [h]; simp [seqSites])))
    · rcases h2 x hx l hl y hy with h | h
      · exact .inl (.inr (.inr h))
      · exact .inr h

theorem itemSites_closed (C : Cfg) (K : Known) (lb : Bool) (t : Stack) : ∀ l : List Re, Closed C K (itemSites lb t l) (lb, t)
  | [] => by intro x hx; simp [itemSites] at hx
  | r :: m => by
    have h1 := r.sites_closed C K lb (items m t)
    have h2 := itemSites_closed C K lb t m
    intro x hx l hl y hy
    simp only [itemSites, List.mem_append] at hx ⊢
    rcases hx with hx | hx
    · rcases h1 x hx l hl y hy with h | h
      · exact .inl (.inl h)
      · rcases mem_itemSites lb t m with h0 | h0
        · exact .inl (.inr (h ▸ h0))
        · rw [h0] at h; exact .inr h
    · rcases h2 x hx l hl y hy with h | h
      · exact .inl (.inr h)
      · exact .inr h
end

/-- The stacks that a stack needs at most. -/
def stSites (lb : Bool) : Stack → List (Bool × Stack)
  | [] => [(lb, [])]
  | .re r :: t => r.sites lb t ++ stSites lb t
  | i :: t => (lb, i :: t) :: stSites lb t

theorem mem_stSites (lb : Bool) (st : Stack) : (lb, st) ∈ stSites lb st := by
  rcases st with _ | ⟨i, t⟩
  · simp [stSites]
  · cases i with
    | re r => simp only [stSites, List.mem_append]; exact .inl (r.mem_sites lb t)
    | _ => simp [stSites]

theorem stSites_closed (C : Cfg) (K : Known) (lb : Bool) : ∀ st : Stack, ∀ x ∈ stSites lb st, ∀ l, uses C K x.1 x.2 = some l →
    ∀ y ∈ l, y ∈ stSites lb st
  | [] => by
    intro x hx l hl y hy
    simp only [stSites, List.mem_singleton] at hx
    subst hx
    simp only [uses, Option.some.injEq] at hl
    subst hl
    simp at hy
  | i :: t => by
    have ih := stSites_closed C K lb t
    have h0 := mem_stSites lb t
    cases i with
    | re r =>
      intro x hx l hl y hy
      simp only [stSites, List.mem_append] at hx ⊢
      rcases hx with hx | hx
      · rcases r.sites_closed C K lb t x hx l hl y hy with h | h
        · exact .inl h
        · exact .inr (h ▸ h0)
      · exact .inr (ih x hx l hl y hy)
    | _ =>
      intro x hx l hl y hy
      simp only [stSites, List.mem_cons] at hx ⊢
      rcases hx with rfl | hx
      · right
        have : y = (lb, t) := by
          cases t <;> simp only [uses] at hl <;> (repeat' split at hl) <;> simp at hl <;> subst hl <;> simpa using hy
        rw [this]; exact h0
      · exact .inr (ih x hx l hl y hy)

theorem instantiated_mem {C : Cfg} {K : Known} {lb : Bool} {st : Stack} {y : Bool × Stack} (h : Instantiated C K (lb, st) y) :
    y ∈ stSites lb st := by
  induction h with
  | first => exact mem_stSites lb st
  | next _ h2 h3 ih => exact stSites_closed C K lb st _ ih _ h2 _ h3

end Ctre
