import Verif.Spec.Reorder

/-
The meaning does not depend on the order of alternatives and on the kinds of repetitions.
-/
namespace Ctre.Surface

/-- Both parts match from the same states to the same states. -/
def SameMeaning (E : Env) (s : List Ch) : Piece → Piece → Prop
  | .atom a, .atom a' => ∀ σ τ, a.Match E s σ τ ↔ a'.Match E s σ τ
  | .cat c, .cat c' => ∀ σ τ, c.Match E s σ τ ↔ c'.Match E s σ τ
  | .body b, .body b' => ∀ σ τ, b.Match E s σ τ ↔ b'.Match E s σ τ
  | _, _ => True

theorem alt_choices (E : Env) (s : List Ch) (σ τ : MState) : ∀ l : Alt,
    l.Match E s σ τ ↔ (none ∈ l.choices ∧ τ = σ) ∨ ∃ c, some c ∈ l.choices ∧ c.Match E s σ τ
  | .empty => by simp [Alt.Match, Alt.choices]
  | .one c => by simp [Alt.Match, Alt.choices]
  | .bar c l => by
    simp only [Alt.Match, Alt.choices, alt_choices E s σ τ l, List.mem_cons, reduceCtorEq, false_or, Option.some.injEq]
    constructor
    · rintro (h | h | ⟨d, h1, h2⟩)
      · exact .inr ⟨c, .inl rfl, h⟩
      · exact .inl h
      · exact .inr ⟨d, .inr h1, h2⟩
    · rintro (h | ⟨d, rfl | h1, h2⟩)
      · exact .inr (.inl h)
      · exact .inl h2
      · exact .inr (.inr ⟨d, h1, h2⟩)

theorem body_choices (E : Env) (s : List Ch) (σ τ : MState) (b : Body) :
    b.Match E s σ τ ↔ (none ∈ b.choices ∧ τ = σ) ∨ ∃ c, some c ∈ b.choices ∧ c.Match E s σ τ := by
  cases b with
  | alt l => simp only [Body.Match, Body.choices, alt_choices]
  | lead l =>
    simp only [Body.Match, Body.choices, alt_choices, List.mem_cons, true_or, true_and, reduceCtorEq, false_or]
    constructor
    · rintro (h | h | h)
      · exact .inl h
      · exact .inl h.2
      · exact .inr h
    · rintro (h | h)
      · exact .inl h
      · exact .inr (.inr h)

/-- The meaning of an atom with its quantifier. -/
theorem cat_one (E : Env) (s : List Ch) (a : Atom) (q : Quant) (σ τ : MState) : (Cat.one a q).Match E s σ τ ↔
    (q = .none ∧ a.Match E s σ τ) ∨ (q ≠ .none ∧ ∃ k, q.admits k ∧ Iterate (fun σ τ => ∃ ρ, a.Match E s σ ρ ∧ τ = withModes σ ρ) k σ τ) := by
  cases q <;> simp [Cat.Match]

theorem cat_cons (E : Env) (s : List Ch) (a : Atom) (q : Quant) (l : Cat) (σ τ : MState) : (Cat.cons a q l).Match E s σ τ ↔
    ∃ π, (Cat.one a q).Match E s σ π ∧ l.Match E s π τ := by
  cases q <;> simp [Cat.Match]

theorem reorder_one {E : Env} {s : List Ch} {a a' : Atom} {q q' : Quant} (hq : SameCounts q q') (ha : ∀ σ τ, a.Match E s σ τ ↔ a'.Match E s σ τ)
    (σ τ : MState) : (Cat.one a q).Match E s σ τ ↔ (Cat.one a' q').Match E s σ τ := by
  rw [cat_one, cat_one]
  simp only [ha, ne_eq, hq.1, hq.2]

theorem reorder_meaning (E : Env) (s : List Ch) {x y : Piece} (h : Reorder x y) : SameMeaning E s x y := by
  induction h with
  | same a => exact fun _ _ => Iff.rfl
  | cap _ ih => simp only [SameMeaning] at ih ⊢; intro σ τ; simp only [Atom.Match, ih]
  | named _ ih => simp only [SameMeaning] at ih ⊢; intro σ τ; simp only [Atom.Match, ih]
  | group _ ih => simp only [SameMeaning] at ih ⊢; intro σ τ; simp only [Atom.Match, ih]
  | @ahead pos _ _ _ ih => simp only [SameMeaning] at ih ⊢; intro σ τ; cases pos <;> simp only [Atom.Match, ih]
  | behind _ ih => simp only [SameMeaning] at ih ⊢; intro σ τ; simp only [Atom.Match, ih]
  | one hq _ ih => exact reorder_one hq ih
  | cons hq _ _ ih1 ih2 =>
    simp only [SameMeaning] at ih1 ih2 ⊢
    intro σ τ
    rw [cat_cons, cat_cons]
    simp only [reorder_one hq ih1, ih2]
  | body m m' h0 h1 h2 _ _ ih1 ih2 =>
    intro σ τ
    rw [body_choices, body_choices, h0]
    refine or_congr Iff.rfl ⟨?_, ?_⟩
    · rintro ⟨c, hc, h⟩
      exact ⟨m c, h1 c hc, (ih1 c hc σ τ).1 h⟩
    · rintro ⟨c, hc, h⟩
      exact ⟨m' c, h2 c hc, (ih2 c hc σ τ).2 h⟩

theorem sameCounts_refl (q : Quant) : SameCounts q q := ⟨Iff.rfl, fun _ => Iff.rfl⟩

theorem reorder_cat : ∀ c : Cat, Reorder (.cat c) (.cat c)
  | .one a q => .one (sameCounts_refl q) (.same a)
  | .cons a q l => .cons (sameCounts_refl q) (.same a) (reorder_cat l)

/-- The same alternatives in another order. -/
theorem reorder_perm {b b' : Body} (h : ∀ o, o ∈ b.choices ↔ o ∈ b'.choices) : Reorder (.body b) (.body b') :=
  .body id id (h none) (fun c => (h (some c)).1) (fun c => (h (some c)).2) (fun c _ => reorder_cat c) fun c _ => reorder_cat c

/-- One alternative. -/
theorem reorder_single {c c' : Cat} (h : Reorder (.cat c) (.cat c')) : Reorder (.body (.alt (.one c))) (.body (.alt (.one c'))) :=
  .body (fun _ => c') (fun _ => c) (by simp [Body.choices, Alt.choices]) (by simp [Body.choices, Alt.choices]) (by simp [Body.choices, Alt.choices])
    (by simpa [Body.choices, Alt.choices] using h) (by simpa [Body.choices, Alt.choices] using h)

end Ctre.Surface
