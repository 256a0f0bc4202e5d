import Verif.Spec.Widen
import Verif.Lemmas.Reorder

/-
The meaning grows with the text.
-/
namespace Ctre.Surface

/-- The second part matches wherever the first one does. -/
def Wider (E : Env) (s : List Ch) : Piece → Piece → Prop
  | .atom a, .atom a' => ∀ σ τ, a.Match E s σ τ → a'.Match E s σ τ
  | .cat c, .cat c' => ∀ σ τ, c.Match E s σ τ → c'.Match E s σ τ
  | .body b, .body b' => ∀ σ τ, b.Match E s σ τ → b'.Match E s σ τ
  | _, _ => True

theorem oneChar_match {E : Env} {s : List Ch} {σ τ : MState} {a : Atom} (h : a.oneChar = true) : a.Match E s σ τ ↔
    ∃ v, s[σ.pos]? = some v ∧ a.takes E.uni σ.multiline σ.caseless v ∧ τ = { σ with pos := σ.pos + 1 } := by
  cases a with
  | ch c => simp only [Atom.Match, Atom.takes, inClass]; constructor
            · rintro ⟨⟨v, h1, h2⟩, h3⟩; exact ⟨v, h1, h2, h3⟩
            · rintro ⟨v, h1, h2, h3⟩; exact ⟨⟨v, h1, h2⟩, h3⟩
  | cls c => simp only [Atom.Match, Atom.takes]
  | set neg l => simp only [Atom.Match, Atom.takes]
  | dot =>
    simp only [Atom.Match, Atom.takes, newlineAt]
    constructor
    · rintro ⟨h1, h2, h3⟩
      refine ⟨s[σ.pos], List.getElem?_eq_getElem h1, fun h => h2 ⟨h.1, ?_⟩, h3⟩
      rw [List.getElem?_eq_getElem h1, h.2]
    · rintro ⟨v, h1, h2, h3⟩
      obtain ⟨hlt, -⟩ := List.getElem?_eq_some_iff.1 h1
      refine ⟨hlt, fun h => h2 ⟨h.1, ?_⟩, h3⟩
      have := h.2
      rw [h1] at this
      simpa using this
  | _ => simp [Atom.oneChar] at h

theorem asserts_match {E : Env} {s : List Ch} {σ τ : MState} {a : Atom} (h : a.asserts = true) (hm : a.Match E s σ τ) : τ = σ := by
  cases a with
  | ahead pos b =>
    cases pos
    · simp only [Atom.Match] at hm; exact hm.2
    · simp [Atom.asserts] at h
  | _ => first | (simp [Atom.asserts] at h; done) | (simp only [Atom.Match] at hm; exact hm.2)

theorem iterate_mono {α : Type} {R R' : α → α → Prop} (h : ∀ x y, R x y → R' x y) : ∀ {k : Nat} {x y : α}, Iterate R k x y → Iterate R' k x y
  | _, _, _, .zero x => .zero x
  | _, _, _, .succ h1 h2 => .succ (h _ _ h1) (iterate_mono h h2)

theorem widen_one {E : Env} {s : List Ch} {a a' : Atom} {q q' : Quant} (hn : q = .none ↔ q' = .none) (hq : ∀ k, q.admits k → q'.admits k)
    (ha : ∀ σ τ, a.Match E s σ τ → a'.Match E s σ τ) (σ τ : MState) (h : (Cat.one a q).Match E s σ τ) : (Cat.one a' q').Match E s σ τ := by
  rw [cat_one] at h ⊢
  rcases h with ⟨h1, h2⟩ | ⟨h1, k, h2, h3⟩
  · exact .inl ⟨hn.1 h1, ha _ _ h2⟩
  · exact .inr ⟨fun e => h1 (hn.2 e), k, hq k h2, iterate_mono (fun _ _ ⟨ρ, h4, h5⟩ => ⟨ρ, ha _ _ h4, h5⟩) h3⟩

theorem widen_meaning {E : Env} (s : List Ch) {x y : Piece} (h : Widen E.uni x y) : Wider E s x y := by
  induction h with
  | same a => exact fun _ _ h => h
  | chars h1 h2 h3 =>
    intro σ τ h
    rw [oneChar_match h1] at h
    rw [oneChar_match h2]
    obtain ⟨v, k1, k2, k3⟩ := h
    exact ⟨v, k1, h3 _ _ _ k2, k3⟩
  | enclose _ ih =>
    intro σ τ h
    simp only [Atom.Match]
    exact ih _ _ (by simpa only [Body.Match, Alt.Match, Cat.Match] using h)
  | cap _ ih => intro σ τ; simp only [Atom.Match]; rintro ⟨ρ, h, e⟩; exact ⟨ρ, ih _ _ h, e⟩
  | named _ ih => intro σ τ; simp only [Atom.Match]; rintro ⟨ρ, h, e⟩; exact ⟨ρ, ih _ _ h, e⟩
  | group _ ih => intro σ τ; simp only [Atom.Match]; exact ih _ _
  | ahead _ ih => intro σ τ; simp only [Atom.Match]; rintro ⟨ρ, h, e⟩; exact ⟨ρ, ih _ _ h, e⟩
  | behind _ ih =>
    intro σ τ
    simp only [Atom.Match, iff_true]
    rintro ⟨⟨p, ρ, h1, h2, h3⟩, e⟩
    exact ⟨⟨p, ρ, h1, ih _ _ h2, h3⟩, e⟩
  | notAhead _ ih =>
    intro σ τ
    simp only [Atom.Match]
    rintro ⟨h, e⟩
    exact ⟨fun ⟨ρ, k⟩ => h ⟨ρ, ih _ _ k⟩, e⟩
  | notBehind _ ih =>
    intro σ τ
    simp only [Atom.Match, Bool.false_eq_true, iff_false]
    rintro ⟨h, e⟩
    exact ⟨fun ⟨p, ρ, h1, h2, h3⟩ => h ⟨p, ρ, h1, ih _ _ h2, h3⟩, e⟩
  | one hn hq _ ih => exact widen_one hn hq ih
  | cons hn hq _ _ ih1 ih2 =>
    intro σ τ
    rw [cat_cons, cat_cons]
    rintro ⟨π, h1, h2⟩
    exact ⟨π, widen_one hn hq ih1 _ _ h1, ih2 _ _ h2⟩
  | drop ha _ ih =>
    intro σ τ
    rw [cat_cons]
    rintro ⟨π, h1, h2⟩
    simp only [Cat.Match] at h1
    cases asserts_match ha h1
    exact ih _ _ h2
  | dropLast he _ ih =>
    intro σ τ
    rw [cat_cons]
    rintro ⟨π, h1, h2⟩
    simp only [Cat.Match] at h2
    cases asserts_match he h2
    exact ih _ _ h1
  | body m h0 h1 _ ih =>
    intro σ τ
    rw [body_choices, body_choices]
    rintro (⟨h, e⟩ | ⟨c, hc, h⟩)
    · exact .inl ⟨h0 h, e⟩
    · exact .inr ⟨m c, h1 c hc, ih c hc _ _ h⟩

theorem widen_cat (U : Uni) : ∀ c : Cat, Widen U (.cat c) (.cat c)
  | .one a _ => .one Iff.rfl (fun _ h => h) (.same a)
  | .cons a _ l => .cons Iff.rfl (fun _ h => h) (.same a) (widen_cat U l)

/-- Further alternatives. -/
theorem widen_more {U : Uni} {b b' : Body} (h : ∀ o, o ∈ b.choices → o ∈ b'.choices) : Widen U (.body b) (.body b') :=
  .body id (h none) (fun c => h (some c)) fun c _ => widen_cat U c

/-- One alternative. -/
theorem widen_single {U : Uni} {c c' : Cat} (h : Widen U (.cat c) (.cat c')) : Widen U (.body (.alt (.one c))) (.body (.alt (.one c'))) :=
  .body (fun _ => c') (by simp [Body.choices, Alt.choices]) (by simp [Body.choices, Alt.choices]) (by simpa [Body.choices, Alt.choices] using h)

end Ctre.Surface
