import Verif.Spec.TextLanguage
import Verif.Lemmas.RegularClosed
import Verif.Lemmas.Language
/-
The matches of a regular pattern text are the words of its language, and the language is recognised by a finite automaton.
-/
namespace Ctre

theorem Consumes.letter {s : List Ch} {R : MState → MState → Prop} {p : Bool → Bool → Ch → Prop}
    (h : ∀ σ τ, R σ τ ↔ ∃ v, s[σ.pos]? = some v ∧ p σ.multiline σ.caseless v ∧ τ = { σ with pos := σ.pos + 1 }) :
    Consumes s R fun ml ci => letters (p ml ci) where
  sound σ τ hσ hr := by
    obtain ⟨v, hv, hp, rfl⟩ := (h _ _).1 hr
    exact ⟨by simp, (List.getElem?_eq_some_iff.1 hv).1, ⟨rfl, rfl⟩, v, stretch_single hv, hp⟩
  complete σ e h1 h2 h3 := by
    obtain ⟨v, hv, hp⟩ := h3
    obtain ⟨rfl, h4⟩ := stretch_eq_single h1 h2 hv
    exact ⟨_, (h _ _).2 ⟨v, h4, hp, rfl⟩, rfl⟩

theorem Consumes.zero {s : List Ch} {R : MState → MState → Prop} (h : ∀ σ τ, ¬ R σ τ) : Consumes s R fun _ _ => 0 where
  sound σ τ _ hr := (h _ _ hr).elim
  complete σ e _ _ h3 := (Language.notMem_zero _ h3).elim

theorem Consumes.add {s : List Ch} {R S : MState → MState → Prop} {L M : Bool → Bool → Language Ch} (hR : Consumes s R L)
    (hS : Consumes s S M) : Consumes s (fun σ τ => R σ τ ∨ S σ τ) fun ml ci => L ml ci + M ml ci where
  sound := by
    rintro σ τ hσ (h | h)
    · obtain ⟨a1, a2, a3, a4⟩ := hR.sound σ τ hσ h
      exact ⟨a1, a2, a3, .inl a4⟩
    · obtain ⟨a1, a2, a3, a4⟩ := hS.sound σ τ hσ h
      exact ⟨a1, a2, a3, .inr a4⟩
  complete := by
    rintro σ e h3 h4 (h | h)
    · obtain ⟨τ, h5, h6⟩ := hR.complete σ e h3 h4 h
      exact ⟨τ, .inl h5, h6⟩
    · obtain ⟨τ, h5, h6⟩ := hS.complete σ e h3 h4 h
      exact ⟨τ, .inr h5, h6⟩

theorem Consumes.powers {s : List Ch} {R : MState → MState → Prop} {L : Bool → Bool → Language Ch} (hR : Consumes s R L)
    (S : Nat → Prop) : Consumes s (fun σ τ => ∃ k, S k ∧ Iterate R k σ τ) fun ml ci => powers (L ml ci) S where
  sound := by
    rintro σ τ hσ ⟨k, hk, h⟩
    obtain ⟨a1, a2, a3, a4⟩ := (hR.pow k).sound σ τ hσ h
    exact ⟨a1, a2, a3, k, hk, a4⟩
  complete := by
    rintro σ e h1 h2 ⟨k, hk, h⟩
    obtain ⟨τ, h5, h6⟩ := (hR.pow k).complete σ e h1 h2 h
    exact ⟨τ, ⟨k, hk, h5⟩, h6⟩

theorem powers_one {α : Type} (L : Language α) : powers L (fun n => n = 1) = L := by
  ext w
  constructor
  · rintro ⟨k, rfl, h⟩; simpa using h
  · intro h; exact ⟨1, rfl, by simpa using h⟩

namespace Surface

/-- A quantified atom. -/
theorem item_speaks {E : Env} {s : List Ch} {a : Atom} {q : Quant} {L : Bool → Bool → Language Ch} (h : Consumes s (a.Match E s) L)
    (hq : q ≠ .none) : Consumes s (fun σ τ => ∃ k, q.admits k ∧ Iterate (fun σ τ => ∃ ρ, a.Match E s σ ρ ∧ τ = withModes σ ρ) k σ τ)
      fun ml ci => powers (L ml ci) q.admits :=
  (h.after (g := withModes) (fun _ _ _ => ⟨rfl, rfl, rfl⟩) (fun _ _ => Iff.rfl)).powers q.admits

mutual
theorem Atom.speaks (E : Env) (s : List Ch) : (a : Atom) → a.regular = true → Consumes s (a.Match E s) (fun ml ci => a.lang E.uni ml ci)
  | .ch c, _ => Consumes.letter (p := fun _ ci v => (CC.chr c.code).matchChar E.uni ci v = true) (by
      intro σ τ
      simp only [Atom.Match, inClass]
      constructor
      · rintro ⟨⟨v, h1, h2⟩, h3⟩; exact ⟨v, h1, h2, h3⟩
      · rintro ⟨v, h1, h2, h3⟩; exact ⟨⟨v, h1, h2⟩, h3⟩)
  | .cls c, _ => Consumes.letter (p := fun _ ci v => c.has E.uni ci v) (by intro σ τ; simp only [Atom.Match])
  | .set neg l, _ => Consumes.letter (p := fun _ ci v => (∃ i ∈ l, i.has E.uni ci v) ↔ neg = false) (by intro σ τ; simp only [Atom.Match])
  | .dot, _ => Consumes.letter (p := fun ml _ v => ¬ (ml = true ∧ v = 10)) (by
      intro σ τ
      simp only [Atom.Match, newlineAt]
      constructor
      · rintro ⟨h1, h2, h3⟩
        refine ⟨s[σ.pos], List.getElem?_eq_getElem h1, ?_, h3⟩
        rintro ⟨h4, h5⟩
        exact h2 ⟨h4, by rw [List.getElem?_eq_getElem h1, h5]⟩
      · rintro ⟨v, h1, h2, h3⟩
        refine ⟨(List.getElem?_eq_some_iff.1 h1).1, ?_, h3⟩
        rintro ⟨h4, h5⟩
        rw [h1] at h5
        exact h2 ⟨h4, by simpa using h5⟩)
  | .unknown _ _, _ => Consumes.zero (by intro σ τ h; exact h)
  | .cap id b, h => (Body.speaks E s b h).after (g := fun σ ρ => ρ.setCap id σ.pos ρ.pos) (fun _ _ h => ⟨rfl, h⟩) (fun _ _ => Iff.rfl)
  | .named id _ b, h => (Body.speaks E s b h).after (g := fun σ ρ => ρ.setCap id σ.pos ρ.pos) (fun _ _ h => ⟨rfl, h⟩) (fun _ _ => Iff.rfl)
  | .group b, h => (Body.speaks E s b h).congr (fun _ _ => Iff.rfl) (fun _ _ => rfl)
  | .bol, h | .eol, h | .subjectBegin, h | .subjectEnd, h | .subjectEndLine, h | .wordBoundary, h | .notWordBoundary, h | .ref _, h
  | .refNumber _, h | .refRelative _ _, h | .refName _, h | .ahead _ _, h | .behind _ _, h | .atomic _, h | .mode _, h => by cases h

theorem Cat.speaks (E : Env) (s : List Ch) : (c : Cat) → c.regular = true → Consumes s (c.Match E s) (fun ml ci => c.lang E.uni ml ci)
  | .one a q, h => by
    have ha := Atom.speaks E s a h
    by_cases hq : q = .none
    · subst hq
      exact ha.congr (fun _ _ => Iff.rfl) fun _ _ => (powers_one _).symm
    · exact (item_speaks ha hq).congr (fun σ τ => by cases q <;> first | exact (hq rfl).elim | exact Iff.rfl) fun _ _ => rfl
  | .cons a q l, h => by
    have h' : a.regular = true ∧ l.regular = true := by simpa [Cat.regular] using h
    have ha := Atom.speaks E s a h'.1
    have hl := Cat.speaks E s l h'.2
    by_cases hq : q = .none
    · subst hq
      exact (ha.mul hl).congr (fun _ _ => Iff.rfl) fun ml ci => by
        rw [Cat.lang, show powers (a.lang E.uni ml ci) Quant.none.admits = _ from powers_one _]
    · exact ((item_speaks ha hq).mul hl).congr (fun σ τ => by cases q <;> first | exact (hq rfl).elim | exact Iff.rfl) fun _ _ => rfl

theorem Alt.speaks (E : Env) (s : List Ch) : (l : Alt) → l.regular = true → Consumes s (l.Match E s) (fun ml ci => l.lang E.uni ml ci)
  | .empty, _ => Consumes.one fun _ _ => Iff.rfl
  | .one c, h => Cat.speaks E s c h
  | .bar c l, h => by
    have h' : c.regular = true ∧ l.regular = true := by simpa [Alt.regular] using h
    exact (Cat.speaks E s c h'.1).add (Alt.speaks E s l h'.2)

theorem Body.speaks (E : Env) (s : List Ch) : (b : Body) → b.regular = true → Consumes s (b.Match E s) (fun ml ci => b.lang E.uni ml ci)
  | .alt l, h => Alt.speaks E s l h
  | .lead l, h => ((Consumes.one (s := s) (R := fun σ τ => τ = σ) fun _ _ => Iff.rfl).add (Alt.speaks E s l h)).congr
      (fun _ _ => Iff.rfl) fun _ _ => rfl
end

/-! ### Finite automata -/

theorem admits_isRegular {L : Language Ch} (h : L.IsRegular) (q : Quant) : (powers L q.admits).IsRegular := by
  have key : ∀ {S T : Nat → Prop}, (∀ k, S k ↔ T k) → (powers L S).IsRegular → (powers L T).IsRegular := by
    intro S T e h
    rwa [show S = T from funext fun k => propext (e k)] at h
  cases q with
  | none => exact key (fun k => by show _ ↔ k = 1; omega) (isRegular_between h 1 1)
  | opt _ => exact key (fun k => by show _ ↔ k ≤ 1; omega) (isRegular_between h 0 2)
  | star _ => exact key (fun k => by show _ ↔ True; simp) (isRegular_atLeast h 0)
  | plus _ => exact isRegular_atLeast h 1
  | exactly ds => exact key (fun k => by show _ ↔ k = decimal ds; omega) (isRegular_between h (decimal ds) 1)
  | atLeast ds _ => exact isRegular_atLeast h (decimal ds)
  | between ds es _ =>
    exact key (fun k => by show _ ↔ decimal ds ≤ k ∧ k ≤ decimal es; omega) (isRegular_between h (decimal ds) (decimal es + 1 - decimal ds))

mutual
theorem Atom.lang_isRegular (U : Uni) (ml ci : Bool) : (a : Atom) → (a.lang U ml ci).IsRegular
  | .ch _ | .cls _ | .set _ _ | .dot => isRegular_single _
  | .cap _ b | .named _ _ b | .group b => Body.lang_isRegular U ml ci b
  | .unknown _ _ | .bol | .eol | .subjectBegin | .subjectEnd | .subjectEndLine | .wordBoundary | .notWordBoundary | .ref _
  | .refNumber _ | .refRelative _ _ | .refName _ | .ahead _ _ | .behind _ _ | .atomic _ | .mode _ => isRegular_zero

theorem Cat.lang_isRegular (U : Uni) (ml ci : Bool) : (c : Cat) → (c.lang U ml ci).IsRegular
  | .one a q => admits_isRegular (Atom.lang_isRegular U ml ci a) q
  | .cons a q l => isRegular_mul (admits_isRegular (Atom.lang_isRegular U ml ci a) q) (Cat.lang_isRegular U ml ci l)

theorem Alt.lang_isRegular (U : Uni) (ml ci : Bool) : (l : Alt) → (l.lang U ml ci).IsRegular
  | .empty => isRegular_one
  | .one c => Cat.lang_isRegular U ml ci c
  | .bar c l => (Cat.lang_isRegular U ml ci c).add (Alt.lang_isRegular U ml ci l)

theorem Body.lang_isRegular (U : Uni) (ml ci : Bool) : (b : Body) → (b.lang U ml ci).IsRegular
  | .alt l => Alt.lang_isRegular U ml ci l
  | .lead l => isRegular_one.add (Alt.lang_isRegular U ml ci l)
end

/-! ### Conditions -/

mutual
theorem Atom.regular_noBegin : (a : Atom) → a.regular = true → a.noBegin = true
  | .ch _, _ | .cls _, _ | .set _ _, _ | .dot, _ | .unknown _ _, _ => rfl
  | .cap _ b, h | .named _ _ b, h | .group b, h => Body.regular_noBegin b h
  | .bol, h | .eol, h | .subjectBegin, h | .subjectEnd, h | .subjectEndLine, h | .wordBoundary, h | .notWordBoundary, h | .ref _, h
  | .refNumber _, h | .refRelative _ _, h | .refName _, h | .ahead _ _, h | .behind _ _, h | .atomic _, h | .mode _, h => by cases h

theorem Cat.regular_noBegin : (c : Cat) → c.regular = true → c.noBegin = true
  | .one a _, h => Atom.regular_noBegin a h
  | .cons a _ l, h => by
    have h' : a.regular = true ∧ l.regular = true := by simpa [Cat.regular] using h
    simp [Cat.noBegin, Atom.regular_noBegin a h'.1, Cat.regular_noBegin l h'.2]

theorem Alt.regular_noBegin : (l : Alt) → l.regular = true → l.noBegin = true
  | .empty, _ => rfl
  | .one c, h => Cat.regular_noBegin c h
  | .bar c l, h => by
    have h' : c.regular = true ∧ l.regular = true := by simpa [Alt.regular] using h
    simp [Alt.noBegin, Cat.regular_noBegin c h'.1, Alt.regular_noBegin l h'.2]

theorem Body.regular_noBegin : (b : Body) → b.regular = true → b.noBegin = true
  | .alt l, h => Alt.regular_noBegin l h
  | .lead l, h => Alt.regular_noBegin l h
end

mutual
theorem Atom.regular_noNegative : (a : Atom) → a.regular = true → a.noNegative = true
  | .ch _, _ | .cls _, _ | .set _ _, _ | .dot, _ | .unknown _ _, _ => rfl
  | .cap _ b, h | .named _ _ b, h | .group b, h => Body.regular_noNegative b h
  | .bol, h | .eol, h | .subjectBegin, h | .subjectEnd, h | .subjectEndLine, h | .wordBoundary, h | .notWordBoundary, h | .ref _, h
  | .refNumber _, h | .refRelative _ _, h | .refName _, h | .ahead _ _, h | .behind _ _, h | .atomic _, h | .mode _, h => by cases h

theorem Cat.regular_noNegative : (c : Cat) → c.regular = true → c.noNegative = true
  | .one a _, h => Atom.regular_noNegative a h
  | .cons a _ l, h => by
    have h' : a.regular = true ∧ l.regular = true := by simpa [Cat.regular] using h
    simp [Cat.noNegative, Atom.regular_noNegative a h'.1, Cat.regular_noNegative l h'.2]

theorem Alt.regular_noNegative : (l : Alt) → l.regular = true → l.noNegative = true
  | .empty, _ => rfl
  | .one c, h => Cat.regular_noNegative c h
  | .bar c l, h => by
    have h' : c.regular = true ∧ l.regular = true := by simpa [Alt.regular] using h
    simp [Alt.noNegative, Cat.regular_noNegative c h'.1, Alt.regular_noNegative l h'.2]

theorem Body.regular_noNegative : (b : Body) → b.regular = true → b.noNegative = true
  | .alt l, h => Alt.regular_noNegative l h
  | .lead l, h => Alt.regular_noNegative l h
end

mutual
theorem Atom.regular_selfFree (num : List Nat → Option Nat) : (O : List Nat) → (a : Atom) → a.regular = true → a.selfFree num O
  | _, .ch _, _ | _, .cls _, _ | _, .set _ _, _ | _, .dot, _ | _, .unknown _ _, _ => by simp [Atom.selfFree]
  | O, .cap id b, h => by rw [Atom.selfFree]; exact Body.regular_selfFree num (id :: O) b h
  | O, .named id _ b, h => by rw [Atom.selfFree]; exact Body.regular_selfFree num (id :: O) b h
  | O, .group b, h => by rw [Atom.selfFree]; exact Body.regular_selfFree num O b h
  | _, .bol, h | _, .eol, h | _, .subjectBegin, h | _, .subjectEnd, h | _, .subjectEndLine, h | _, .wordBoundary, h
  | _, .notWordBoundary, h | _, .ref _, h | _, .refNumber _, h | _, .refRelative _ _, h | _, .refName _, h | _, .ahead _ _, h
  | _, .behind _ _, h | _, .atomic _, h | _, .mode _, h => by cases h

theorem Cat.regular_selfFree (num : List Nat → Option Nat) : (O : List Nat) → (c : Cat) → c.regular = true → c.selfFree num O
  | O, .one a _, h => by rw [Cat.selfFree]; exact Atom.regular_selfFree num O a h
  | O, .cons a _ l, h => by
    have h' : a.regular = true ∧ l.regular = true := by simpa [Cat.regular] using h
    rw [Cat.selfFree]
    exact ⟨Atom.regular_selfFree num O a h'.1, Cat.regular_selfFree num O l h'.2⟩

theorem Alt.regular_selfFree (num : List Nat → Option Nat) : (O : List Nat) → (l : Alt) → l.regular = true → l.selfFree num O
  | _, .empty, _ => by simp [Alt.selfFree]
  | O, .one c, h => by rw [Alt.selfFree]; exact Cat.regular_selfFree num O c h
  | O, .bar c l, h => by
    have h' : c.regular = true ∧ l.regular = true := by simpa [Alt.regular] using h
    rw [Alt.selfFree]
    exact ⟨Cat.regular_selfFree num O c h'.1, Alt.regular_selfFree num O l h'.2⟩

theorem Body.regular_selfFree (num : List Nat → Option Nat) : (O : List Nat) → (b : Body) → b.regular = true → b.selfFree num O
  | O, .alt l, h => by rw [Body.selfFree]; exact Alt.regular_selfFree num O l h
  | O, .lead l, h => by rw [Body.selfFree]; exact Alt.regular_selfFree num O l h
end

end Surface

end Ctre
