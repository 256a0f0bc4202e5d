import Verif.Spec.Inner
import Verif.Spec.Semantics

/-
A pattern that looks only at the text it matches has the same matches in every context.
-/
namespace Ctre

/-- The state with all positions moved. -/
def MState.up (k : Nat) (σ : MState) : MState :=
  { σ with pos := σ.pos + k, cap := fun i => (σ.cap i).map fun x => (x.1 + k, x.2 + k) }

/-- No group ends after the position. -/
def MState.Fit (σ : MState) : Prop := ∀ id b e, σ.cap id = some (b, e) → e ≤ σ.pos

/-- `R'` on the whole subject does what `R` does on the part `v`. -/
structure Embeds (u v : List Ch) (R R' : MState → MState → Prop) : Prop where
  mono : ∀ σ τ, R' σ τ → σ.pos ≤ τ.pos
  mono' : ∀ σ τ, R σ τ → σ.pos ≤ τ.pos ∧ (σ.pos ≤ v.length → τ.pos ≤ v.length)
  up : ∀ σ τ, σ.Fit → σ.pos ≤ v.length → R σ τ → R' (σ.up u.length) (τ.up u.length) ∧ τ.Fit
  down : ∀ σ τ', σ.Fit → R' (σ.up u.length) τ' → τ'.pos ≤ v.length + u.length → ∃ τ, τ' = τ.up u.length ∧ R σ τ ∧ τ.Fit

section
variable {u v w : List Ch}

theorem at_inner {i : Nat} (h : i < v.length) : (u ++ v ++ w)[i + u.length]? = v[i]? := by
  rw [List.append_assoc, List.getElem?_append_right (by omega), List.getElem?_append_left (by omega)]
  congr 1
  omega

theorem text_inner {b e : Nat} (h : e ≤ v.length) : text (u ++ v ++ w) (b + u.length) (e + u.length) = text v b e := by
  unfold text
  rw [show e + u.length - (b + u.length) = e - b by omega]
  apply List.ext_getElem?
  intro i
  rw [List.getElem?_take, List.getElem?_take]
  by_cases hi : i < e - b
  · rw [if_pos hi, if_pos hi, List.getElem?_drop, List.getElem?_drop, show b + u.length + i = (b + i) + u.length by omega,
      at_inner (by omega)]
  · rw [if_neg hi, if_neg hi]

theorem MState.Fit.step {σ : MState} (h : σ.Fit) (k : Nat) : MState.Fit { σ with pos := σ.pos + k } := by
  intro id b e hc
  have := h id b e hc
  show e ≤ σ.pos + k
  omega

theorem up_step (σ : MState) (k j : Nat) : MState.up k { σ with pos := σ.pos + j } = { σ.up k with pos := (σ.up k).pos + j } := by
  simp only [MState.up, MState.mk.injEq, and_true]
  omega

theorem Embeds.comp {R₁ R₁' R₂ R₂' : MState → MState → Prop} (h₁ : Embeds u v R₁ R₁') (h₂ : Embeds u v R₂ R₂') :
    Embeds u v (fun σ τ => ∃ ρ, R₁ σ ρ ∧ R₂ ρ τ) (fun σ τ => ∃ ρ, R₁' σ ρ ∧ R₂' ρ τ) where
  mono := by
    rintro σ τ ⟨ρ, a, b⟩
    exact Nat.le_trans (h₁.mono _ _ a) (h₂.mono _ _ b)
  mono' := by
    rintro σ τ ⟨ρ, a, b⟩
    have a' := h₁.mono' _ _ a
    have b' := h₂.mono' _ _ b
    exact ⟨Nat.le_trans a'.1 b'.1, fun h => b'.2 (a'.2 h)⟩
  up := by
    rintro σ τ hf hp ⟨ρ, a, b⟩
    obtain ⟨a1, a2⟩ := h₁.up _ _ hf hp a
    obtain ⟨b1, b2⟩ := h₂.up _ _ a2 ((h₁.mono' _ _ a).2 hp) b
    exact ⟨⟨_, a1, b1⟩, b2⟩
  down := by
    rintro σ τ' hf ⟨ρ', a, b⟩ hle
    have := h₂.mono _ _ b
    obtain ⟨ρ, rfl, a1, a2⟩ := h₁.down _ _ hf a (by omega)
    obtain ⟨τ, rfl, b1, b2⟩ := h₂.down _ _ a2 b hle
    exact ⟨τ, rfl, ⟨ρ, a1, b1⟩, b2⟩

theorem Embeds.or {R₁ R₁' R₂ R₂' : MState → MState → Prop} (h₁ : Embeds u v R₁ R₁') (h₂ : Embeds u v R₂ R₂') :
    Embeds u v (fun σ τ => R₁ σ τ ∨ R₂ σ τ) (fun σ τ => R₁' σ τ ∨ R₂' σ τ) where
  mono := by
    rintro σ τ (a | a)
    · exact h₁.mono _ _ a
    · exact h₂.mono _ _ a
  mono' := by
    rintro σ τ (a | a)
    · exact h₁.mono' _ _ a
    · exact h₂.mono' _ _ a
  up := by
    rintro σ τ hf hp (a | a)
    · exact ⟨.inl (h₁.up _ _ hf hp a).1, (h₁.up _ _ hf hp a).2⟩
    · exact ⟨.inr (h₂.up _ _ hf hp a).1, (h₂.up _ _ hf hp a).2⟩
  down := by
    rintro σ τ' hf (a | a) hle
    · obtain ⟨τ, e, a1, a2⟩ := h₁.down _ _ hf a hle
      exact ⟨τ, e, .inl a1, a2⟩
    · obtain ⟨τ, e, a1, a2⟩ := h₂.down _ _ hf a hle
      exact ⟨τ, e, .inr a1, a2⟩

/-- A step after the match that depends on the state before and keeps the position. -/
theorem Embeds.after {R R' : MState → MState → Prop} (h : Embeds u v R R') (g : MState → MState → MState)
    (hg : ∀ σ ρ, (g σ ρ).pos = ρ.pos) (hu : ∀ σ ρ, (g σ ρ).up u.length = g (σ.up u.length) (ρ.up u.length))
    (hf : ∀ σ ρ, σ.Fit → ρ.Fit → σ.pos ≤ ρ.pos → (g σ ρ).Fit) :
    Embeds u v (fun σ τ => ∃ ρ, R σ ρ ∧ τ = g σ ρ) (fun σ τ => ∃ ρ, R' σ ρ ∧ τ = g σ ρ) where
  mono := by
    rintro σ τ ⟨ρ, a, rfl⟩
    rw [hg]
    exact h.mono _ _ a
  mono' := by
    rintro σ τ ⟨ρ, a, rfl⟩
    rw [hg]
    exact h.mono' _ _ a
  up := by
    rintro σ τ hσ hp ⟨ρ, a, rfl⟩
    obtain ⟨a1, a2⟩ := h.up _ _ hσ hp a
    exact ⟨⟨_, a1, hu _ _⟩, hf _ _ hσ a2 (h.mono' _ _ a).1⟩
  down := by
    rintro σ τ' hσ ⟨ρ', a, rfl⟩ hle
    rw [hg] at hle
    obtain ⟨ρ, rfl, a1, a2⟩ := h.down _ _ hσ a hle
    exact ⟨g σ ρ, (hu _ _).symm, ⟨ρ, a1, rfl⟩, hf _ _ hσ a2 (h.mono' _ _ a1).1⟩

theorem Embeds.skip : Embeds u v (fun σ τ => τ = σ) (fun σ τ => τ = σ) where
  mono := by rintro σ _ rfl; exact Nat.le_refl _
  mono' := by rintro σ _ rfl; exact ⟨Nat.le_refl _, id⟩
  up := by rintro σ _ hf _ rfl; exact ⟨rfl, hf⟩
  down := by rintro σ _ hf rfl _; exact ⟨σ, rfl, rfl, hf⟩

theorem Embeds.never : Embeds u v (fun _ _ => False) (fun _ _ => False) where
  mono := by rintro σ τ ⟨⟩
  mono' := by rintro σ τ ⟨⟩
  up := by rintro σ τ _ _ ⟨⟩
  down := by rintro σ τ _ ⟨⟩

theorem Embeds.iterate {R R' : MState → MState → Prop} (h : Embeds u v R R') (k : Nat) :
    Embeds u v (Iterate R k) (Iterate R' k) := by
  induction k with
  | zero =>
    have e : ∀ R : MState → MState → Prop, Iterate R 0 = fun σ τ => τ = σ := fun R => by
      funext σ τ
      refine propext ⟨fun h => by cases h; rfl, fun h => by subst h; exact .zero _⟩
    rw [e, e]
    exact .skip
  | succ k ih =>
    have e : ∀ R : MState → MState → Prop, Iterate R (k + 1) = fun σ τ => ∃ ρ, R σ ρ ∧ Iterate R k ρ τ := fun R => by
      funext σ τ
      refine propext ⟨fun h => ?_, fun ⟨ρ, a, b⟩ => .succ a b⟩
      cases h with
      | succ a b => exact ⟨_, a, b⟩
    rw [e, e]
    exact h.comp ih

theorem Embeds.exists {ι : Type} {p : ι → Prop} {R R' : ι → MState → MState → Prop} (h : ∀ i, Embeds u v (R i) (R' i)) :
    Embeds u v (fun σ τ => ∃ i, p i ∧ R i σ τ) (fun σ τ => ∃ i, p i ∧ R' i σ τ) where
  mono := by rintro σ τ ⟨i, _, a⟩; exact (h i).mono _ _ a
  mono' := by rintro σ τ ⟨i, _, a⟩; exact (h i).mono' _ _ a
  up := by
    rintro σ τ hf hp ⟨i, q, a⟩
    exact ⟨⟨i, q, ((h i).up _ _ hf hp a).1⟩, ((h i).up _ _ hf hp a).2⟩
  down := by
    rintro σ τ' hf ⟨i, q, a⟩ hle
    obtain ⟨τ, e, a1, a2⟩ := (h i).down _ _ hf a hle
    exact ⟨τ, e, ⟨i, q, a1⟩, a2⟩

/-- A fixed number of characters, read by a condition on the characters there. -/
theorem Embeds.read {P P' : MState → Prop} (j : Nat) (hb : ∀ σ, P σ → σ.pos ≤ v.length → σ.pos + j ≤ v.length)
    (h : ∀ σ, σ.pos + j ≤ v.length → (P σ ↔ P' (σ.up u.length))) :
    Embeds u v (fun σ τ => P σ ∧ τ = { σ with pos := σ.pos + j }) (fun σ τ => P' σ ∧ τ = { σ with pos := σ.pos + j }) where
  mono := by rintro σ τ ⟨_, rfl⟩; exact Nat.le_add_right _ _
  mono' := by rintro σ τ ⟨hp, rfl⟩; exact ⟨Nat.le_add_right _ _, hb σ hp⟩
  up := by
    rintro σ τ hf hp ⟨a, rfl⟩
    exact ⟨⟨(h σ (hb σ a hp)).1 a, up_step _ _ _⟩, hf.step j⟩
  down := by
    rintro σ τ' hf ⟨a, rfl⟩ hle
    have : σ.pos + j ≤ v.length := by
      have : (σ.up u.length).pos + j ≤ v.length + u.length := hle
      simp only [MState.up] at this
      omega
    exact ⟨_, (up_step _ _ _).symm, ⟨(h σ this).2 a, rfl⟩, hf.step j⟩

theorem inClass_inner {U : Uni} {ci : Bool} {c : CC} {i : Nat} (h : i < v.length) :
    inClass U ci v i c ↔ inClass U ci (u ++ v ++ w) (i + u.length) c := by
  unfold inClass
  rw [at_inner h]

theorem Embeds.again (id : Nat) : Embeds u v (fun σ τ => Again v σ τ id) (fun σ τ => Again (u ++ v ++ w) σ τ id) where
  mono := by rintro σ τ ⟨b, e, _, _, _, _, rfl⟩; exact Nat.le_add_right _ _
  mono' := by rintro σ τ ⟨b, e, _, _, h, _, rfl⟩; exact ⟨Nat.le_add_right _ _, fun _ => h⟩
  up := by
    rintro σ τ hf hp ⟨b, e, h1, h2, h3, h4, rfl⟩
    refine ⟨⟨b + u.length, e + u.length, ?_, by omega, ?_, ?_, ?_⟩, hf.step _⟩
    · simp [MState.up, h1]
    · simp only [MState.up, List.length_append]; omega
    · have he := hf _ _ _ h1
      simp only [MState.up]
      rw [text_inner (by omega), h4, show σ.pos + u.length + (e + u.length - (b + u.length)) = (σ.pos + (e - b)) + u.length by omega,
        text_inner (by omega)]
    · rw [show e + u.length - (b + u.length) = e - b by omega]
      exact up_step _ _ _
  down := by
    rintro σ τ' hf ⟨b', e', h1, h2, h3, h4, rfl⟩ hle
    simp only [MState.up, Option.map_eq_some_iff, Prod.mk.injEq] at h1
    obtain ⟨⟨b, e⟩, hc, rfl, rfl⟩ := h1
    have he := hf _ _ _ hc
    have hle' : σ.pos + (e - b) ≤ v.length := by
      simp only [MState.up] at hle
      omega
    refine ⟨{ σ with pos := σ.pos + (e - b) }, ?_, ⟨b, e, hc, by simpa using h2, hle', ?_, rfl⟩, hf.step _⟩
    · rw [up_step]
      simp only [show e + u.length - (b + u.length) = e - b by omega]
    · simp only [MState.up] at h4
      rwa [text_inner (by omega), show σ.pos + u.length + (e + u.length - (b + u.length)) = (σ.pos + (e - b)) + u.length by omega,
        text_inner (by omega)] at h4

theorem Embeds.congr {R R' S S' : MState → MState → Prop} (h : Embeds u v R R') (e : ∀ σ τ, S σ τ ↔ R σ τ)
    (e' : ∀ σ τ, S' σ τ ↔ R' σ τ) : Embeds u v S S' := by
  have a : S = R := by funext σ τ; exact propext (e σ τ)
  have b : S' = R' := by funext σ τ; exact propext (e' σ τ)
  rw [a, b]
  exact h

/-- Back to the modes before. -/
def resetTo (σ ρ : MState) : MState := { ρ with multiline := σ.multiline, caseless := σ.caseless }

mutual
theorem Re.embeds (E : Env) : (r : Re) → r.inner = true → Embeds u v (r.Match E v) (r.Match E (u ++ v ++ w))
  | .cc c, _ => Embeds.read (P := fun σ => inClass E.uni σ.caseless v σ.pos c)
      (P' := fun σ => inClass E.uni σ.caseless (u ++ v ++ w) σ.pos c) 1
      (fun σ ⟨x, hx, _⟩ _ => (List.getElem?_eq_some_iff.1 hx).1) (fun σ h => inClass_inner (by omega))
  | .any, _ => (Embeds.read (P := fun σ => σ.pos < v.length ∧ ¬ (σ.multiline = true ∧ newlineAt v σ.pos))
      (P' := fun σ => σ.pos < (u ++ v ++ w).length ∧ ¬ (σ.multiline = true ∧ newlineAt (u ++ v ++ w) σ.pos)) 1
      (fun σ h _ => h.1) (fun σ h => by
        unfold newlineAt
        simp only [MState.up, at_inner (u := u) (v := v) (w := w) (show σ.pos < v.length by omega), List.length_append]
        exact ⟨fun h' => ⟨by omega, h'.2⟩, fun h' => ⟨by omega, h'.2⟩⟩)).congr
      (fun _ _ => by simp only [Re.Match, and_assoc]) (fun _ _ => by simp only [Re.Match, and_assoc])
  | .str cs, _ => (Embeds.read
      (P := fun σ => ∀ (i : Nat) (h : i < cs.length), inClass E.uni σ.caseless v (σ.pos + i) (.chr cs[i]))
      (P' := fun σ => ∀ (i : Nat) (h : i < cs.length), inClass E.uni σ.caseless (u ++ v ++ w) (σ.pos + i) (.chr cs[i])) cs.length
      (fun σ h hp => by
        cases hc : cs.length with
        | zero => simpa using hp
        | succ j =>
          obtain ⟨x, hx, _⟩ := h j (by omega)
          have := (List.getElem?_eq_some_iff.1 hx).1
          omega)
      (fun σ h => forall_congr' fun i => forall_congr' fun hi => by
        rw [inClass_inner (u := u) (w := w) (show σ.pos + i < v.length by omega)]
        simp only [MState.up]
        rw [show σ.pos + i + u.length = σ.pos + u.length + i by omega])).congr
      (fun _ _ => by simp only [Re.Match]) (fun _ _ => by simp only [Re.Match])
  | .empty, _ => Embeds.skip.congr (fun _ _ => by simp only [Re.Match]) (fun _ _ => by simp only [Re.Match])
  | .reject _, _ => Embeds.never.congr (fun _ _ => by simp only [Re.Match]) (fun _ _ => by simp only [Re.Match])
  | .sel l, h => by
    simp only [Re.inner, Bool.and_eq_true] at h
    exact (innerList_any E l h.2).congr (fun _ _ => by simp only [Re.Match]) (fun _ _ => by simp only [Re.Match])
  | .seq l, h => (innerList_all E l (by simpa [Re.inner] using h)).congr (fun _ _ => by simp only [Re.Match])
      (fun _ _ => by simp only [Re.Match])
  | .rep q a b l, h => by
    have hl := innerList_all E l (by simpa [Re.inner] using h)
    have hb := hl.after resetTo (fun _ _ => rfl) (fun _ _ => rfl) (fun σ ρ _ h _ => h)
    exact (Embeds.exists (p := fun k => a ≤ k ∧ (b = 0 ∨ k ≤ b)) (fun k => hb.iterate k)).congr
      (fun _ _ => by simp only [Re.Match, and_assoc]; rfl) (fun _ _ => by simp only [Re.Match, and_assoc]; rfl)
  | .cap id nm l, h => by
    have hl := innerList_all E l (by simpa [Re.inner] using h)
    refine (hl.after (fun σ ρ => ρ.setCap id σ.pos ρ.pos) (fun _ _ => rfl) (fun σ ρ => ?_) (fun σ ρ hs hr hle => ?_)).congr
      (fun _ _ => by simp only [Re.Match]) (fun _ _ => by simp only [Re.Match])
    · simp only [MState.up, MState.setCap, MState.mk.injEq, true_and]
      funext i
      split <;> rfl
    · intro i b e hc
      simp only [MState.setCap] at hc ⊢
      split at hc
      · cases hc; exact Nat.le_refl _
      · exact hr _ _ _ hc
  | .bref id, _ => (Embeds.again (w := w) id).congr (fun _ _ => by simp only [Re.Match]) (fun _ _ => by simp only [Re.Match])
  | .brefName n, _ => (Embeds.exists (p := fun id => E.number n = some id) (fun id => Embeds.again (w := w) id)).congr
      (fun _ _ => by simp only [Re.Match]) (fun _ _ => by simp only [Re.Match])
  | .atomic l, h => by
    have hl := innerList_all E l (by simpa [Re.inner] using h)
    exact (hl.after resetTo (fun _ _ => rfl) (fun _ _ => rfl) (fun σ ρ _ h _ => h)).congr
      (fun _ _ => by simp only [Re.Match]; rfl) (fun _ _ => by simp only [Re.Match]; rfl)
  | .mode m, _ => by
    have := (Embeds.skip (u := u) (v := v)).after (fun _ ρ => ρ.setMode m) (fun _ ρ => by cases m <;> rfl) (fun _ ρ => by cases m <;> rfl)
      (fun σ ρ _ h _ => by cases m <;> exact h)
    exact this.congr (fun σ τ => by simp only [Re.Match]; exact ⟨fun h => ⟨σ, rfl, h⟩, by rintro ⟨_, rfl, h⟩; exact h⟩)
      (fun σ τ => by simp only [Re.Match]; exact ⟨fun h => ⟨σ, rfl, h⟩, by rintro ⟨_, rfl, h⟩; exact h⟩)
  | .ahead _ _, h | .behind _ _, h | .boundary _, h | .notBoundary _, h | .sBegin, h | .sEnd, h | .sEndLine, h
  | .lBegin, h | .lEnd, h => by cases h

theorem innerList_all (E : Env) : (l : List Re) → innerList l = true →
    Embeds u v (MatchAll E l v) (MatchAll E l (u ++ v ++ w))
  | [], _ => Embeds.skip.congr (fun _ _ => by simp only [MatchAll]) (fun _ _ => by simp only [MatchAll])
  | r :: l, h => by
    simp only [innerList, Bool.and_eq_true] at h
    exact ((Re.embeds E r h.1).comp (innerList_all E l h.2)).congr (fun _ _ => by simp only [MatchAll])
      (fun _ _ => by simp only [MatchAll])

theorem innerList_any (E : Env) : (l : List Re) → innerList l = true →
    Embeds u v (MatchAny E l v) (MatchAny E l (u ++ v ++ w))
  | [], _ => Embeds.never.congr (fun _ _ => by simp only [MatchAny]) (fun _ _ => by simp only [MatchAny])
  | r :: l, h => by
    simp only [innerList, Bool.and_eq_true] at h
    exact ((Re.embeds E r h.1).or (innerList_any E l h.2)).congr (fun _ _ => by simp only [MatchAny])
      (fun _ _ => by simp only [MatchAny])
end

theorem start_fit (p : Nat) (f : Flags) : (MState.start p f).Fit := by
  intro id b e h
  cases h

theorem start_up (p k : Nat) (f : Flags) : (MState.start p f).up k = MState.start (p + k) f := rfl

end
end Ctre
