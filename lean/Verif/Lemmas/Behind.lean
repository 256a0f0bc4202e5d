import Verif.Spec.Behind
import Verif.Model.Rotate
import Verif.Lemmas.Refine
import Verif.Lemmas.Runs
import Verif.Lemmas.Terminates
import Verif.Lemmas.Safe

/-
Mirrored patterns on the reversed subject.
-/
namespace Ctre

variable {E : Env}

/-- A plain pattern only moves the position, forward and inside the subject. -/
theorem backward_match {r : Re} : r.backward = true → ∀ {s : List Ch} {σ τ : MState}, r.Match E s σ τ → σ.pos ≤ s.length →
    τ = { σ with pos := τ.pos } ∧ σ.pos ≤ τ.pos ∧ τ.pos ≤ s.length := by
  induction r using Re.rec (motive_2 := fun l => backwardAll l = true → ∀ {s : List Ch} {σ τ : MState}, σ.pos ≤ s.length →
    (MatchAll E l s σ τ → τ = { σ with pos := τ.pos } ∧ σ.pos ≤ τ.pos ∧ τ.pos ≤ s.length) ∧
    (MatchAny E l s σ τ → τ = { σ with pos := τ.pos } ∧ σ.pos ≤ τ.pos ∧ τ.pos ≤ s.length)) with
  | cc c =>
    intro _ s σ τ h hp
    simp only [Re.Match, inClass] at h
    obtain ⟨⟨v, hv, _⟩, rfl⟩ := h
    have := (List.getElem?_eq_some_iff.1 hv).1
    exact ⟨rfl, by simp, by simp; omega⟩
  | any =>
    intro _ s σ τ h hp
    simp only [Re.Match] at h
    obtain ⟨h1, _, rfl⟩ := h
    exact ⟨rfl, by simp, by simp; omega⟩
  | str cs =>
    intro _ s σ τ h hp
    simp only [Re.Match] at h
    obtain ⟨h1, rfl⟩ := h
    refine ⟨rfl, by simp, ?_⟩
    simp only
    cases hc : cs.length with
    | zero => omega
    | succ k =>
      obtain ⟨v, hv, _⟩ := h1 k (by omega)
      have := (List.getElem?_eq_some_iff.1 hv).1
      omega
  | sel l ih =>
    intro hr s σ τ h hp
    simp only [Re.backward] at hr
    simp only [Re.Match] at h
    exact (ih hr hp).2 h
  | seq l ih =>
    intro hr s σ τ h hp
    simp only [Re.backward, Bool.and_eq_true] at hr
    simp only [Re.Match] at h
    exact (ih hr.2 hp).1 h
  | empty =>
    intro _ s σ τ h hp
    simp only [Re.Match] at h
    subst h; exact ⟨rfl, Nat.le_refl _, hp⟩
  | reject => intro _ s σ τ h hp; simp [Re.Match] at h
  | boundary c | notBoundary c =>
    intro _ s σ τ h hp
    simp only [Re.Match] at h
    obtain ⟨_, rfl⟩ := h
    exact ⟨rfl, Nat.le_refl _, hp⟩
  | nil =>
    rename_i hr s σ τ hp
    constructor
    · intro h; simp only [MatchAll] at h; subst h; exact ⟨rfl, Nat.le_refl _, hp⟩
    · intro h; simp [MatchAny] at h
  | cons r l ih1 ih2 =>
    rename_i hr s σ τ hp
    simp only [backwardAll, Bool.and_eq_true] at hr
    constructor
    · intro h
      simp only [MatchAll] at h
      obtain ⟨ρ, h1, h2⟩ := h
      obtain ⟨e1, e2, e3⟩ := ih1 hr.1 h1 hp
      obtain ⟨d1, d2, d3⟩ := (ih2 hr.2 e3).1 h2
      refine ⟨?_, by omega, d3⟩
      rw [d1, e1]
    · intro h
      simp only [MatchAny] at h
      rcases h with h | h
      · exact ih1 hr.1 h hp
      · exact (ih2 hr.2 hp).2 h
  | _ => intro hr; simp [Re.backward] at hr

theorem backwardAll_match {l : List Re} (hl : backwardAll l = true) {s : List Ch} {σ τ : MState} (h : MatchAll E l s σ τ)
    (hp : σ.pos ≤ s.length) : τ = { σ with pos := τ.pos } ∧ σ.pos ≤ τ.pos ∧ τ.pos ≤ s.length := by
  cases l with
  | nil => simp only [MatchAll] at h; subst h; exact ⟨rfl, Nat.le_refl _, hp⟩
  | cons r l =>
    have : (Re.seq (r :: l)).backward = true := by simpa [Re.backward] using hl
    exact backward_match this (by simpa only [Re.Match] using h) hp

/-- Match from one position to another. -/
def Span (E : Env) (r : Re) (s : List Ch) (f : Flags) (b e : Nat) : Prop := r.Match E s (.start b f) (.start e f)
def SpanAll (E : Env) (l : List Re) (s : List Ch) (f : Flags) (b e : Nat) : Prop := MatchAll E l s (.start b f) (.start e f)

theorem start_pos {f : Flags} {b e : Nat} : ({ MState.start b f with pos := e } : MState) = .start e f := rfl

theorem start_inj {f : Flags} {b e : Nat} (h : MState.start b f = .start e f) : b = e := by
  have := congrArg MState.pos h; exact this

theorem SpanAll_nil {s : List Ch} {f : Flags} {b e : Nat} : SpanAll E [] s f b e ↔ b = e := by
  simp only [SpanAll, MatchAll]
  exact ⟨fun h => (start_inj h).symm, fun h => by rw [h]⟩

theorem SpanAll_cons {r : Re} {l : List Re} (hr : r.backward = true) {s : List Ch} {f : Flags} {b e : Nat} (hb : b ≤ s.length) :
    SpanAll E (r :: l) s f b e ↔ ∃ m, b ≤ m ∧ m ≤ s.length ∧ Span E r s f b m ∧ SpanAll E l s f m e := by
  simp only [SpanAll, MatchAll, Span]
  constructor
  · rintro ⟨ρ, h1, h2⟩
    obtain ⟨e1, e2, e3⟩ := backward_match hr h1 hb
    rw [start_pos] at e1
    rw [e1] at h1 h2
    exact ⟨ρ.pos, e2, e3, h1, h2⟩
  · rintro ⟨m, _, _, h1, h2⟩; exact ⟨_, h1, h2⟩

theorem SpanAll_append {l l' : List Re} (hl : backwardAll l = true) {s : List Ch} {f : Flags} {b e : Nat} (hb : b ≤ s.length) :
    SpanAll E (l ++ l') s f b e ↔ ∃ m, b ≤ m ∧ m ≤ s.length ∧ SpanAll E l s f b m ∧ SpanAll E l' s f m e := by
  induction l generalizing b with
  | nil =>
    constructor
    · intro h; exact ⟨b, Nat.le_refl _, hb, SpanAll_nil.2 rfl, h⟩
    · rintro ⟨m, _, _, h1, h2⟩; rw [SpanAll_nil.1 h1]; exact h2
  | cons r l ih =>
    simp only [backwardAll, Bool.and_eq_true] at hl
    rw [List.cons_append, SpanAll_cons hl.1 hb]
    constructor
    · rintro ⟨m, h1, h2, h3, h4⟩
      obtain ⟨k, h5, h6, h7, h8⟩ := (ih hl.2 h2).1 h4
      exact ⟨k, by omega, h6, (SpanAll_cons hl.1 hb).2 ⟨m, h1, h2, h3, h7⟩, h8⟩
    · rintro ⟨k, h5, h6, h7, h8⟩
      obtain ⟨m, h1, h2, h3, h4⟩ := (SpanAll_cons hl.1 hb).1 h7
      have := backwardAll_match hl.2 h4 h2
      exact ⟨m, h1, h2, h3, (ih hl.2 h2).2 ⟨k, this.2.1, h6, h4, h8⟩⟩

theorem rev_get {s : List Ch} {i : Nat} (h : i < s.length) : s.reverse[s.length - 1 - i]? = s[i]? := by
  rw [List.getElem?_reverse (by omega)]
  congr 1; omega

theorem inClass_rev {U : Uni} {ci : Bool} {s : List Ch} {i : Nat} {c : CC} (h : i < s.length) :
    inClass U ci s.reverse (s.length - 1 - i) c ↔ inClass U ci s i c := by
  unfold inClass; rw [rev_get h]

theorem inClass_lt {U : Uni} {ci : Bool} {s : List Ch} {i : Nat} {c : CC} (h : inClass U ci s i c) : i < s.length := by
  obtain ⟨v, hv, _⟩ := h
  exact (List.getElem?_eq_some_iff.1 hv).1

theorem atBoundary_rev {U : Uni} {ci : Bool} {s : List Ch} {p : Nat} {c : CC} (h : p ≤ s.length) :
    atBoundary U ci s.reverse (s.length - p) c ↔ atBoundary U ci s p c := by
  unfold atBoundary
  have h1 : (0 < s.length - p ∧ inClass U ci s.reverse (s.length - p - 1) c) ↔ inClass U ci s p c := by
    constructor
    · rintro ⟨h1, h2⟩
      rw [show s.length - p - 1 = s.length - 1 - p by omega] at h2
      exact (inClass_rev (by omega)).1 h2
    · intro h1
      have := inClass_lt h1
      refine ⟨by omega, ?_⟩
      rw [show s.length - p - 1 = s.length - 1 - p by omega]
      exact (inClass_rev this).2 h1
  have h2 : inClass U ci s.reverse (s.length - p) c ↔ (0 < p ∧ inClass U ci s (p - 1) c) := by
    constructor
    · intro h1
      have := inClass_lt h1
      rw [List.length_reverse] at this
      refine ⟨by omega, ?_⟩
      rw [show s.length - p = s.length - 1 - (p - 1) by omega] at h1
      exact (inClass_rev (by omega)).1 h1
    · rintro ⟨h1, h2⟩
      rw [show s.length - p = s.length - 1 - (p - 1) by omega]
      exact (inClass_rev (by omega)).2 h2
  rw [h1, h2]
  exact not_congr Iff.comm

/-- The mirrored pattern matches the mirrored stretch. -/
theorem rotate_span {r : Re} : r.backward = true → ∀ r', r.rotate = some r' → r'.backward = true ∧
    ∀ {s : List Ch} {f : Flags} {b e : Nat}, b ≤ e → e ≤ s.length →
    (Span E r' s.reverse f (s.length - e) (s.length - b) ↔ Span E r s f b e) := by
  induction r using Re.rec (motive_2 := fun l => backwardAll l = true → ∀ l', rotateList l = some l' → backwardAll l' = true ∧
    l'.length = l.length ∧
    ∀ {s : List Ch} {f : Flags} {b e : Nat}, b ≤ e → e ≤ s.length →
    (SpanAll E l'.reverse s.reverse f (s.length - e) (s.length - b) ↔ SpanAll E l s f b e) ∧
    (MatchAny E l' s.reverse (.start (s.length - e) f) (.start (s.length - b) f) ↔ MatchAny E l s (.start b f) (.start e f))) with
  | cc c =>
    intro _ r' h
    simp only [Re.rotate, Option.some.injEq] at h
    subst h
    refine ⟨rfl, ?_⟩
    intro s f b e hbe hes
    simp only [Span, Re.Match, MState.start]
    constructor
    · rintro ⟨h1, h2⟩
      have h2 := congrArg MState.pos h2
      simp only at h2
      have := inClass_lt h1
      rw [List.length_reverse] at this
      rw [show s.length - e = s.length - 1 - b by omega] at h1
      exact ⟨(inClass_rev (by omega)).1 h1, by rw [show e = b + 1 by omega]⟩
    · rintro ⟨h1, h2⟩
      have h2 := congrArg MState.pos h2
      simp only at h2
      refine ⟨?_, by rw [show s.length - b = s.length - e + 1 by omega]⟩
      rw [show s.length - e = s.length - 1 - b by omega]
      exact (inClass_rev (by omega)).2 h1
  | any =>
    intro _ r' h
    simp only [Re.rotate, Option.some.injEq] at h
    subst h
    refine ⟨rfl, ?_⟩
    intro s f b e hbe hes
    simp only [Span, Re.Match, MState.start, newlineAt, List.length_reverse]
    constructor
    · rintro ⟨h1, h2, h3⟩
      have h3 := congrArg MState.pos h3
      simp only at h3
      rw [show s.length - e = s.length - 1 - b by omega, rev_get (by omega)] at h2
      exact ⟨by omega, h2, by rw [show e = b + 1 by omega]⟩
    · rintro ⟨h1, h2, h3⟩
      have h3 := congrArg MState.pos h3
      simp only at h3
      refine ⟨by omega, ?_, by rw [show s.length - b = s.length - e + 1 by omega]⟩
      rw [show s.length - e = s.length - 1 - b by omega, rev_get (by omega)]
      exact h2
  | str cs =>
    intro _ r' h
    simp only [Re.rotate, Option.some.injEq] at h
    subst h
    refine ⟨rfl, ?_⟩
    intro s f b e hbe hes
    simp only [Span, Re.Match, MState.start, List.length_reverse]
    constructor
    · rintro ⟨h1, h2⟩
      have h2 := congrArg MState.pos h2
      simp only at h2
      refine ⟨?_, by rw [show e = b + cs.length by omega]⟩
      intro i hi
      have := h1 (cs.length - 1 - i) (by omega)
      rw [List.getElem_reverse] at this
      rw [show s.length - e + (cs.length - 1 - i) = s.length - 1 - (b + i) by omega] at this
      have := (inClass_rev (by omega)).1 this
      simpa only [show cs.length - 1 - (cs.length - 1 - i) = i by omega] using this
    · rintro ⟨h1, h2⟩
      have h2 := congrArg MState.pos h2
      simp only at h2
      refine ⟨?_, by rw [show s.length - b = s.length - e + cs.length by omega]⟩
      intro i hi
      have := h1 (cs.length - 1 - i) (by omega)
      rw [List.getElem_reverse]
      rw [show s.length - e + i = s.length - 1 - (b + (cs.length - 1 - i)) by omega]
      exact (inClass_rev (by omega)).2 this
  | sel l ih =>
    intro hr r' h
    simp only [Re.backward] at hr
    simp only [Re.rotate, Option.map_eq_some_iff] at h
    obtain ⟨l', h, rfl⟩ := h
    obtain ⟨h1, _, h2⟩ := ih hr l' h
    refine ⟨h1, ?_⟩
    intro s f b e hbe hes
    simp only [Span, Re.Match]
    exact (h2 hbe hes).2
  | seq l ih =>
    intro hr r' h
    simp only [Re.backward, Bool.and_eq_true] at hr
    simp only [Re.rotate, Option.map_eq_some_iff] at h
    obtain ⟨l', h, rfl⟩ := h
    obtain ⟨h1, h3, h2⟩ := ih hr.2 l' h
    constructor
    · simp only [Re.backward, Bool.and_eq_true]
      constructor
      · cases l' with
        | nil => cases l <;> simp_all
        | cons => simp
      · clear h h2 h3 ih
        have : ∀ l : List Re, backwardAll l = true ↔ ∀ r ∈ l, r.backward = true := by
          intro l; induction l with
          | nil => simp [backwardAll]
          | cons r l ih => simp [backwardAll, ih]
        rw [this] at *
        simpa using h1
    · intro s f b e hbe hes
      simp only [Span, Re.Match]
      exact (h2 hbe hes).1
  | empty =>
    intro _ r' h
    simp only [Re.rotate, Option.some.injEq] at h
    subst h
    refine ⟨rfl, ?_⟩
    intro s f b e hbe hes
    simp only [Span, Re.Match]
    constructor
    · intro h; have := start_inj h; rw [show b = e by omega]
    · intro h; rw [start_inj h]
  | reject own =>
    intro _ r' h
    cases own <;> simp only [Re.rotate, Option.some.injEq, reduceCtorEq] at h
    subst h
    exact ⟨rfl, fun _ _ => Iff.rfl⟩
  | boundary c =>
    intro _ r' h
    simp only [Re.rotate, Option.some.injEq] at h
    subst h
    refine ⟨rfl, ?_⟩
    intro s f b e hbe hes
    simp only [Span, Re.Match, Holds, MState.start]
    constructor
    · rintro ⟨h1, h2⟩
      have := congrArg MState.pos h2
      simp only at this
      obtain rfl : b = e := by omega
      exact ⟨(atBoundary_rev hes).1 h1, rfl⟩
    · rintro ⟨h1, h2⟩
      have := congrArg MState.pos h2
      simp only at this
      subst this
      exact ⟨(atBoundary_rev hes).2 h1, rfl⟩
  | notBoundary c =>
    intro _ r' h
    simp only [Re.rotate, Option.some.injEq] at h
    subst h
    refine ⟨rfl, ?_⟩
    intro s f b e hbe hes
    simp only [Span, Re.Match, Holds, MState.start]
    constructor
    · rintro ⟨h1, h2⟩
      have := congrArg MState.pos h2
      simp only at this
      obtain rfl : b = e := by omega
      exact ⟨fun h => h1 ((atBoundary_rev hes).2 h), rfl⟩
    · rintro ⟨h1, h2⟩
      have := congrArg MState.pos h2
      simp only at this
      subst this
      exact ⟨fun h => h1 ((atBoundary_rev hes).1 h), rfl⟩
  | nil =>
    rename_i l' h
    simp only [rotateList, Option.some.injEq] at h
    subst h
    refine ⟨rfl, rfl, ?_⟩
    intro s f b e hbe hes
    constructor
    · rw [List.reverse_nil, SpanAll_nil, SpanAll_nil]; omega
    · simp only [MatchAny]
  | cons r l ih1 ih2 =>
    rename_i hr l'' h
    simp only [backwardAll, Bool.and_eq_true] at hr
    unfold rotateList at h
    cases h1 : r.rotate with
    | none => simp [h1] at h
    | some r' =>
      rw [h1] at h
      simp only [Option.map_eq_some_iff] at h
      obtain ⟨l', h2, rfl⟩ := h
      obtain ⟨a1, a2⟩ := ih1 hr.1 r' h1
      obtain ⟨b1, b2, b3⟩ := ih2 hr.2 l' h2
      refine ⟨by simp [backwardAll, a1, b1], by simp [b2], ?_⟩
      intro s f b e hbe hes
      constructor
      · have hpl : backwardAll l'.reverse = true := by
          have : ∀ l : List Re, backwardAll l = true ↔ ∀ r ∈ l, r.backward = true := by
            intro l; induction l with
            | nil => simp [backwardAll]
            | cons r l ih => simp [backwardAll, ih]
          rw [this] at b1 ⊢
          simpa using b1
        rw [List.reverse_cons, SpanAll_append hpl (by rw [List.length_reverse]; omega), SpanAll_cons hr.1 (by omega)]
        constructor
        · rintro ⟨m, h1, h2, h3, h4⟩
          rw [List.length_reverse] at h2
          rw [SpanAll_cons a1 (by rw [List.length_reverse]; omega)] at h4
          obtain ⟨k, h5, h6, h7, h8⟩ := h4
          rw [SpanAll_nil] at h8
          subst h8
          refine ⟨s.length - m, by omega, by omega, ?_, ?_⟩
          · apply (a2 (by omega) (by omega)).1
            rwa [show s.length - (s.length - m) = m by omega]
          · apply (b3 (by omega) (by omega)).1.1
            rwa [show s.length - (s.length - m) = m by omega]
        · rintro ⟨m, h1, h2, h3, h4⟩
          have hme := (backwardAll_match hr.2 h4 h2).2.1
          simp only [MState.start] at hme
          refine ⟨s.length - m, by omega, by rw [List.length_reverse]; omega, (b3 hme hes).1.2 h4, ?_⟩
          rw [SpanAll_cons a1 (by rw [List.length_reverse]; omega)]
          exact ⟨s.length - b, by omega, by rw [List.length_reverse]; omega, (a2 h1 h2).2 h3, SpanAll_nil.2 rfl⟩
      · simp only [MatchAny]
        exact or_congr (a2 hbe hes) (b3 hbe hes).2
  | _ => intro hr; simp [Re.backward] at hr

theorem backwardAll_iff {l : List Re} : backwardAll l = true ↔ ∀ r ∈ l, r.backward = true := by
  induction l with
  | nil => simp [backwardAll]
  | cons r l ih => simp [backwardAll, ih]

/-- The state of the specification for a state of the machine. -/
def SSt.toM (x : SSt) : MState := ⟨x.pos, x.ml, x.ci, fun _ => none⟩

/-- The two relational meanings agree on plain patterns. -/
theorem backward_sem {r : Re} : r.backward = true → ∀ {s : List Ch} {x y : SSt}, x.pos ≤ s.length →
    (r.Sem E.uni s x y ↔ y = { x with pos := y.pos } ∧ r.Match E s x.toM { x.toM with pos := y.pos }) := by
  induction r using Re.rec (motive_2 := fun l => backwardAll l = true → ∀ (s : List Ch) (x y : SSt), x.pos ≤ s.length →
    (SemSeq E.uni l s x y ↔ y = { x with pos := y.pos } ∧ MatchAll E l s x.toM { x.toM with pos := y.pos }) ∧
    (SemSel E.uni l s x y ↔ y = { x with pos := y.pos } ∧ MatchAny E l s x.toM { x.toM with pos := y.pos })) with
  | cc c =>
    intro _ s x y hx
    simp only [Re.Sem, Re.Match, inClass, SSt.toM]
    constructor
    · rintro ⟨v, h1, h2, rfl⟩; exact ⟨rfl, ⟨v, h1, h2⟩, rfl⟩
    · rintro ⟨h, ⟨v, h1, h2⟩, h3⟩
      have := congrArg MState.pos h3
      simp only at this
      exact ⟨v, h1, h2, by rw [h, this]⟩
  | any =>
    intro _ s x y hx
    simp only [Re.Sem, Re.Match, newlineAt, SSt.toM]
    constructor
    · rintro ⟨v, h1, h2, rfl⟩
      refine ⟨rfl, (List.getElem?_eq_some_iff.1 h1).1, ?_, rfl⟩
      rintro ⟨h3, h4⟩
      rw [h1] at h4
      exact h2 h3 (Option.some.inj h4)
    · rintro ⟨h, h1, h2, h3⟩
      have := congrArg MState.pos h3
      simp only at this
      refine ⟨s[x.pos], List.getElem?_eq_getElem h1, ?_, by rw [h, this]⟩
      intro h4 h5
      exact h2 ⟨h4, by rw [List.getElem?_eq_getElem h1, h5]⟩
  | str cs =>
    intro _ s x y hx
    simp only [Re.Sem, Re.Match, SSt.toM]
    constructor
    · rintro ⟨p, h1, rfl⟩
      obtain ⟨h2, h3⟩ := (matchString_iff (U := E.uni)).1 h1
      exact ⟨rfl, h3, by rw [h2]⟩
    · rintro ⟨h, h1, h3⟩
      have := congrArg MState.pos h3
      simp only at this
      exact ⟨y.pos, (matchString_iff (U := E.uni)).2 ⟨this, h1⟩, h⟩
  | sel l ih =>
    intro hr s x y hx
    simp only [Re.backward] at hr
    simp only [Re.Sem, Re.Match]
    exact (ih hr s x y hx).2
  | seq l ih =>
    intro hr s x y hx
    simp only [Re.backward, Bool.and_eq_true] at hr
    simp only [Re.Sem, Re.Match]
    exact (ih hr.2 s x y hx).1
  | empty =>
    intro _ s x y hx
    simp only [Re.Sem, Re.Match, SSt.toM]
    constructor
    · rintro rfl; exact ⟨rfl, rfl⟩
    · rintro ⟨h, h3⟩
      have := congrArg MState.pos h3
      simp only at this
      rw [h, this]
  | reject => intro _ s x y hx; simp [Re.Sem, Re.Match]
  | boundary c | notBoundary c =>
    intro _ s x y hx
    simp only [Re.Sem, Re.Match]
    have ht := fun r => testAt_iff (U := E.uni) (σ := x.toM) (f := x.flags) (r := r) (s := s) hx rfl rfl
    have ht' : ∀ r, testAt E.uni s x.pos x.flags r = .yes ↔ Holds E.uni s x.toM r := ht
    rw [ht']
    constructor
    · rintro ⟨h, rfl⟩; exact ⟨rfl, h, rfl⟩
    · rintro ⟨h, h1, h3⟩
      have := congrArg MState.pos h3
      simp only [SSt.toM] at this
      exact ⟨h1, by rw [h, this]⟩
  | nil =>
    rename_i hr s x y hx
    simp only [SemSeq, MatchAll, SemSel, MatchAny, and_false, iff_self, and_true, SSt.toM]
    constructor
    · rintro rfl; exact ⟨rfl, rfl⟩
    · rintro ⟨h, h3⟩
      have := congrArg MState.pos h3
      simp only at this
      rw [h, this]
  | cons r l ih1 ih2 =>
    rename_i hr s x y hx
    simp only [backwardAll, Bool.and_eq_true] at hr
    constructor
    · simp only [SemSeq, MatchAll]
      constructor
      · rintro ⟨z, h1, h2⟩
        obtain ⟨e1, e2⟩ := (ih1 hr.1 hx).1 h1
        have hz := (backward_match hr.1 e2 hx).2.2
        simp only at hz
        obtain ⟨d1, d2⟩ := (ih2 hr.2 s z y hz).1.1 h2
        refine ⟨by rw [d1, e1], _, e2, ?_⟩
        have : z.toM = { x.toM with pos := z.pos } := by rw [e1]; rfl
        rwa [this] at d2
      · rintro ⟨h, ρ, h1, h2⟩
        obtain ⟨e1, e2, e3⟩ := backward_match hr.1 h1 hx
        refine ⟨{ x with pos := ρ.pos }, (ih1 hr.1 hx).2 ⟨rfl, ?_⟩, (ih2 hr.2 s _ y e3).1.2 ⟨?_, ?_⟩⟩
        · rwa [e1] at h1
        · rw [h]
        · rw [e1] at h2; exact h2
    · simp only [SemSel, MatchAny]
      rw [ih1 hr.1 hx, (ih2 hr.2 s x y hx).2, ← and_or_left]
  | _ => intro hr; simp [Re.backward] at hr

theorem backwardAll_sem {l : List Re} (hl : backwardAll l = true) {s : List Ch} {x y : SSt} (hx : x.pos ≤ s.length) :
    SemSeq E.uni l s x y ↔ y = { x with pos := y.pos } ∧ MatchAll E l s x.toM { x.toM with pos := y.pos } := by
  cases l with
  | nil =>
    simp only [SemSeq, MatchAll, SSt.toM]
    constructor
    · rintro rfl; exact ⟨rfl, rfl⟩
    · rintro ⟨h, h3⟩
      have := congrArg MState.pos h3
      simp only at this
      rw [h, this]
  | cons r l =>
    have h : (Re.seq (r :: l)).backward = true := by simpa [Re.backward] using hl
    simpa only [Re.Sem, Re.Match] using backward_sem (E := E) h hx (y := y)

/-- Plain stacks: only plain patterns before the end of a lookbehind. -/
def backwardSt : Stack → Bool
  | [.endBehind] => true
  | .re r :: t => r.backward && backwardSt t
  | _ => false

/-- Plain patterns run in every mode and leave the captures alone. -/
theorem eval_backward (C : Cfg) : ∀ n s lb cur f c st, cur ≤ s.length → backwardSt st = true →
    eval C n s lb cur f c st = .timeout ∨ eval C n s lb cur f c st = .fail ∨ eval C n s lb cur f c st = .ok c.setMatched := by
  intro n
  induction n with
  | zero => intros; exact .inl rfl
  | succ n ih =>
    intro s lb cur f c st hcur hst
    rcases st with _ | ⟨it, t⟩
    · simp [backwardSt] at hst
    · cases it with
      | endBehind =>
        cases t with
        | nil => rw [eval_endBehind]; exact .inr (.inr rfl)
        | cons => simp [backwardSt] at hst
      | re r =>
        simp only [backwardSt, Bool.and_eq_true] at hst
        have ht : ∀ p f, p ≤ s.length → _ := fun p f hp => ih s lb p f c t hp hst.2
        have fail : ∀ {o : Out}, o = .fail → o = .timeout ∨ o = .fail ∨ o = .ok c.setMatched := fun h => .inr (.inl h)
        cases r with
        | cc cl =>
          rw [eval_cc]
          split
          · exact fail rfl
          · rw [List.getElem?_eq_getElem (by omega)]
            dsimp only
            split
            · exact ht _ _ (by omega)
            · exact fail rfl
        | any =>
          rw [eval_any]
          split
          · exact fail rfl
          · split
            · rw [List.getElem?_eq_getElem (by omega)]
              dsimp only
              split
              · exact fail rfl
              · exact ht _ _ (by omega)
            · exact ht _ _ (by omega)
        | str cs =>
          rw [eval_str]
          cases h : matchString f.ci s cs cur with
          | ub => exact (matchString_safe hcur h).elim
          | no => exact fail rfl
          | yes p => exact ht _ _ (matchString_cur hcur h)
        | sel l =>
          have hp := hst.1
          cases l with
          | nil => exact fail rfl
          | cons r opts =>
            simp only [Re.backward, backwardAll, Bool.and_eq_true] at hp
            rw [eval_sel_cons]
            have h1 := ih s lb cur f c (.re r :: t) hcur (by simp [backwardSt, hp, hst.2])
            have h2 := ih s lb cur f c (.re (.sel opts) :: t) hcur (by simp [backwardSt, Re.backward, hp, hst.2])
            rcases h1 with h1 | h1 | h1
            · rw [h1]; exact .inl rfl
            · rw [h1]; exact h2
            · rw [h1]; exact .inr (.inr rfl)
        | seq l =>
          have hp := hst.1
          rcases l with _ | ⟨r, _ | ⟨r', m⟩⟩
          · exact fail rfl
          · simp only [Re.backward, backwardAll, Bool.and_eq_true] at hp
            exact ih _ _ _ _ _ _ hcur (by simp [backwardSt, hp, hst.2])
          · simp only [Re.backward, backwardAll, Bool.and_eq_true] at hp
            exact ih _ _ _ _ _ _ hcur (by simp [backwardSt, Re.backward, backwardAll, hp, hst.2])
        | empty => exact ht _ _ hcur
        | reject => exact fail rfl
        | boundary cl | notBoundary cl =>
          rw [eval_test (h := rfl)]
          simp only [testAt]
          obtain ⟨x, y, h, _⟩ := boundaryAt_spec (U := C.uni) (ci := f.ci) (c := cl) hcur
          rw [h]
          cases x <;> cases y <;> first | exact ht _ _ hcur | exact fail rfl
        | _ => simp [Re.backward] at hst
      | _ => simp [backwardSt] at hst

theorem backward_cpl {C : Cfg} {sh : Shape} {r : Re} : r.backward = true → r.CplOK C sh := by
  induction r using Re.rec (motive_2 := fun l => backwardAll l = true → CplOKList C sh l) with
  | sel l ih => intro h; simp only [Re.backward] at h; simp only [Re.CplOK]; exact ih h
  | seq l ih =>
    intro h
    simp only [Re.backward, Bool.and_eq_true] at h
    simp only [Re.CplOK]
    exact ⟨by rintro rfl; simp at h, ih h.2⟩
  | nil => simp [CplOKList]
  | cons r l ih1 ih2 =>
    rename_i h
    simp only [backwardAll, Bool.and_eq_true] at h
    exact ⟨ih1 h.1, ih2 h.2⟩
  | _ => intro h; first | simp [Re.backward] at h; done | simp [Re.CplOK]

/-- A plain lookbehind content on the reversed subject: success means that there is a match. -/
theorem behind_content {C : Cfg} (hE : E.uni = C.uni) {m : List Re} (hm : backwardAll m = true) (hne : m ≠ []) {s : List Ch}
    {lb : Bool} {p : Nat} {f : Flags} {c : Caps} (hc : c.whole.matched = false) (hp : p ≤ s.length) :
    ((∃ e, SpanAll E m s f p e) → Runs C s lb p f c [.re (.seq m), .endBehind] (.ok c.setMatched)) ∧
    ((¬ ∃ e, SpanAll E m s f p e) → Runs C s lb p f c [.re (.seq m), .endBehind] .fail) := by
  have hpl : (Re.seq m).backward = true := by simp [Re.backward, hm, hne]
  have hst : backwardSt [.re (.seq m), .endBehind] = true := by simp [backwardSt, hpl]
  have hpr : progressiveSt [.re (.seq m), .endBehind] = true := by
    have : ∀ {r : Re}, r.backward = true → r.progressive = true := by
      intro r
      induction r using Re.rec (motive_2 := fun l => backwardAll l = true → progressiveAll l = true) with
      | sel l ih => intro h; simp only [Re.backward] at h; simp only [Re.progressive]; exact ih h
      | seq l ih => intro h; simp only [Re.backward, Bool.and_eq_true] at h; simp only [Re.progressive]; exact ih h.2
      | nil => rfl
      | cons r l ih1 ih2 =>
        rename_i h
        simp only [backwardAll, Bool.and_eq_true] at h
        simp [progressiveAll, ih1 h.1, ih2 h.2]
      | _ => intro h; first | simp [Re.backward] at h; done | simp [Re.progressive]
    simp [progressiveSt, this hpl]
  have hx : ∀ e, SpanAll E m s f p e ↔ SemSeq C.uni m s (sst p f c) { sst p f c with pos := e } := by
    intro e
    rw [← hE, backwardAll_sem hm (x := sst p f c) hp]
    simp only [true_and]
    rfl
  have hcpl : StkCpl C (shape c.groups) [.re (.seq m), .endBehind] := by
    intro i hi
    simp only [List.mem_cons, List.not_mem_nil, or_false] at hi
    rcases hi with rfl | rfl
    · exact backward_cpl hpl
    · trivial
  obtain ⟨n, hn⟩ : ∃ n, eval C n s lb p f c [.re (.seq m), .endBehind] ≠ .timeout :=
    ⟨_, eval_terminates C _ _ _ _ _ _ _ hp (.inr hpr) (Nat.le_refl _)⟩
  rcases eval_backward C n s lb p f c _ hp hst with h | h | h
  · exact (hn h).elim
  · constructor
    · rintro ⟨e, he⟩
      have := (snd_cpl C (shape c.groups) n).2 s lb p f c _ hp hcpl ⟨hc, rfl⟩ h { sst p f c with pos := e }
        ⟨_, by simpa only [Re.Sem] using (hx e).1 he, rfl, rfl⟩
      simp [endsCycle] at this
    · intro _; exact ⟨by simp, n, h⟩
  · constructor
    · intro _; exact ⟨by simp, n, h⟩
    · intro hno
      obtain ⟨y, hy⟩ := (snd_cpl C (shape c.groups) n).1 s lb p f c _ _ hp hcpl.snd ⟨hc, rfl⟩ h
      obtain ⟨z, h1, h2, h3⟩ := hy.sem
      simp only [Re.Sem] at h1
      have hz := ((backwardAll_sem (E := E) hm (x := sst p f c) (y := z) hp).1 (by rw [hE]; exact h1)).1
      exact (hno ⟨z.pos, (hx z.pos).2 (by rwa [← hz])⟩).elim

theorem runs_behind {C : Cfg} {pos : Bool} {m : List Re} {s : List Ch} {lb : Bool} {cur : Nat} {f : Flags} {c : Caps} {t : Stack}
    {o : Out} :
    (Runs C s.reverse true (s.length - cur) f c [.re (.seq m), .endBehind] (.ok c.setMatched) → c.whole.matched = false →
      (Runs C s lb cur f c (.re (.behind pos m) :: t) o ↔ if pos then Runs C s lb cur f c t o else o = .fail)) ∧
    (Runs C s.reverse true (s.length - cur) f c [.re (.seq m), .endBehind] .fail →
      (Runs C s lb cur f c (.re (.behind pos m) :: t) o ↔ if pos then o = .fail else Runs C s lb cur f c t o)) := by
  constructor
  · rintro ⟨_, n, hn⟩ hc
    have hu : c.setMatched.unmatch = c := by
      obtain ⟨⟨b, e, m⟩, g⟩ := c
      simp only at hc
      subst hc; rfl
    have key : ∀ k, n ≤ k → eval C (k + 1) s lb cur f c (.re (.behind pos m) :: t) =
        if pos then eval C k s lb cur f c t else .fail := by
      intro k hk
      rw [eval_behind, eval_of_le C hk hn (by simp)]
      dsimp only
      rw [hu]
    constructor
    · rintro ⟨ho, k, hk⟩
      have := eval_of_le C (show k ≤ max n k + 1 by omega) hk ho
      rw [key _ (by omega)] at this
      split
      · rename_i h; rw [if_pos h] at this; exact ⟨ho, _, this⟩
      · rename_i h; rw [if_neg h] at this; exact this.symm
    · intro h
      split at h
      · rename_i hp
        obtain ⟨ho, k, hk⟩ := h
        refine ⟨ho, max n k + 1, ?_⟩
        rw [key _ (by omega), if_pos hp]
        exact eval_of_le C (by omega) hk ho
      · rename_i hp
        subst h
        exact ⟨by simp, n + 1, by rw [key _ (by omega), if_neg hp]⟩
  · rintro ⟨_, n, hn⟩
    have key : ∀ k, n ≤ k → eval C (k + 1) s lb cur f c (.re (.behind pos m) :: t) =
        if pos then .fail else eval C k s lb cur f c t := by
      intro k hk
      rw [eval_behind, eval_of_le C hk hn (by simp)]
    constructor
    · rintro ⟨ho, k, hk⟩
      have := eval_of_le C (show k ≤ max n k + 1 by omega) hk ho
      rw [key _ (by omega)] at this
      split
      · rename_i h; rw [if_pos h] at this; exact this.symm
      · rename_i h; rw [if_neg h] at this; exact ⟨ho, _, this⟩
    · intro h
      split at h
      · rename_i hp
        subst h
        exact ⟨by simp, n + 1, by rw [key _ (by omega), if_pos hp]⟩
      · rename_i hp
        obtain ⟨ho, k, hk⟩ := h
        refine ⟨ho, max n k + 1, ?_⟩
        rw [key _ (by omega), if_neg hp]
        exact eval_of_le C (by omega) hk ho

end Ctre
