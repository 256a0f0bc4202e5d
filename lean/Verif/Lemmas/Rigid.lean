import Verif.Spec.Rigid
import Verif.Spec.Unambiguous
import Verif.Lemmas.Unambiguous

/-
The decidable class satisfies the semantic conditions.
-/
namespace Ctre

theorem matchCharacter_fold {ci : Bool} {v : Int} {c d : Nat} (h1 : matchCharacter ci v c = true)
    (h2 : matchCharacter ci v d = true) : foldCase c = foldCase d := by
  have key : ∀ c, matchCharacter ci v c = true → (c ≤ 127 ∧ 0 ≤ v ∧ foldCase v.toNat = foldCase c ∧ v ≤ 127) ∨
      (127 < c ∧ toU32 v = c) := by
    intro c h
    simp only [matchCharacter, Bool.or_eq_true, Bool.and_eq_true] at h
    rcases h with ⟨⟨h1, _⟩, h2⟩ | h
    · left
      simp only [isAlpha, isLower, isUpper, Bool.or_eq_true, Bool.and_eq_true, decide_eq_true_eq] at h1
      have hx : ∀ c : Nat, c < 128 → ((97 ≤ c ∧ c ≤ 122) → Nat.xor c 0x20 = c - 32) ∧ ((65 ≤ c ∧ c ≤ 90) → Nat.xor c 0x20 = c + 32) := by
        decide
      have hx := hx c (by omega)
      rcases h1 with h1 | h1
      · rw [hx.1 h1] at h2
        simp only [eqConst] at h2
        rw [if_pos (by omega)] at h2
        simp only [beq_iff_eq] at h2
        have h2 : v = ((c - 32 : Nat) : Int) := h2
        have : v.toNat = c - 32 := by omega
        refine ⟨by omega, by omega, ?_, by omega⟩
        rw [this]
        simp only [foldCase, isUpper, Bool.and_eq_true, decide_eq_true_eq]
        rw [if_pos (by omega), if_neg (by omega)]
        omega
      · rw [hx.2 h1] at h2
        simp only [eqConst] at h2
        rw [if_pos (by omega)] at h2
        simp only [beq_iff_eq] at h2
        have h2 : v = ((c + 32 : Nat) : Int) := h2
        have : v.toNat = c + 32 := by omega
        refine ⟨by omega, by omega, ?_, by omega⟩
        rw [this]
        simp only [foldCase, isUpper, Bool.and_eq_true, decide_eq_true_eq]
        rw [if_neg (by omega), if_pos (by omega)]
    · simp only [eqConst] at h
      split at h
      · simp only [beq_iff_eq] at h
        left
        have h : v = (c : Int) := h
        have : v.toNat = c := by omega
        exact ⟨by omega, by omega, by rw [this], by omega⟩
      · simp only [beq_iff_eq] at h
        exact .inr ⟨by omega, h⟩
  have hu : ∀ c, 127 < c → foldCase c = c := by
    intro c hc
    simp only [foldCase, isUpper, Bool.and_eq_true, decide_eq_true_eq]
    split
    · omega
    · rfl
  rcases key c h1 with ⟨_, h3, h4, h4'⟩ | ⟨h3, h4⟩
  · rcases key d h2 with ⟨_, _, h6, _⟩ | ⟨h5, h6⟩
    · rw [← h4, h6]
    · unfold toU32 at h6; omega
  · rcases key d h2 with ⟨_, h5, h6, h6'⟩ | ⟨h5, h6⟩
    · unfold toU32 at h4; omega
    · rw [← h4, h6]

theorem apart_spec {H K : List Nat} (h : apart H K = true) {ci : Bool} {v : Ch}
    (h1 : H.any (matchCharacter ci v) = true) (h2 : K.any (matchCharacter ci v) = true) : False := by
  simp only [List.any_eq_true] at h1 h2
  obtain ⟨c, hc, h1⟩ := h1
  obtain ⟨d, hd, h2⟩ := h2
  simp only [apart, List.all_eq_true, bne_iff_ne, ne_eq] at h
  exact h c hc d hd (matchCharacter_fold h1 h2)

/-- The first character belongs to `H`. -/
def HeadIn (s : List Ch) (σ : MState) (H : List Nat) : Prop :=
  ∃ v, s[σ.pos]? = some v ∧ H.any (matchCharacter σ.caseless v) = true

mutual
theorem Re.heads_spec {E : Env} {s : List Ch} : ∀ {r : Re} {H : List Nat} {σ τ : MState}, r.heads = some H →
    r.Match E s σ τ → HeadIn s σ H
  | .cc (.chr c), H, σ, τ, hh, h => by
    simp only [Re.heads, Option.some.injEq] at hh
    subst hh
    simp only [Re.Match, inClass] at h
    obtain ⟨⟨v, h1, h2⟩, _⟩ := h
    exact ⟨v, h1, by simpa [CC.matchChar] using h2⟩
  | .cc (.enum cs), H, σ, τ, hh, h => by
    simp only [Re.heads, Option.some.injEq] at hh
    subst hh
    simp only [Re.Match, inClass] at h
    obtain ⟨⟨v, h1, h2⟩, _⟩ := h
    exact ⟨v, h1, by simpa [CC.matchChar] using h2⟩
  | .str (c :: cs), H, σ, τ, hh, h => by
    simp only [Re.heads, Option.some.injEq] at hh
    subst hh
    simp only [Re.Match] at h
    obtain ⟨v, h1, h2⟩ := h.1 0 (by simp)
    exact ⟨v, by simpa using h1, by simpa [CC.matchChar] using h2⟩
  | .sel l, H, σ, τ, hh, h => by
    simp only [Re.heads] at hh; simp only [Re.Match] at h
    exact headsAny_spec hh h
  | .seq l, H, σ, τ, hh, h => by
    simp only [Re.heads] at hh; simp only [Re.Match] at h
    exact headsSeq_spec hh h
  | .rep _ a _ l, H, σ, τ, hh, h => by
    simp only [Re.heads] at hh; simp only [Re.Match] at h
    split at hh
    · simp at hh
    · obtain ⟨k, h1, _, h3⟩ := h
      cases h3 with
      | zero => omega
      | succ h4 _ =>
        obtain ⟨ρ, h4, _⟩ := h4
        exact headsSeq_spec hh h4
  | .cap _ _ l, H, σ, τ, hh, h => by
    simp only [Re.heads] at hh; simp only [Re.Match] at h
    obtain ⟨ρ, h, _⟩ := h
    exact headsSeq_spec hh h
  | .atomic l, H, σ, τ, hh, h => by
    simp only [Re.heads] at hh; simp only [Re.Match] at h
    obtain ⟨ρ, h, _⟩ := h
    exact headsSeq_spec hh h
  | .cc (.range _ _), H, σ, τ, hh, h | .cc (.set _), H, σ, τ, hh, h | .cc (.negSet _), H, σ, τ, hh, h
  | .cc (.negate _), H, σ, τ, hh, h | .cc (.prop _), H, σ, τ, hh, h
  | .any, H, σ, τ, hh, h | .str [], H, σ, τ, hh, h | .empty, H, σ, τ, hh, h | .bref _, H, σ, τ, hh, h
  | .brefName _, H, σ, τ, hh, h | .ahead _ _, H, σ, τ, hh, h | .behind _ _, H, σ, τ, hh, h
  | .boundary _, H, σ, τ, hh, h | .notBoundary _, H, σ, τ, hh, h | .sBegin, H, σ, τ, hh, h
  | .sEnd, H, σ, τ, hh, h | .sEndLine, H, σ, τ, hh, h | .lBegin, H, σ, τ, hh, h | .lEnd, H, σ, τ, hh, h
  | .mode _, H, σ, τ, hh, h | .reject _, H, σ, τ, hh, h => by simp [Re.heads] at hh

theorem headsSeq_spec {E : Env} {s : List Ch} : ∀ {l : List Re} {H : List Nat} {σ τ : MState}, headsSeq l = some H →
    MatchAll E l s σ τ → HeadIn s σ H
  | [], H, σ, τ, hh, h => by simp [headsSeq] at hh
  | r :: l, H, σ, τ, hh, h => by
    simp only [headsSeq] at hh
    simp only [MatchAll] at h
    obtain ⟨ρ, h, _⟩ := h
    exact Re.heads_spec hh h

theorem headsAny_spec {E : Env} {s : List Ch} : ∀ {l : List Re} {H : List Nat} {σ τ : MState}, headsAny l = some H →
    MatchAny E l s σ τ → HeadIn s σ H
  | [], H, σ, τ, hh, h => by simp [MatchAny] at h
  | r :: l, H, σ, τ, hh, h => by
    simp only [headsAny] at hh
    simp only [MatchAny] at h
    split at hh
    · rename_i A B hA hB
      simp only [Option.some.injEq] at hh
      subst hh
      rcases h with h | h
      · obtain ⟨v, h1, h2⟩ := Re.heads_spec hA h
        exact ⟨v, h1, by simp only [List.any_append, h2, Bool.true_or]⟩
      · obtain ⟨v, h1, h2⟩ := headsAny_spec hB h
        exact ⟨v, h1, by simp only [List.any_append, h2, Bool.or_true]⟩
    · simp at hh
end

theorem Iterate.le {α : Type} {R : α → α → Prop} {m : α → Nat} (h : ∀ x y, R x y → m x ≤ m y) {k : Nat} {x y : α}
    (hi : Iterate R k x y) : m x ≤ m y := by
  induction hi with
  | zero => exact Nat.le_refl _
  | succ h1 _ ih => exact Nat.le_trans (h _ _ h1) ih

mutual
theorem Re.Match.fwd {E : Env} {s : List Ch} : ∀ {r : Re} {σ τ : MState}, r.Match E s σ τ → σ.pos ≤ τ.pos
  | .cc _, σ, τ, h => by simp only [Re.Match] at h; rw [h.2]; simp
  | .any, σ, τ, h => by simp only [Re.Match] at h; rw [h.2.2]; simp
  | .str _, σ, τ, h => by simp only [Re.Match] at h; rw [h.2]; simp
  | .sel l, σ, τ, h => by simp only [Re.Match] at h; exact MatchAny.fwd h
  | .seq l, σ, τ, h => by simp only [Re.Match] at h; exact MatchAll.fwd h
  | .rep _ _ _ l, σ, τ, h => by
    simp only [Re.Match] at h
    obtain ⟨k, _, _, h⟩ := h
    refine Iterate.le (m := MState.pos) ?_ h
    rintro x y ⟨ρ, h1, rfl⟩
    have := MatchAll.fwd h1
    exact this
  | .cap _ _ l, σ, τ, h | .atomic l, σ, τ, h => by
    simp only [Re.Match] at h
    obtain ⟨ρ, h1, rfl⟩ := h
    have := MatchAll.fwd h1
    exact this
  | .bref _, σ, τ, h => by
    simp only [Re.Match, Again] at h
    obtain ⟨b, e, _, _, _, _, rfl⟩ := h
    simp
  | .brefName _, σ, τ, h => by
    simp only [Re.Match, Again] at h
    obtain ⟨id, _, b, e, _, _, _, _, rfl⟩ := h
    simp
  | .ahead true l, σ, τ, h | .behind true l, σ, τ, h => by
    simp only [Re.Match] at h
    obtain ⟨ρ, _, rfl⟩ := h
    exact Nat.le_refl _
  | .ahead false l, σ, τ, h | .behind false l, σ, τ, h => by
    simp only [Re.Match] at h; rw [h.2]; exact Nat.le_refl _
  | .empty, σ, τ, h => by simp only [Re.Match] at h; rw [h]; exact Nat.le_refl _
  | .mode m, σ, τ, h => by simp only [Re.Match] at h; rw [h]; cases m <;> exact Nat.le_refl _
  | .reject _, σ, τ, h => by simp [Re.Match] at h
  | .boundary _, σ, τ, h | .notBoundary _, σ, τ, h | .sBegin, σ, τ, h | .sEnd, σ, τ, h
  | .sEndLine, σ, τ, h | .lBegin, σ, τ, h | .lEnd, σ, τ, h => by
    simp only [Re.Match] at h; rw [h.2]; exact Nat.le_refl _

theorem MatchAll.fwd {E : Env} {s : List Ch} : ∀ {l : List Re} {σ τ : MState}, MatchAll E l s σ τ → σ.pos ≤ τ.pos
  | [], σ, τ, h => by simp only [MatchAll] at h; rw [h]; exact Nat.le_refl _
  | r :: l, σ, τ, h => by
    simp only [MatchAll] at h
    obtain ⟨ρ, h1, h2⟩ := h
    exact Nat.le_trans (Re.Match.fwd h1) (MatchAll.fwd h2)

theorem MatchAny.fwd {E : Env} {s : List Ch} : ∀ {l : List Re} {σ τ : MState}, MatchAny E l s σ τ → σ.pos ≤ τ.pos
  | [], σ, τ, h => by simp [MatchAny] at h
  | r :: l, σ, τ, h => by
    simp only [MatchAny] at h
    rcases h with h | h
    · exact Re.Match.fwd h
    · exact MatchAny.fwd h
end

mutual
theorem Re.Match.lt {E : Env} {s : List Ch} : ∀ {r : Re} {σ τ : MState}, r.consumes = true → r.Match E s σ τ →
    σ.pos < τ.pos
  | .cc _, σ, τ, _, h => by simp only [Re.Match] at h; rw [h.2]; simp
  | .any, σ, τ, _, h => by simp only [Re.Match] at h; rw [h.2.2]; simp
  | .str cs, σ, τ, hc, h => by
    simp only [Re.Match] at h; rw [h.2]
    cases cs with
    | nil => simp [Re.consumes] at hc
    | cons c cs => simp
  | .sel l, σ, τ, hc, h => by
    simp only [Re.consumes] at hc; simp only [Re.Match] at h; exact MatchAny.lt hc h
  | .seq l, σ, τ, hc, h => by
    simp only [Re.consumes] at hc; simp only [Re.Match] at h; exact MatchAll.lt hc h
  | .rep _ a _ l, σ, τ, hc, h => by
    simp only [Re.consumes, Bool.and_eq_true, bne_iff_ne, ne_eq] at hc
    simp only [Re.Match] at h
    obtain ⟨k, h0, _, h⟩ := h
    cases h with
    | zero => omega
    | succ h1 h2 =>
      obtain ⟨ρ, h1, rfl⟩ := h1
      have := MatchAll.lt hc.2 h1
      refine Nat.lt_of_lt_of_le (m := ρ.pos) this ?_
      have hle := Iterate.le (m := MState.pos) ?_ h2
      · exact hle
      rintro x y ⟨ρ, h1, rfl⟩
      have := MatchAll.fwd h1
      exact this
  | .cap _ _ l, σ, τ, hc, h | .atomic l, σ, τ, hc, h => by
    simp only [Re.consumes] at hc
    simp only [Re.Match] at h
    obtain ⟨ρ, h1, rfl⟩ := h
    have := MatchAll.lt hc h1
    exact this
  | .reject _, σ, τ, _, h => by simp [Re.Match] at h
  | .bref _, σ, τ, hc, h | .brefName _, σ, τ, hc, h | .ahead _ _, σ, τ, hc, h | .behind _ _, σ, τ, hc, h
  | .empty, σ, τ, hc, h | .mode m, σ, τ, hc, h
  | .boundary _, σ, τ, hc, h | .notBoundary _, σ, τ, hc, h | .sBegin, σ, τ, hc, h | .sEnd, σ, τ, hc, h
  | .sEndLine, σ, τ, hc, h | .lBegin, σ, τ, hc, h | .lEnd, σ, τ, hc, h => by simp [Re.consumes] at hc

theorem MatchAll.lt {E : Env} {s : List Ch} : ∀ {l : List Re} {σ τ : MState}, consumesSome l = true →
    MatchAll E l s σ τ → σ.pos < τ.pos
  | [], σ, τ, hc, h => by simp [consumesSome] at hc
  | r :: l, σ, τ, hc, h => by
    simp only [consumesSome, Bool.or_eq_true] at hc
    simp only [MatchAll] at h
    obtain ⟨ρ, h1, h2⟩ := h
    rcases hc with hc | hc
    · exact Nat.lt_of_lt_of_le (Re.Match.lt hc h1) (MatchAll.fwd h2)
    · exact Nat.lt_of_le_of_lt (Re.Match.fwd h1) (MatchAll.lt hc h2)

theorem MatchAny.lt {E : Env} {s : List Ch} : ∀ {l : List Re} {σ τ : MState}, consumesAll l = true →
    MatchAny E l s σ τ → σ.pos < τ.pos
  | [], σ, τ, hc, h => by simp [MatchAny] at h
  | r :: l, σ, τ, hc, h => by
    simp only [consumesAll, Bool.and_eq_true] at hc
    simp only [MatchAny] at h
    rcases h with h | h
    · exact Re.Match.lt hc.1 h
    · exact MatchAny.lt hc.2 h
end

theorem consuming_of {E : Env} {l : List Re} (h : consumesSome l = true) : Consuming E l :=
  fun _ _ _ _ hm => MatchAll.lt h hm

mutual
theorem Re.Match.noGroups {E : Env} : ∀ {r : Re} {s : List Ch} {σ τ : MState}, r.noGroups = true → r.Match E s σ τ →
    τ.cap = σ.cap
  | .cc _, s, σ, τ, _, h => by simp only [Re.Match] at h; rw [h.2]
  | .any, s, σ, τ, _, h => by simp only [Re.Match] at h; rw [h.2.2]
  | .str _, s, σ, τ, _, h => by simp only [Re.Match] at h; rw [h.2]
  | .sel l, s, σ, τ, hc, h => by
    simp only [Re.noGroups] at hc; simp only [Re.Match] at h; exact MatchAny.noGroups hc h
  | .seq l, s, σ, τ, hc, h => by
    simp only [Re.noGroups] at hc; simp only [Re.Match] at h; exact MatchAll.noGroups hc h
  | .rep _ _ _ l, s, σ, τ, hc, h => by
    simp only [Re.noGroups] at hc
    simp only [Re.Match] at h
    obtain ⟨k, _, _, h⟩ := h
    refine Iterate.inv (P := fun x => x.cap = σ.cap) ?_ h rfl
    rintro x y ⟨ρ, h1, rfl⟩ hx
    exact (MatchAll.noGroups hc h1).trans hx
  | .cap _ _ l, s, σ, τ, hc, h => by simp [Re.noGroups] at hc
  | .atomic l, s, σ, τ, hc, h => by
    simp only [Re.noGroups] at hc
    simp only [Re.Match] at h
    obtain ⟨ρ, h1, rfl⟩ := h
    have := MatchAll.noGroups hc h1
    exact this
  | .bref _, s, σ, τ, _, h => by
    simp only [Re.Match, Again] at h
    obtain ⟨b, e, _, _, _, _, rfl⟩ := h
    rfl
  | .brefName _, s, σ, τ, _, h => by
    simp only [Re.Match, Again] at h
    obtain ⟨id, _, b, e, _, _, _, _, rfl⟩ := h
    rfl
  | .ahead true l, s, σ, τ, hc, h | .behind true l, s, σ, τ, hc, h => by
    simp only [Re.noGroups] at hc
    simp only [Re.Match] at h
    obtain ⟨ρ, h1, rfl⟩ := h
    have := MatchAll.noGroups (E := E) hc h1
    exact this
  | .ahead false l, s, σ, τ, _, h | .behind false l, s, σ, τ, _, h => by
    simp only [Re.Match] at h; rw [h.2]
  | .empty, s, σ, τ, _, h => by simp only [Re.Match] at h; rw [h]
  | .mode m, s, σ, τ, _, h => by simp only [Re.Match] at h; rw [h]; cases m <;> rfl
  | .reject _, s, σ, τ, _, h => by simp [Re.Match] at h
  | .boundary _, s, σ, τ, _, h | .notBoundary _, s, σ, τ, _, h | .sBegin, s, σ, τ, _, h | .sEnd, s, σ, τ, _, h
  | .sEndLine, s, σ, τ, _, h | .lBegin, s, σ, τ, _, h | .lEnd, s, σ, τ, _, h => by
    simp only [Re.Match] at h; rw [h.2]

theorem MatchAll.noGroups {E : Env} : ∀ {l : List Re} {s : List Ch} {σ τ : MState}, noGroupsList l = true →
    MatchAll E l s σ τ → τ.cap = σ.cap
  | [], s, σ, τ, _, h => by simp only [MatchAll] at h; rw [h]
  | r :: l, s, σ, τ, hc, h => by
    simp only [noGroupsList, Bool.and_eq_true] at hc
    simp only [MatchAll] at h
    obtain ⟨ρ, h1, h2⟩ := h
    exact (MatchAll.noGroups hc.2 h2).trans (Re.Match.noGroups hc.1 h1)

theorem MatchAny.noGroups {E : Env} : ∀ {l : List Re} {s : List Ch} {σ τ : MState}, noGroupsList l = true →
    MatchAny E l s σ τ → τ.cap = σ.cap
  | [], s, σ, τ, _, h => by simp [MatchAny] at h
  | r :: l, s, σ, τ, hc, h => by
    simp only [noGroupsList, Bool.and_eq_true] at hc
    simp only [MatchAny] at h
    rcases h with h | h
    · exact Re.Match.noGroups hc.1 h
    · exact MatchAny.noGroups hc.2 h
end

theorem Iterate.det {α : Type} {R : α → α → Prop} (h : ∀ x y y', R x y → R x y' → y = y') {k : Nat} : ∀ {x y y' : α},
    Iterate R k x y → Iterate R k x y' → y = y' := by
  induction k with
  | zero => intro x y y' h1 h2; cases h1; cases h2; rfl
  | succ k ih =>
    intro x y y' h1 h2
    cases h1 with
    | succ a b => cases h2 with
      | succ c d =>
        have := h _ _ _ a c
        subst this
        exact ih b d

mutual
theorem Re.rigid_det {E : Env} : ∀ {r : Re} {s : List Ch} {σ τ τ' : MState}, r.rigid = true →
    r.Match E s σ τ → r.Match E s σ τ' → τ = τ'
  | .cc _, s, σ, τ, τ', _, h, h' => by simp only [Re.Match] at h h'; rw [h.2, h'.2]
  | .any, s, σ, τ, τ', _, h, h' => by simp only [Re.Match] at h h'; rw [h.2.2, h'.2.2]
  | .str _, s, σ, τ, τ', _, h, h' => by simp only [Re.Match] at h h'; rw [h.2, h'.2]
  | .sel l, s, σ, τ, τ', hc, h, h' => by
    simp only [Re.rigid] at hc; simp only [Re.Match] at h h'; exact rigidAny_det hc h h'
  | .seq l, s, σ, τ, τ', hc, h, h' => by
    simp only [Re.rigid] at hc; simp only [Re.Match] at h h'; exact rigidList_det hc h h'
  | .rep _ a b l, s, σ, τ, τ', hc, h, h' => by
    simp only [Re.rigid, Bool.and_eq_true, bne_iff_ne, ne_eq, beq_iff_eq] at hc
    simp only [Re.Match] at h h'
    obtain ⟨k, h1, h2, h3⟩ := h
    obtain ⟨k', h1', h2', h3'⟩ := h'
    have : k = k' := by omega
    subst this
    refine Iterate.det ?_ h3 h3'
    rintro x y y' ⟨ρ, h1, rfl⟩ ⟨ρ', h1', rfl⟩
    rw [rigidList_det hc.2 h1 h1']
  | .cap _ _ l, s, σ, τ, τ', hc, h, h' => by
    simp only [Re.rigid] at hc; simp only [Re.Match] at h h'
    obtain ⟨ρ, h1, rfl⟩ := h
    obtain ⟨ρ', h1', rfl⟩ := h'
    rw [rigidList_det hc h1 h1']
  | .atomic l, s, σ, τ, τ', hc, h, h' => by
    simp only [Re.rigid] at hc; simp only [Re.Match] at h h'
    obtain ⟨ρ, h1, rfl⟩ := h
    obtain ⟨ρ', h1', rfl⟩ := h'
    rw [rigidList_det hc h1 h1']
  | .bref _, s, σ, τ, τ', _, h, h' => by
    simp only [Re.Match, Again] at h h'
    obtain ⟨b, e, h1, _, _, _, rfl⟩ := h
    obtain ⟨b', e', h1', _, _, _, rfl⟩ := h'
    rw [h1] at h1'
    simp only [Option.some.injEq, Prod.mk.injEq] at h1'
    rw [h1'.1, h1'.2]
  | .brefName _, s, σ, τ, τ', _, h, h' => by
    simp only [Re.Match, Again] at h h'
    obtain ⟨id, h0, b, e, h1, _, _, _, rfl⟩ := h
    obtain ⟨id', h0', b', e', h1', _, _, _, rfl⟩ := h'
    rw [h0] at h0'
    simp only [Option.some.injEq] at h0'
    subst h0'
    rw [h1] at h1'
    simp only [Option.some.injEq, Prod.mk.injEq] at h1'
    rw [h1'.1, h1'.2]
  | .ahead true l, s, σ, τ, τ', hc, h, h' | .behind true l, s, σ, τ, τ', hc, h, h' => by
    simp only [Re.rigid, Bool.or_eq_true] at hc; simp only [Re.Match] at h h'
    obtain ⟨ρ, h1, rfl⟩ := h
    obtain ⟨ρ', h1', rfl⟩ := h'
    rcases hc with hc | hc
    · rw [rigidList_det hc h1 h1']
    · rw [MatchAll.noGroups hc h1, MatchAll.noGroups hc h1']
  | .ahead false l, s, σ, τ, τ', _, h, h' | .behind false l, s, σ, τ, τ', _, h, h' => by
    simp only [Re.Match] at h h'; rw [h.2, h'.2]
  | .empty, s, σ, τ, τ', _, h, h' => by simp only [Re.Match] at h h'; rw [h, h']
  | .mode m, s, σ, τ, τ', _, h, h' => by simp only [Re.Match] at h h'; rw [h, h']
  | .reject _, s, σ, τ, τ', _, h, h' => by simp [Re.Match] at h
  | .boundary _, s, σ, τ, τ', _, h, h' | .notBoundary _, s, σ, τ, τ', _, h, h' | .sBegin, s, σ, τ, τ', _, h, h'
  | .sEnd, s, σ, τ, τ', _, h, h' | .sEndLine, s, σ, τ, τ', _, h, h' | .lBegin, s, σ, τ, τ', _, h, h'
  | .lEnd, s, σ, τ, τ', _, h, h' => by
    simp only [Re.Match] at h h'; rw [h.2, h'.2]

theorem rigidList_det {E : Env} : ∀ {l : List Re} {s : List Ch} {σ τ τ' : MState}, rigidList l = true →
    MatchAll E l s σ τ → MatchAll E l s σ τ' → τ = τ'
  | [], s, σ, τ, τ', _, h, h' => by simp only [MatchAll] at h h'; rw [h, h']
  | r :: l, s, σ, τ, τ', hc, h, h' => by
    simp only [rigidList, Bool.and_eq_true] at hc
    simp only [MatchAll] at h h'
    obtain ⟨ρ, h1, h2⟩ := h
    obtain ⟨ρ', h1', h2'⟩ := h'
    have := Re.rigid_det hc.1 h1 h1'
    subst this
    exact rigidList_det hc.2 h2 h2'

theorem rigidAny_det {E : Env} : ∀ {l : List Re} {s : List Ch} {σ τ τ' : MState}, rigidAny l = true →
    MatchAny E l s σ τ → MatchAny E l s σ τ' → τ = τ'
  | [], s, σ, τ, τ', _, h, h' => by simp [MatchAny] at h
  | [r], s, σ, τ, τ', hc, h, h' => by
    simp only [rigidAny] at hc
    simp only [MatchAny, or_false] at h h'
    exact Re.rigid_det hc h h'
  | r :: r2 :: l, s, σ, τ, τ', hc, h, h' => by
    simp only [rigidAny, Bool.and_eq_true] at hc
    rw [MatchAny] at h h'
    obtain ⟨⟨hc1, hc2⟩, hc3⟩ := hc
    split at hc3
    · rename_i H K hH hK
      have hcontra : ∀ {a b : MState}, r.Match E s σ a → MatchAny E (r2 :: l) s σ b → False := by
        intro a b ha hb
        obtain ⟨v, h1, h2⟩ := Re.heads_spec hH ha
        obtain ⟨w, h3, h4⟩ := headsAny_spec hK hb
        rw [h1] at h3
        simp only [Option.some.injEq] at h3
        subst h3
        exact apart_spec hc3 h2 h4
      rcases h with h | h
      · rcases h' with h' | h'
        · exact Re.rigid_det hc1 h h'
        · exact (hcontra h h').elim
      · rcases h' with h' | h'
        · exact (hcontra h' h).elim
        · exact rigidAny_det hc2 h h'
    · simp at hc3
end

theorem unambiguous_of {E : Env} {l : List Re} (h : rigidList l = true) : Unambiguous E l :=
  fun _ _ _ _ _ h1 h2 => rigidList_det h h1 h2

theorem sameCaptures_of {E : Env} {l : List Re} (h : rigidList l = true ∨ noGroupsList l = true) : SameCaptures E l := by
  intro s σ τ τ' _ h1 h2
  rcases h with h | h
  · rw [rigidList_det h h1 h2]
  · rw [MatchAll.noGroups h h1, MatchAll.noGroups h h2]

mutual
theorem Re.plain_Plain {E : Env} : ∀ {r : Re}, r.plain = true → r.Plain E
  | .sel l, h => by simp only [Re.plain] at h; simp only [Re.Plain]; exact plainList_Plain h
  | .seq l, h => by
    simp only [Re.plain, Bool.and_eq_true, Bool.not_eq_true', List.isEmpty_eq_false_iff] at h
    simp only [Re.Plain]; exact ⟨h.1, plainList_Plain h.2⟩
  | .rep k a b l, h => by
    simp only [Re.plain, Bool.and_eq_true, Bool.or_eq_true, bne_iff_ne, ne_eq, beq_iff_eq] at h
    simp only [Re.Plain]
    refine ⟨fun hk => ?_, unambiguous_of h.1.1.2, consuming_of h.1.2, plainList_Plain h.2⟩
    rcases h.1.1.1 with h1 | h1
    · exact absurd hk h1
    · exact ⟨h1.1, by omega⟩
  | .cap _ _ l, h => by
    simp only [Re.plain, Bool.and_eq_true, Bool.not_eq_true', List.isEmpty_eq_false_iff] at h
    simp only [Re.Plain]; exact ⟨h.1, plainList_Plain h.2⟩
  | .ahead pos l, h | .behind pos l, h => by
    simp only [Re.plain, Bool.and_eq_true, Bool.not_eq_true', List.isEmpty_eq_false_iff, Bool.or_eq_true] at h
    simp only [Re.Plain]
    refine ⟨fun hp => ?_, h.1.2, plainList_Plain h.2⟩
    subst hp
    exact sameCaptures_of (by simpa using h.1.1)
  | .atomic l, h => by
    simp only [Re.plain, Bool.and_eq_true] at h
    simp only [Re.Plain]
    exact ⟨unambiguous_of h.1.1, consuming_of h.1.2, plainList_Plain h.2⟩
  | .cc _, _ | .any, _ | .str _, _ | .empty, _ | .bref _, _
  | .brefName _, _ | .boundary _, _ | .notBoundary _, _ | .sBegin, _
  | .sEnd, _ | .sEndLine, _ | .lBegin, _ | .lEnd, _ | .mode _, _
  | .reject _, _ => by simp [Re.Plain]

theorem plainList_Plain {E : Env} : ∀ {l : List Re}, plainList l = true → PlainList E l
  | [], _ => by simp [PlainList]
  | r :: l, h => by
    simp only [plainList, Bool.and_eq_true] at h
    simp only [PlainList]
    exact ⟨Re.plain_Plain h.1, plainList_Plain h.2⟩
end

end Ctre
