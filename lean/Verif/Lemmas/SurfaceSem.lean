import Verif.Lemmas.ParsePrint
import Verif.Lemmas.Behind

/-
The trees built by the parser mean what the syntax trees mean: characters, sets, sequences and repetitions.
-/
namespace Ctre

/-! ### Equality tests -/

theorem CC.same_eq {a : CC} : ∀ {b : CC}, CC.same a b = true → a = b := by
  induction a using CC.rec (motive_2 := fun l => ∀ {m : List CC}, CC.sameList l m = true → l = m) with
  | set l ih => intro b h; cases b <;> simp [CC.same] at h; rw [ih h]
  | negSet l ih => intro b h; cases b <;> simp [CC.same] at h; rw [ih h]
  | negate l ih => intro b h; cases b <;> simp [CC.same] at h; rw [ih h]
  | nil => rename_i m h; cases m <;> simp_all [CC.sameList]
  | cons a l ih1 ih2 =>
    rename_i m h
    cases m with
    | nil => simp [CC.sameList] at h
    | cons b m => simp only [CC.sameList, Bool.and_eq_true] at h; rw [ih1 h.1, ih2 h.2]
  | _ => intro b h; cases b <;> simp_all [CC.same]

theorem Re.same_eq {a : Re} : ∀ {b : Re}, Re.same a b = true → a = b := by
  induction a using Re.rec (motive_2 := fun l => ∀ {m : List Re}, Re.sameList l m = true → l = m) with
  | cc c => intro b h; cases b <;> simp [Re.same] at h; rw [CC.same_eq h]
  | boundary c => intro b h; cases b <;> simp [Re.same] at h; rw [CC.same_eq h]
  | notBoundary c => intro b h; cases b <;> simp [Re.same] at h; rw [CC.same_eq h]
  | sel l ih => intro b h; cases b <;> simp [Re.same] at h; rw [ih h]
  | seq l ih => intro b h; cases b <;> simp [Re.same] at h; rw [ih h]
  | atomic l ih => intro b h; cases b <;> simp [Re.same] at h; rw [ih h]
  | ahead p l ih => intro b h; cases b <;> simp [Re.same] at h; rw [ih h.2, h.1]
  | behind p l ih => intro b h; cases b <;> simp [Re.same] at h; rw [ih h.2, h.1]
  | cap i n l ih => intro b h; cases b <;> simp [Re.same] at h; rw [ih h.2, h.1.1, h.1.2]
  | rep k a b l ih => intro b h; cases b <;> simp [Re.same] at h; rw [ih h.2, h.1.1.1, h.1.1.2, h.1.2]
  | nil => rename_i m h; cases m <;> simp_all [Re.sameList]
  | cons a l ih1 ih2 =>
    rename_i m h
    cases m with
    | nil => simp [Re.sameList] at h
    | cons b m => simp only [Re.sameList, Bool.and_eq_true] at h; rw [ih1 h.1, ih2 h.2]
  | _ => intro b h; cases b <;> simp_all [Re.same]

theorem Re.sameList_eq : ∀ {l m : List Re}, Re.sameList l m = true → l = m
  | [], [], _ => rfl
  | [], _ :: _, h => by simp [Re.sameList] at h
  | _ :: _, [], h => by simp [Re.sameList] at h
  | a :: l, b :: m, h => by
    simp only [Re.sameList, Bool.and_eq_true] at h
    rw [Re.same_eq h.1, Re.sameList_eq h.2]

/-! ### Iteration -/

theorem Iterate.add_iff {α : Type} {R : α → α → Prop} : ∀ {k m : Nat} {x z : α},
    Iterate R (k + m) x z ↔ ∃ y, Iterate R k x y ∧ Iterate R m y z
  | 0, m, x, z => by
    rw [Nat.zero_add]
    exact ⟨fun h => ⟨x, .zero x, h⟩, by rintro ⟨y, h1, h2⟩; cases h1; exact h2⟩
  | k + 1, m, x, z => by
    rw [show k + 1 + m = k + m + 1 by omega]
    constructor
    · intro h
      cases h with
      | succ h1 h2 =>
        obtain ⟨y, h3, h4⟩ := Iterate.add_iff.1 h2
        exact ⟨y, .succ h1 h3, h4⟩
    · rintro ⟨y, h1, h2⟩
      cases h1 with
      | succ h3 h4 => exact .succ h3 (Iterate.add_iff.2 ⟨y, h4, h2⟩)

theorem Iterate.congr {α : Type} {R R' : α → α → Prop} {I : α → Prop} (h : ∀ x y, I x → (R x y ↔ R' x y))
    (hI : ∀ x y, I x → R x y → I y) : ∀ {k : Nat} {x z : α}, I x → (Iterate R k x z ↔ Iterate R' k x z)
  | 0, x, z, hx => by
    constructor <;> (intro h; cases h; exact .zero _)
  | k + 1, x, z, hx => by
    constructor
    · intro h'
      cases h' with
      | succ h1 h2 => exact .succ ((h _ _ hx).1 h1) ((Iterate.congr h hI (hI _ _ hx h1)).1 h2)
    · intro h'
      cases h' with
      | succ h1 h2 =>
        have h1 := (h _ _ hx).2 h1
        exact .succ h1 ((Iterate.congr h hI (hI _ _ hx h1)).2 h2)

theorem Iterate.keep {α : Type} {R : α → α → Prop} {I : α → Prop} (hI : ∀ x y, I x → R x y → I y) : ∀ {k : Nat} {x z : α},
    I x → Iterate R k x z → I z
  | 0, _, _, hx, h => by cases h; exact hx
  | _ + 1, _, _, hx, h => by
    cases h with
    | succ h1 h2 => exact Iterate.keep hI (hI _ _ hx h1) h2

theorem Iterate.one {α : Type} {R : α → α → Prop} {x y : α} : Iterate R 1 x y ↔ R x y := by
  constructor
  · intro h
    cases h with
    | succ h1 h2 => cases h2; exact h1
  · intro h; exact .succ h (.zero _)

/-! ### Positions stay inside the subject -/

variable {E : Env}

theorem Re.match_le {r : Re} : ∀ {s : List Ch} {σ τ : MState}, r.Match E s σ τ → σ.pos ≤ s.length →
    τ.pos ≤ s.length := by
  induction r using Re.rec (motive_2 := fun l => ∀ {s : List Ch} {σ τ : MState}, σ.pos ≤ s.length →
    (MatchAll E l s σ τ → τ.pos ≤ s.length) ∧ (MatchAny E l s σ τ → τ.pos ≤ s.length)) with
  | cc c =>
    intro s σ τ h hp
    simp only [Re.Match, inClass] at h
    obtain ⟨⟨v, hv, _⟩, rfl⟩ := h
    exact (List.getElem?_eq_some_iff.1 hv).1
  | any =>
    intro s σ τ h hp
    simp only [Re.Match] at h
    obtain ⟨h1, _, rfl⟩ := h
    exact h1
  | str cs =>
    intro s σ τ h hp
    simp only [Re.Match] at h
    obtain ⟨h1, rfl⟩ := h
    cases hc : cs.length with
    | zero => simpa [hc] using hp
    | succ n =>
      obtain ⟨v, hv, _⟩ := h1 n (by omega)
      have := (List.getElem?_eq_some_iff.1 hv).1
      simp only
      omega
  | sel l ih => intro s σ τ h hp; simp only [Re.Match] at h; exact (ih hp).2 h
  | seq l ih => intro s σ τ h hp; simp only [Re.Match] at h; exact (ih hp).1 h
  | rep k a b l ih =>
    intro s σ τ h hp
    simp only [Re.Match] at h
    obtain ⟨i, _, _, h⟩ := h
    exact Iterate.keep (I := fun σ => σ.pos ≤ s.length)
      (fun x y hx ⟨ρ, h1, h2⟩ => by rw [h2]; have := (ih hx).1 h1; exact this) hp h
  | cap id n l ih =>
    intro s σ τ h hp
    simp only [Re.Match] at h
    obtain ⟨ρ, h1, rfl⟩ := h
    have := (ih hp).1 h1
    exact this
  | bref id =>
    intro s σ τ h hp
    simp only [Re.Match, Again] at h
    obtain ⟨b, e, _, _, h1, _, rfl⟩ := h
    exact h1
  | brefName n =>
    intro s σ τ h hp
    simp only [Re.Match, Again] at h
    obtain ⟨_, _, b, e, _, _, h1, _, rfl⟩ := h
    exact h1
  | ahead pos l ih =>
    intro s σ τ h hp
    cases pos <;> simp only [Re.Match] at h
    · rw [h.2]; exact hp
    · obtain ⟨ρ, _, rfl⟩ := h; exact hp
  | behind pos l ih =>
    intro s σ τ h hp
    cases pos <;> simp only [Re.Match] at h
    · rw [h.2]; exact hp
    · obtain ⟨ρ, _, rfl⟩ := h; exact hp
  | atomic l ih =>
    intro s σ τ h hp
    simp only [Re.Match] at h
    obtain ⟨ρ, h1, rfl⟩ := h
    have := (ih hp).1 h1
    exact this
  | mode m =>
    intro s σ τ h hp
    simp only [Re.Match] at h
    subst h
    cases m <;> exact hp
  | reject => intro s σ τ h; simp [Re.Match] at h
  | empty => intro s σ τ h hp; simp only [Re.Match] at h; rw [h]; exact hp
  | nil =>
    rename_i hp
    exact ⟨fun h => by simp only [MatchAll] at h; rw [h]; exact hp, fun h => by simp [MatchAny] at h⟩
  | cons r l ih1 ih2 =>
    rename_i hp
    constructor
    · intro h
      simp only [MatchAll] at h
      obtain ⟨ρ, h1, h2⟩ := h
      exact (ih2 (ih1 h1 hp)).1 h2
    · intro h
      simp only [MatchAny] at h
      exact h.elim (fun h => ih1 h hp) (fun h => (ih2 hp).2 h)
  | _ => intro s σ τ h hp; simp only [Re.Match] at h; rw [h.2]; exact hp

theorem MatchAll_le {l : List Re} {s : List Ch} {σ τ : MState} (h : MatchAll E l s σ τ) (hp : σ.pos ≤ s.length) :
    τ.pos ≤ s.length := Re.match_le (r := .seq l) (by simpa only [Re.Match] using h) hp

namespace Parse

theorem MatchAll_unpack {r : Re} {s : List Ch} {σ τ : MState} : MatchAll E (unpack r) s σ τ ↔ r.Match E s σ τ := by
  unfold unpack
  split
  · simp only [Re.Match]
  · simp [MatchAll]

/-! ### Sequences -/

theorem str_cons {x : Nat} {ys : List Nat} {s : List Ch} {σ τ : MState} :
    (Re.str (x :: ys)).Match E s σ τ ↔ ∃ ρ, (Re.cc (.chr x)).Match E s σ ρ ∧ (Re.str ys).Match E s ρ τ := by
  simp only [Re.Match]
  constructor
  · rintro ⟨h1, rfl⟩
    refine ⟨_, ⟨?_, rfl⟩, ?_, ?_⟩
    · exact h1 0 (by simp)
    · intro i hi
      have := h1 (i + 1) (by simpa using hi)
      simpa [Nat.add_assoc, Nat.add_comm 1 i] using this
    · simp only [List.length_cons, MState.mk.injEq, and_true]; omega
  · rintro ⟨ρ, ⟨h1, rfl⟩, h2, rfl⟩
    refine ⟨?_, ?_⟩
    · intro i hi
      cases i with
      | zero => simpa using h1
      | succ i =>
        have := h2 i (by simpa using hi)
        simpa [Nat.add_assoc, Nat.add_comm 1 i] using this
    · simp only [List.length_cons, MState.mk.injEq, and_true]; omega

theorem str_one {y : Nat} {s : List Ch} {σ τ : MState} : (Re.str [y]).Match E s σ τ ↔ (Re.cc (.chr y)).Match E s σ τ := by
  rw [str_cons]
  constructor
  · rintro ⟨ρ, h1, h2⟩
    simp only [Re.Match, List.length_nil, Nat.add_zero] at h2
    rw [h2.2]; exact h1
  · intro h
    exact ⟨τ, h, by simp [Re.Match]⟩

/-- The bounds of a repetition are in order and at most `n`. -/
def BoundOK (n a b : Nat) : Prop := (b = 0 ∨ a ≤ b) ∧ a ≤ n ∧ b ≤ n

theorem BoundOK.mono {n m a b : Nat} (h : BoundOK n a b) (hm : n ≤ m) : BoundOK m a b :=
  ⟨h.1, by have := h.2.1; omega, by have := h.2.2; omega⟩

theorem rep_join {k : RepKind} {a b c d : Nat} {l : List Re} {s : List Ch} {σ τ : MState}
    (h1 : b = 0 ∨ a ≤ b) (h2 : d = 0 ∨ c ≤ d) :
    (Re.rep k (a + c) (if b ≠ 0 ∧ d ≠ 0 then b + d else 0) l).Match E s σ τ ↔
      ∃ ρ, (Re.rep k a b l).Match E s σ ρ ∧ (Re.rep k c d l).Match E s ρ τ := by
  simp only [Re.Match]
  constructor
  · rintro ⟨n, h3, h4, h5⟩
    have : ∃ i j, i + j = n ∧ a ≤ i ∧ (b = 0 ∨ i ≤ b) ∧ c ≤ j ∧ (d = 0 ∨ j ≤ d) := by
      by_cases hb : b = 0
      · exact ⟨n - c, c, by omega, by omega, .inl hb, Nat.le_refl _, by omega⟩
      · by_cases hn : n - c ≤ b
        · exact ⟨n - c, c, by omega, by omega, .inr hn, Nat.le_refl _, by omega⟩
        · refine ⟨b, n - b, by omega, by omega, .inr (Nat.le_refl _), by omega, ?_⟩
          by_cases hd : d = 0
          · exact .inl hd
          · rw [if_pos ⟨hb, hd⟩] at h4
            omega
    obtain ⟨i, j, rfl, h6, h7, h8, h9⟩ := this
    obtain ⟨ρ, h10, h11⟩ := Iterate.add_iff.1 h5
    exact ⟨ρ, ⟨i, h6, h7, h10⟩, j, h8, h9, h11⟩
  · rintro ⟨ρ, ⟨i, h6, h7, h10⟩, j, h8, h9, h11⟩
    refine ⟨i + j, by omega, ?_, Iterate.add_iff.2 ⟨ρ, h10, h11⟩⟩
    split
    · right; omega
    · left; rfl

theorem combine_match {k : RepKind} (hk : k ≠ .poss) {a b c d n m : Nat} {l : List Re} {s : List Ch} {σ τ : MState}
    (h1 : BoundOK n a b) (h2 : BoundOK m c d) (hnm : n + m < szMod) :
    (combineRepeat k a b c d l).Match E s σ τ ↔ ∃ ρ, (Re.rep k a b l).Match E s σ ρ ∧ (Re.rep k c d l).Match E s ρ τ := by
  have h3 : (a + c) % szMod = a + c := Nat.mod_eq_of_lt (by have := h1.2.1; have := h2.2.1; omega)
  have h4 : combineMax b d = if b ≠ 0 ∧ d ≠ 0 then b + d else 0 := by
    unfold combineMax
    rw [Nat.mod_eq_of_lt (by have := h1.2.2; have := h2.2.2; omega)]
  cases k with
  | poss => exact (hk rfl).elim
  | greedy => simp only [combineRepeat, h3, h4]; exact rep_join h1.1 h2.1
  | lazy => simp only [combineRepeat, h3, h4]; exact rep_join h1.1 h2.1

/-- The repetition at the beginning of a tree. -/
def leadRep : Re → Option (RepKind × Nat × Nat)
  | .rep k a b _ => some (k, a, b)
  | .seq (.rep k a b _ :: _) => some (k, a, b)
  | _ => none

/-- All leading repetitions have bounds in order and at most `n`. -/
def LeadOK (n : Nat) (r : Re) : Prop := ∀ k a b, leadRep r = some (k, a, b) → BoundOK n a b

/-- The tree begins with a possessive repetition. -/
def leadPoss (r : Re) : Prop := ∃ a b, leadRep r = some (.poss, a, b)

/-- The tree is a possessive repetition. -/
def isPoss (r : Re) : Prop := ∃ a b l, r = .rep .poss a b l

theorem rep_comm {k : RepKind} {a b c d : Nat} {l : List Re} {s : List Ch} {σ τ : MState} (h1 : b = 0 ∨ a ≤ b)
    (h2 : d = 0 ∨ c ≤ d) :
    (∃ ρ, (Re.rep k a b l).Match E s σ ρ ∧ (Re.rep k c d l).Match E s ρ τ) ↔
      ∃ ρ, (Re.rep k c d l).Match E s σ ρ ∧ (Re.rep k a b l).Match E s ρ τ := by
  rw [← rep_join h1 h2, ← rep_join h2 h1, Nat.add_comm a c, Nat.add_comm b d]
  simp only [And.comm]

theorem makeSequence_match {b a : Re} {n m : Nat} (ha : LeadOK n a) (hb : LeadOK m b) (hnm : n + m < szMod)
    (hp : ¬ (isPoss a ∧ leadPoss b)) {s : List Ch} {σ τ : MState} :
    (makeSequence b a).Match E s σ τ ↔ ∃ ρ, a.Match E s σ ρ ∧ b.Match E s ρ τ := by
  have hseq : ∀ (a : Re) (l : List Re), (Re.seq (a :: l)).Match E s σ τ ↔ ∃ ρ, a.Match E s σ ρ ∧ (Re.seq l).Match E s ρ τ := by
    intro a l; simp only [Re.Match, MatchAll]
  have hstr : ∀ x w l, (Re.seq (.str (x :: w) :: l)).Match E s σ τ ↔ ∃ ρ, (Re.cc (.chr x)).Match E s σ ρ ∧
      (Re.seq (.str w :: l)).Match E s ρ τ := by
    intro x w l
    rw [hseq]
    constructor
    · rintro ⟨ρ, h1, h2⟩
      obtain ⟨π, h3, h4⟩ := str_cons.1 h1
      exact ⟨π, h3, by simp only [Re.Match, MatchAll] at h2 ⊢; exact ⟨ρ, by simpa only [Re.Match] using h4, h2⟩⟩
    · rintro ⟨π, h3, h4⟩
      simp only [Re.Match, MatchAll] at h4
      obtain ⟨ρ, h4, h5⟩ := h4
      exact ⟨ρ, str_cons.2 ⟨π, h3, by simpa only [Re.Match] using h4⟩, by simpa only [Re.Match] using h5⟩
  unfold makeSequence
  split
  · rw [str_cons]; simp only [str_one]
  · rw [str_cons]
  · rw [hstr]
    refine exists_congr fun ρ => and_congr_right fun _ => ?_
    simp only [Re.Match, MatchAll]
    refine exists_congr fun π => and_congr_left fun _ => ?_
    have := fun y => str_one (E := E) (y := y) (s := s) (σ := ρ) (τ := π)
    simp only [Re.Match] at this
    exact this _
  · rw [hstr]
  · rename_i k minB maxB l k' minA maxA l'
    split
    · rename_i hk
      obtain ⟨rfl, hl⟩ := hk
      have hl := Re.sameList_eq hl
      subst hl
      refine combine_match ?_ (ha _ _ _ rfl) (hb _ _ _ rfl) hnm
      rintro rfl
      exact hp ⟨⟨_, _, _, rfl⟩, ⟨_, _, rfl⟩⟩
    · rw [hseq]; simp [Re.Match, MatchAll]
  · rename_i k minB maxB l as k' minA maxA l'
    split
    · rename_i hk
      obtain ⟨rfl, hl⟩ := hk
      have hl := Re.sameList_eq hl
      subst hl
      have hk : k ≠ .poss := by
        rintro rfl
        exact hp ⟨⟨_, _, _, rfl⟩, ⟨_, _, rfl⟩⟩
      have hA := ha _ _ _ rfl
      have hB := hb _ _ _ rfl
      rw [hseq]
      constructor
      · rintro ⟨ρ, h1, h2⟩
        rw [combine_match hk hB hA (by omega), rep_comm hB.1 hA.1] at h1
        obtain ⟨π, h3, h4⟩ := h1
        refine ⟨π, h3, ?_⟩
        simp only [Re.Match, MatchAll] at h2 h4 ⊢
        exact ⟨ρ, h4, h2⟩
      · rintro ⟨π, h3, h4⟩
        simp only [Re.Match, MatchAll] at h4
        obtain ⟨ρ, h4, h2⟩ := h4
        refine ⟨ρ, ?_, by simpa only [Re.Match] using h2⟩
        rw [combine_match hk hB hA (by omega), rep_comm hB.1 hA.1]
        exact ⟨π, h3, by simpa only [Re.Match] using h4⟩
    · rw [hseq]
  · rw [hseq]
  · rw [hseq]; simp [Re.Match, MatchAll]

theorem makeAlternate_match {b a : Re} {s : List Ch} {σ τ : MState} :
    (makeAlternate b a).Match E s σ τ ↔ a.Match E s σ τ ∨ b.Match E s σ τ := by
  unfold makeAlternate
  split <;> simp [Re.Match, MatchAny]

end Parse
end Ctre
