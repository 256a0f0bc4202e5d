import Verif.Lemmas.WaysStack
import Verif.Lemmas.Rigid

/-
When the rule of the library for iterations and the usual rule agree.
-/
namespace Ctre

/-! ### Loops -/

section loops
variable {α : Type} {it it' : α → List α} {I : α → Prop}

theorem times_congr (h : ∀ x, I x → it x = it' x) (hI : ∀ x y, I x → y ∈ it x → I y) (n : Nat) : ∀ x, I x → times it n x = times it' n x := by
  induction n with
  | zero => intro x _; rfl
  | succ n ih =>
    intro x hx
    simp only [times]
    rw [← h x hx]
    exact flatMap_same fun y hy => ih y (hI x y hx hy)

theorem most_congr (h : ∀ x, I x → it x = it' x) (hI : ∀ x y, I x → y ∈ it x → I y) (n : Nat) : ∀ x, I x → most it n x = most it' n x := by
  induction n with
  | zero => intro x _; rfl
  | succ n ih =>
    intro x hx
    simp only [most]
    rw [← h x hx, flatMap_same fun y hy => ih y (hI x y hx hy)]

theorem fewest_congr (h : ∀ x, I x → it x = it' x) (hI : ∀ x y, I x → y ∈ it x → I y) (n : Nat) : ∀ x, I x → fewest it n x = fewest it' n x := by
  induction n with
  | zero => intro x _; rfl
  | succ n ih =>
    intro x hx
    simp only [fewest]
    rw [← h x hx, flatMap_same fun y hy => ih y (hI x y hx hy)]

theorem times_keep (hI : ∀ x y, I x → y ∈ it x → I y) {n : Nat} {x y : α} (hx : I x) (h : y ∈ times it n x) : I y :=
  Iterate.inv (R := fun x y => y ∈ it x) (P := I) (fun _ _ h1 h2 => hI _ _ h2 h1) (mem_times.1 h) hx

theorem repeats_congr (h : ∀ x, I x → it x = it' x) (hI : ∀ x y, I x → y ∈ it x → I y) (k : RepKind) (a b room : Nat) (x : α)
    (hx : I x) : repeats it k a b room x = repeats it' k a b room x := by
  have hm : ∀ m, (times it a x).flatMap (most it m) = (times it' a x).flatMap (most it' m) := by
    intro m
    rw [← times_congr h hI a x hx]
    exact flatMap_same fun y hy => most_congr h hI m y (times_keep hI hx hy)
  have hf : ∀ m, (times it a x).flatMap (fewest it m) = (times it' a x).flatMap (fewest it' m) := by
    intro m
    rw [← times_congr h hI a x hx]
    exact flatMap_same fun y hy => fewest_congr h hI m y (times_keep hI hx hy)
  simp only [repeats]
  cases k <;> simp only [hm, hf]

/-- Only the first way of an iteration matters for the first way of a greedy repetition. -/
theorem most_take (h : ∀ x, I x → it x = (it' x).take 1) (hI : ∀ x y, I x → y ∈ it' x → I y) (n : Nat) : ∀ x, I x →
    (most it n x).take 1 = (most it' n x).take 1 := by
  induction n with
  | zero => intro x _; rfl
  | succ n ih =>
    intro x hx
    simp only [most, h x hx]
    cases hc : it' x with
    | nil => rfl
    | cons y ys =>
      simp only [List.take_succ_cons, List.take_zero, List.flatMap_cons, List.flatMap_nil, List.append_nil, List.append_assoc]
      rw [take_one_append (most_ne_nil), take_one_append (most_ne_nil)]
      exact ih y (hI x y hx (by rw [hc]; simp))

theorem repeats_take (h : ∀ x, I x → it x = (it' x).take 1) (hI : ∀ x y, I x → y ∈ it' x → I y) {a : Nat} (ha : a ≤ 1) (b room : Nat)
    (x : α) (hx : I x) : repeats it .poss a b room x = repeats it' .poss a b room x := by
  simp only [repeats]
  split
  · rfl
  · generalize (if b = 0 then room else b - a) = m
    have h01 : a = 0 ∨ a = 1 := by omega
    rcases h01 with rfl | rfl
    · simp only [times, List.flatMap_cons, List.flatMap_nil, List.append_nil]
      exact most_take h hI m x hx
    · have ht : ∀ (j : α → List α), times j 1 x = j x := by intro j; simp [times]
      rw [ht, ht, h x hx]
      cases hc : it' x with
      | nil => rfl
      | cons y ys =>
        simp only [List.take_succ_cons, List.take_zero, List.flatMap_cons, List.flatMap_nil, List.append_nil]
        rw [take_one_append (most_ne_nil)]
        exact most_take h hI m y (hI x y hx (by rw [hc]; simp))

theorem length_flatMap_le {β : Type} {L : List α} {f : α → List β} (hL : L.length ≤ 1) (hf : ∀ x ∈ L, (f x).length ≤ 1) :
    (L.flatMap f).length ≤ 1 := by
  rcases L with _ | ⟨x, _ | ⟨y, L⟩⟩
  · simp
  · simpa using hf x (by simp)
  · simp at hL

theorem length_times_le (h : ∀ x, I x → (it x).length ≤ 1) (hI : ∀ x y, I x → y ∈ it x → I y) (n : Nat) : ∀ x, I x → (times it n x).length ≤ 1 := by
  induction n with
  | zero => intro x _; simp [times]
  | succ n ih =>
    intro x hx
    exact length_flatMap_le (h x hx) fun y hy => ih y (hI x y hx hy)
end loops

/-! ### Positions -/

theorem mem_iteration {once : Bool} {content : MState → List MState} {σ τ : MState} (h : τ ∈ iteration once content σ) :
    ∃ ρ ∈ content σ, τ = { ρ with multiline := σ.multiline, caseless := σ.caseless } := by
  simp only [iteration, List.mem_map] at h
  obtain ⟨ρ, h1, rfl⟩ := h
  refine ⟨ρ, ?_, rfl⟩
  split at h1
  · exact (List.mem_filter.1 (List.mem_of_mem_take h1)).1
  · exact h1

theorem mem_waysAgain {s : List Ch} {σ τ : MState} {id : Nat} (h : τ ∈ waysAgain s σ id) : Again s σ τ id := by
  unfold waysAgain at h
  split at h
  · simp at h
  · rename_i b e hc
    split at h
    · rename_i h1
      simp only [List.mem_singleton] at h
      exact ⟨b, e, hc, h1.1, h1.2.1, h1.2.2, h⟩
    · simp at h

theorem waysAgain_iff {s : List Ch} {σ τ : MState} {id : Nat} : τ ∈ waysAgain s σ id ↔ Again s σ τ id := by
  refine ⟨mem_waysAgain, ?_⟩
  rintro ⟨b, e, h1, h2, h3, h4, h5⟩
  unfold waysAgain
  rw [h1]
  simp only
  rw [if_pos ⟨h2, h3, h4⟩, h5]
  simp

/-- Positions: forward and inside the subject. -/
def MFwd (s : List Ch) (σ τ : MState) : Prop := σ.pos ≤ s.length → σ.pos ≤ τ.pos ∧ τ.pos ≤ s.length

theorem MFwd.of {s : List Ch} {x y x' y' : MState} (h : MFwd s x y) (hx : x'.pos = x.pos) (hy : y'.pos = y.pos) : MFwd s x' y' := by
  unfold MFwd at *; rw [hx, hy]; exact h

theorem miterate_fwd {R : MState → MState → Prop} {s : List Ch} (hR : ∀ x y, R x y → MFwd s x y) {k : Nat} {x y : MState}
    (h : Iterate R k x y) : MFwd s x y := by
  induction h with
  | zero => intro hx; exact ⟨Nat.le_refl _, hx⟩
  | succ h1 _ ih =>
    intro hx
    have h2 := hR _ _ h1 hx
    have h3 := ih h2.2
    omega

mutual
theorem Re.ways_fwd {once : Bool} {E : Env} : ∀ {r : Re} {s : List Ch} {σ τ : MState}, τ ∈ r.ways once E s σ → MFwd s σ τ
  | .sel l, s, x, y, h => by simp only [Re.ways] at h; exact waysAny_fwd h
  | .seq l, s, x, y, h => by simp only [Re.ways] at h; exact waysAll_fwd h
  | .rep _ _ _ l, s, x, y, h => by
    simp only [Re.ways] at h
    obtain ⟨j, _, _, h3⟩ := mem_repeats h
    refine miterate_fwd ?_ h3
    intro u v huv
    obtain ⟨z, hz, rfl⟩ := mem_iteration huv
    exact (waysAll_fwd hz).of rfl rfl
  | .cap _ _ l, s, x, y, h => by
    simp only [Re.ways, List.mem_map] at h
    obtain ⟨z, hz, rfl⟩ := h
    exact (waysAll_fwd hz).of rfl rfl
  | .ahead pos l, s, x, y, h | .behind pos l, s, x, y, h => by
    simp only [Re.ways] at h
    intro hx
    split at h <;> split at h <;> simp at h <;> subst h <;> exact ⟨Nat.le_refl _, hx⟩
  | .atomic l, s, x, y, h => by
    simp only [Re.ways] at h
    obtain ⟨z, hz, rfl⟩ := mem_iteration (List.mem_of_mem_take h)
    exact (waysAll_fwd hz).of rfl rfl
  | .cc _, s, x, y, h => by
    simp only [Re.ways] at h
    split at h
    · rename_i hc
      simp only [List.mem_singleton] at h
      subst h
      obtain ⟨v, hv, _⟩ := hc
      have := (List.getElem?_eq_some_iff.1 hv).1
      intro _; simp only; omega
    · simp at h
  | .any, s, x, y, h => by
    simp only [Re.ways] at h
    split at h
    · rename_i hc
      simp only [List.mem_singleton] at h
      subst h
      intro _; simp only; omega
    · simp at h
  | .str cs, s, x, y, h => by
    simp only [Re.ways] at h
    split at h
    · rename_i hc
      simp only [List.mem_singleton] at h
      subst h
      intro hx
      refine ⟨by simp, ?_⟩
      by_cases h0 : cs.length = 0
      · simp [h0, hx]
      · obtain ⟨v, hv, _⟩ := hc (cs.length - 1) (by omega)
        have := (List.getElem?_eq_some_iff.1 hv).1
        simp only; omega
    · simp at h
  | .bref _, s, x, y, h => by
    simp only [Re.ways] at h
    obtain ⟨b, e, _, h1, h2, _, rfl⟩ := mem_waysAgain h
    intro _; simp only; omega
  | .brefName _, s, x, y, h => by
    simp only [Re.ways] at h
    split at h
    · simp at h
    · obtain ⟨b, e, _, h1, h2, _, rfl⟩ := mem_waysAgain h
      intro _; simp only; omega
  | .empty, s, x, y, h => by
    simp only [Re.ways, List.mem_singleton] at h
    subst h
    intro hx; exact ⟨Nat.le_refl _, hx⟩
  | .mode m, s, x, y, h => by
    simp only [Re.ways, List.mem_singleton] at h
    subst h
    intro hx
    cases m <;> exact ⟨Nat.le_refl _, hx⟩
  | .reject _, s, x, y, h => by simp [Re.ways] at h
  | .boundary _, s, x, y, h | .notBoundary _, s, x, y, h | .sBegin, s, x, y, h | .sEnd, s, x, y, h
  | .sEndLine, s, x, y, h | .lBegin, s, x, y, h | .lEnd, s, x, y, h => by
    simp only [Re.ways] at h
    split at h
    · simp only [List.mem_singleton] at h
      subst h
      intro hx; exact ⟨Nat.le_refl _, hx⟩
    · simp at h

theorem waysAll_fwd {once : Bool} {E : Env} : ∀ {l : List Re} {s : List Ch} {σ τ : MState}, τ ∈ waysAll once E l s σ → MFwd s σ τ
  | [], s, x, y, h => by
    simp only [waysAll, List.mem_singleton] at h
    subst h
    intro hx; exact ⟨Nat.le_refl _, hx⟩
  | r :: l, s, x, y, h => by
    simp only [waysAll, List.mem_flatMap] at h
    obtain ⟨z, h1, h2⟩ := h
    intro hx
    have h3 := Re.ways_fwd h1 hx
    have h4 := waysAll_fwd h2 h3.2
    omega

theorem waysAny_fwd {once : Bool} {E : Env} : ∀ {l : List Re} {s : List Ch} {σ τ : MState}, τ ∈ waysAny once E l s σ → MFwd s σ τ
  | [], s, x, y, h => by simp [waysAny] at h
  | r :: l, s, x, y, h => by
    simp only [waysAny, List.mem_append] at h
    rcases h with h | h
    · exact Re.ways_fwd h
    · exact waysAny_fwd h
end

mutual
theorem Re.ways_lt {once : Bool} {E : Env} : ∀ {r : Re} {s : List Ch} {σ τ : MState}, r.consumes = true → σ.pos ≤ s.length →
    τ ∈ r.ways once E s σ → σ.pos < τ.pos
  | .sel l, s, x, y, hm, hx, h => by
    simp only [Re.ways] at h; simp only [Re.consumes] at hm; exact waysAny_lt hm hx h
  | .seq l, s, x, y, hm, hx, h => by
    simp only [Re.ways] at h; simp only [Re.consumes] at hm; exact waysAll_lt hm hx h
  | .rep _ a _ l, s, x, y, hm, hx, h => by
    simp only [Re.ways] at h
    simp only [Re.consumes, Bool.and_eq_true, bne_iff_ne, ne_eq] at hm
    obtain ⟨j, h1, _, h3⟩ := mem_repeats h
    have hstep : ∀ u v : MState, v ∈ iteration once (fun x => waysAll once E l s x) u → MFwd s u v := by
      intro u v huv
      obtain ⟨z, hz, rfl⟩ := mem_iteration huv
      exact (waysAll_fwd hz).of rfl rfl
    cases h3 with
    | zero => omega
    | succ h4 h5 =>
      have h8 := hstep _ _ h4 hx
      obtain ⟨z, hz, rfl⟩ := mem_iteration h4
      have h6 := waysAll_lt hm.2 hx hz
      have h7 := miterate_fwd hstep h5 h8.2
      simp only at h7
      omega
  | .cap _ _ l, s, x, y, hm, hx, h => by
    simp only [Re.ways, List.mem_map] at h
    simp only [Re.consumes] at hm
    obtain ⟨z, hz, rfl⟩ := h
    have := waysAll_lt hm hx hz
    exact this
  | .atomic l, s, x, y, hm, hx, h => by
    simp only [Re.ways] at h
    simp only [Re.consumes] at hm
    obtain ⟨z, hz, rfl⟩ := mem_iteration (List.mem_of_mem_take h)
    have := waysAll_lt hm hx hz
    exact this
  | .cc _, s, x, y, hm, hx, h | .any, s, x, y, hm, hx, h => by
    simp only [Re.ways] at h
    split at h
    · simp only [List.mem_singleton] at h
      subst h; simp
    · simp at h
  | .str cs, s, x, y, hm, hx, h => by
    simp only [Re.ways] at h
    split at h
    · simp only [List.mem_singleton] at h
      subst h
      simp only [Re.consumes, Bool.not_eq_true', List.isEmpty_eq_false_iff] at hm
      have := List.length_pos_iff.2 hm
      simp only; omega
    · simp at h
  | .reject _, s, x, y, hm, hx, h => by simp [Re.ways] at h
  | .bref _, _, _, _, hm, _, _ | .brefName _, _, _, _, hm, _, _ | .empty, _, _, _, hm, _, _ | .mode _, _, _, _, hm, _, _
  | .ahead _ _, _, _, _, hm, _, _ | .behind _ _, _, _, _, hm, _, _
  | .boundary _, _, _, _, hm, _, _ | .notBoundary _, _, _, _, hm, _, _ | .sBegin, _, _, _, hm, _, _ | .sEnd, _, _, _, hm, _, _
  | .sEndLine, _, _, _, hm, _, _ | .lBegin, _, _, _, hm, _, _ | .lEnd, _, _, _, hm, _, _ => by simp [Re.consumes] at hm

theorem waysAll_lt {once : Bool} {E : Env} : ∀ {l : List Re} {s : List Ch} {σ τ : MState}, consumesSome l = true → σ.pos ≤ s.length →
    τ ∈ waysAll once E l s σ → σ.pos < τ.pos
  | [], s, x, y, hm, hx, h => by simp [consumesSome] at hm
  | r :: l, s, x, y, hm, hx, h => by
    simp only [waysAll, List.mem_flatMap] at h
    obtain ⟨z, h1, h2⟩ := h
    simp only [consumesSome, Bool.or_eq_true] at hm
    have h3 := Re.ways_fwd h1 hx
    have h4 := waysAll_fwd h2 h3.2
    rcases hm with hm | hm
    · have := Re.ways_lt hm hx h1; omega
    · have := waysAll_lt hm h3.2 h2; omega

theorem waysAny_lt {once : Bool} {E : Env} : ∀ {l : List Re} {s : List Ch} {σ τ : MState}, consumesAll l = true → σ.pos ≤ s.length →
    τ ∈ waysAny once E l s σ → σ.pos < τ.pos
  | [], s, x, y, hm, hx, h => by simp [waysAny] at h
  | r :: l, s, x, y, hm, hx, h => by
    simp only [waysAny, List.mem_append] at h
    simp only [consumesAll, Bool.and_eq_true] at hm
    rcases h with h | h
    · exact Re.ways_lt hm.1 hx h
    · exact waysAny_lt hm.2 hx h
end

/-! ### First characters -/

mutual
theorem Re.ways_heads {once : Bool} {E : Env} {s : List Ch} : ∀ {r : Re} {H : List Nat} {σ τ : MState}, r.heads = some H →
    τ ∈ r.ways once E s σ → HeadIn s σ H
  | .cc (.chr c), H, σ, τ, hh, h => by
    simp only [Re.heads, Option.some.injEq] at hh
    subst hh
    simp only [Re.ways] at h
    split at h
    · rename_i hc
      obtain ⟨v, h1, h2⟩ := hc
      exact ⟨v, h1, by simpa [CC.matchChar] using h2⟩
    · simp at h
  | .cc (.enum cs), H, σ, τ, hh, h => by
    simp only [Re.heads, Option.some.injEq] at hh
    subst hh
    simp only [Re.ways] at h
    split at h
    · rename_i hc
      obtain ⟨v, h1, h2⟩ := hc
      exact ⟨v, h1, by simpa [CC.matchChar] using h2⟩
    · simp at h
  | .str (c :: cs), H, σ, τ, hh, h => by
    simp only [Re.heads, Option.some.injEq] at hh
    subst hh
    simp only [Re.ways] at h
    split at h
    · rename_i hc
      obtain ⟨v, h1, h2⟩ := hc 0 (by simp)
      exact ⟨v, by simpa using h1, by simpa [CC.matchChar] using h2⟩
    · simp at h
  | .sel l, H, σ, τ, hh, h => by
    simp only [Re.heads] at hh; simp only [Re.ways] at h
    exact waysAny_heads hh h
  | .seq l, H, σ, τ, hh, h => by
    simp only [Re.heads] at hh; simp only [Re.ways] at h
    exact waysAll_heads hh h
  | .rep _ a _ l, H, σ, τ, hh, h => by
    simp only [Re.heads] at hh; simp only [Re.ways] at h
    split at hh
    · simp at hh
    · obtain ⟨k, h1, _, h3⟩ := mem_repeats h
      cases h3 with
      | zero => omega
      | succ h4 _ =>
        obtain ⟨ρ, h4, _⟩ := mem_iteration h4
        exact waysAll_heads hh h4
  | .cap _ _ l, H, σ, τ, hh, h => by
    simp only [Re.heads] at hh; simp only [Re.ways, List.mem_map] at h
    obtain ⟨ρ, h, _⟩ := h
    exact waysAll_heads hh h
  | .atomic l, H, σ, τ, hh, h => by
    simp only [Re.heads] at hh; simp only [Re.ways] at h
    obtain ⟨ρ, h, _⟩ := mem_iteration (List.mem_of_mem_take h)
    exact waysAll_heads hh h
  | .cc (.range _ _), H, σ, τ, hh, h | .cc (.set _), H, σ, τ, hh, h | .cc (.negSet _), H, σ, τ, hh, h
  | .cc (.negate _), H, σ, τ, hh, h | .cc (.prop _), H, σ, τ, hh, h
  | .any, H, σ, τ, hh, h | .str [], H, σ, τ, hh, h | .empty, H, σ, τ, hh, h | .bref _, H, σ, τ, hh, h
  | .brefName _, H, σ, τ, hh, h | .ahead _ _, H, σ, τ, hh, h | .behind _ _, H, σ, τ, hh, h
  | .boundary _, H, σ, τ, hh, h | .notBoundary _, H, σ, τ, hh, h | .sBegin, H, σ, τ, hh, h
  | .sEnd, H, σ, τ, hh, h | .sEndLine, H, σ, τ, hh, h | .lBegin, H, σ, τ, hh, h | .lEnd, H, σ, τ, hh, h
  | .mode _, H, σ, τ, hh, h | .reject _, H, σ, τ, hh, h => by simp [Re.heads] at hh

theorem waysAll_heads {once : Bool} {E : Env} {s : List Ch} : ∀ {l : List Re} {H : List Nat} {σ τ : MState}, headsSeq l = some H →
    τ ∈ waysAll once E l s σ → HeadIn s σ H
  | [], H, σ, τ, hh, h => by simp [headsSeq] at hh
  | r :: l, H, σ, τ, hh, h => by
    simp only [headsSeq] at hh
    simp only [waysAll, List.mem_flatMap] at h
    obtain ⟨ρ, h, _⟩ := h
    exact Re.ways_heads hh h

theorem waysAny_heads {once : Bool} {E : Env} {s : List Ch} : ∀ {l : List Re} {H : List Nat} {σ τ : MState}, headsAny l = some H →
    τ ∈ waysAny once E l s σ → HeadIn s σ H
  | [], H, σ, τ, hh, h => by simp [waysAny] at h
  | r :: l, H, σ, τ, hh, h => by
    simp only [headsAny] at hh
    simp only [waysAny, List.mem_append] at h
    split at hh
    · rename_i A B hA hB
      simp only [Option.some.injEq] at hh
      subst hh
      rcases h with h | h
      · obtain ⟨v, h1, h2⟩ := Re.ways_heads hA h
        exact ⟨v, h1, by simp only [List.any_append, h2, Bool.true_or]⟩
      · obtain ⟨v, h1, h2⟩ := waysAny_heads hB h
        exact ⟨v, h1, by simp only [List.any_append, h2, Bool.or_true]⟩
    · simp at hh
end

/-! ### At most one way -/

theorem iteration_keep {once : Bool} {E : Env} {l : List Re} {s : List Ch} (σ τ : MState) (hσ : σ.pos ≤ s.length)
    (h : τ ∈ iteration once (fun σ => waysAll once E l s σ) σ) : τ.pos ≤ s.length := by
  obtain ⟨ρ, h1, rfl⟩ := mem_iteration h
  exact (waysAll_fwd h1 hσ).2

mutual
theorem Re.single_le {E : Env} : ∀ {r : Re} {s : List Ch} {σ : MState}, r.single = true → σ.pos ≤ s.length → (r.ways false E s σ).length ≤ 1
  | .sel l, s, σ, h, hσ => by simp only [Re.single] at h; simp only [Re.ways]; exact singleAny_le h hσ
  | .seq l, s, σ, h, hσ => by simp only [Re.single] at h; simp only [Re.ways]; exact singleAll_le h hσ
  | .cap _ _ l, s, σ, h, hσ => by
    simp only [Re.single] at h; simp only [Re.ways, List.length_map]; exact singleAll_le h hσ
  | .rep k a b l, s, σ, h, hσ => by
    simp only [Re.single, Bool.or_eq_true, beq_iff_eq, Bool.and_eq_true, bne_iff_ne, ne_eq] at h
    simp only [Re.ways]
    by_cases hk : k = .poss
    · subst hk
      simp only [repeats]
      split
      · simp
      · simp only [List.length_take]; omega
    · rcases h with h | h
      · exact absurd h hk
      · obtain ⟨⟨h1, rfl⟩, h3⟩ := h
        have hit : ∀ ρ : MState, ρ.pos ≤ s.length → (iteration false (fun σ => waysAll false E l s σ) ρ).length ≤ 1 := by
          intro ρ hρ
          simp only [iteration, List.length_map, Bool.false_eq_true, if_false]
          exact singleAll_le h3 hρ
        have ht := length_times_le hit (iteration_keep (once := false) (E := E) (l := l) (s := s)) a σ hσ
        simp only [repeats, h1, if_false, Nat.sub_self, Nat.lt_irrefl, and_false]
        cases k with
        | lazy => exact length_flatMap_le ht (by simp [fewest])
        | greedy => exact length_flatMap_le ht (by simp [most])
        | poss => exact absurd rfl hk
  | .ahead pos l, s, σ, h, hσ | .behind pos l, s, σ, h, hσ => by
    simp only [Re.ways]
    split <;> split <;> simp
  | .atomic l, s, σ, h, hσ => by
    simp only [Re.ways, List.length_take]; omega
  | .bref _, s, σ, h, hσ => by
    simp only [Re.ways, waysAgain]
    split
    · simp
    · split <;> simp
  | .brefName _, s, σ, h, hσ => by
    simp only [Re.ways, waysAgain]
    split
    · simp
    · split
      · simp
      · split <;> simp
  | .cc _, s, σ, h, hσ | .any, s, σ, h, hσ | .str _, s, σ, h, hσ | .boundary _, s, σ, h, hσ | .notBoundary _, s, σ, h, hσ
  | .sBegin, s, σ, h, hσ | .sEnd, s, σ, h, hσ | .sEndLine, s, σ, h, hσ | .lBegin, s, σ, h, hσ | .lEnd, s, σ, h, hσ => by
    simp only [Re.ways]; split <;> simp
  | .empty, s, σ, h, hσ | .mode _, s, σ, h, hσ | .reject _, s, σ, h, hσ => by simp [Re.ways]

theorem singleAll_le {E : Env} : ∀ {l : List Re} {s : List Ch} {σ : MState}, singleAll l = true → σ.pos ≤ s.length →
    (waysAll false E l s σ).length ≤ 1
  | [], s, σ, h, hσ => by simp [waysAll]
  | r :: l, s, σ, h, hσ => by
    simp only [singleAll, Bool.and_eq_true] at h
    simp only [waysAll]
    exact length_flatMap_le (Re.single_le h.1 hσ) fun ρ hρ => singleAll_le h.2 (Re.ways_fwd hρ hσ).2

theorem singleAny_le {E : Env} : ∀ {l : List Re} {s : List Ch} {σ : MState}, singleAny l = true → σ.pos ≤ s.length →
    (waysAny false E l s σ).length ≤ 1
  | [], s, σ, h, hσ => by simp [waysAny]
  | [r], s, σ, h, hσ => by
    simp only [singleAny] at h
    simp only [waysAny, List.append_nil]
    exact Re.single_le h hσ
  | r :: r' :: l, s, σ, h, hσ => by
    simp only [singleAny, Bool.and_eq_true] at h
    obtain ⟨⟨h1, h2⟩, h3⟩ := h
    split at h3
    · rename_i H K hH hK
      have ha := Re.single_le (E := E) h1 hσ
      have hb := singleAny_le (E := E) h2 hσ
      rw [waysAny, List.length_append]
      by_cases h4 : (r.ways false E s σ).length = 0
      · omega
      · by_cases h5 : (waysAny false E (r' :: l) s σ).length = 0
        · omega
        · exfalso
          obtain ⟨τ, hτ⟩ := List.exists_mem_of_length_pos (Nat.pos_of_ne_zero h4)
          obtain ⟨τ', hτ'⟩ := List.exists_mem_of_length_pos (Nat.pos_of_ne_zero h5)
          obtain ⟨v, h6, h7⟩ := Re.ways_heads hH hτ
          obtain ⟨w, h8, h9⟩ := waysAny_heads hK hτ'
          rw [h6] at h8
          cases h8
          exact apart_spec h3 h7 h9
    · simp at h3
end

/-! ### The two rules agree -/

theorem iteration_once {A B : MState → List MState} {σ : MState} (h : A σ = B σ) (hc : ∀ ρ ∈ B σ, ρ.pos ≠ σ.pos) :
    iteration true A σ = (iteration false B σ).take 1 := by
  have : (B σ).filter (fun ρ => decide (ρ.pos ≠ σ.pos)) = B σ := List.filter_eq_self.2 (by simpa using hc)
  simp only [iteration, if_true, Bool.false_eq_true, if_false, h, this, List.map_take]

theorem take_one_of {α : Type} {L : List α} (h : L.length ≤ 1) : L.take 1 = L := List.take_of_length_le h

mutual
theorem Re.firm_ways {E : Env} : ∀ {r : Re} {s : List Ch} {σ : MState}, r.firm = true → σ.pos ≤ s.length → r.ways true E s σ = r.ways false E s σ
  | .sel l, s, σ, h, hσ => by simp only [Re.firm] at h; simp only [Re.ways]; exact firmAny_ways h hσ
  | .seq l, s, σ, h, hσ => by simp only [Re.firm] at h; simp only [Re.ways]; exact firmAll_ways h hσ
  | .cap _ _ l, s, σ, h, hσ => by simp only [Re.firm] at h; simp only [Re.ways]; rw [firmAll_ways h hσ]
  | .rep k a b l, s, σ, h, hσ => by
    simp only [Re.firm, Bool.and_eq_true, Bool.or_eq_true, beq_iff_eq, decide_eq_true_eq] at h
    simp only [Re.ways]
    have hit : ∀ ρ : MState, ρ.pos ≤ s.length → iteration true (fun σ => waysAll true E l s σ) ρ =
        (iteration false (fun σ => waysAll false E l s σ) ρ).take 1 := by
      intro ρ hρ
      refine iteration_once (firmAll_ways h.2 hρ) ?_
      intro τ hτ
      have := waysAll_lt h.1.1 hρ hτ
      omega
    rcases h.1.2 with h1 | h1
    · refine repeats_congr (I := fun ρ => ρ.pos ≤ s.length) ?_ (iteration_keep (once := true)) k a b s.length σ hσ
      intro ρ hρ
      rw [hit ρ hρ]
      refine take_one_of ?_
      simp only [iteration, List.length_map, Bool.false_eq_true, if_false]
      exact singleAll_le h1 hρ
    · obtain ⟨rfl, h2⟩ := h1
      exact repeats_take (I := fun ρ => ρ.pos ≤ s.length) hit (iteration_keep (once := false)) h2 b s.length σ hσ
  | .ahead pos l, s, σ, h, hσ => by
    simp only [Re.firm] at h; simp only [Re.ways]; rw [firmAll_ways h hσ]
  | .behind pos l, s, σ, h, hσ => by
    simp only [Re.firm] at h; simp only [Re.ways]; rw [firmAll_ways h (by simp)]
  | .atomic l, s, σ, h, hσ => by
    simp only [Re.firm, Bool.and_eq_true] at h
    simp only [Re.ways]
    rw [iteration_once (firmAll_ways h.2 hσ), List.take_take]
    · rfl
    · intro τ hτ
      have := waysAll_lt h.1 hσ hτ
      omega
  | .cc _, s, σ, h, hσ | .any, s, σ, h, hσ | .str _, s, σ, h, hσ | .boundary _, s, σ, h, hσ | .notBoundary _, s, σ, h, hσ
  | .sBegin, s, σ, h, hσ | .sEnd, s, σ, h, hσ | .sEndLine, s, σ, h, hσ | .lBegin, s, σ, h, hσ | .lEnd, s, σ, h, hσ
  | .bref _, s, σ, h, hσ | .brefName _, s, σ, h, hσ
  | .empty, s, σ, h, hσ | .mode _, s, σ, h, hσ | .reject _, s, σ, h, hσ => by simp only [Re.ways]

theorem firmAll_ways {E : Env} : ∀ {l : List Re} {s : List Ch} {σ : MState}, firmAll l = true → σ.pos ≤ s.length →
    waysAll true E l s σ = waysAll false E l s σ
  | [], s, σ, h, hσ => by simp [waysAll]
  | r :: l, s, σ, h, hσ => by
    simp only [firmAll, Bool.and_eq_true] at h
    simp only [waysAll]
    rw [Re.firm_ways h.1 hσ]
    exact flatMap_same fun ρ hρ => firmAll_ways h.2 (Re.ways_fwd hρ hσ).2

theorem firmAny_ways {E : Env} : ∀ {l : List Re} {s : List Ch} {σ : MState}, firmAll l = true → σ.pos ≤ s.length →
    waysAny true E l s σ = waysAny false E l s σ
  | [], s, σ, h, hσ => by simp [waysAny]
  | r :: l, s, σ, h, hσ => by
    simp only [firmAll, Bool.and_eq_true] at h
    simp only [waysAny]
    rw [Re.firm_ways h.1 hσ, firmAny_ways h.2 hσ]
end

/-! ### The ways are the matches -/

theorem noGroups_same {E : Env} {l : List Re} {s : List Ch} {σ ρ : MState} (hg : noGroupsList l = true) (h : MatchAll E l s σ ρ) :
    ρ.cap = σ.cap := MatchAll.noGroups hg h

mutual
theorem Re.loose_iff {E : Env} : ∀ {r : Re} {s : List Ch} {σ τ : MState}, r.loose = true → σ.pos ≤ s.length →
    (τ ∈ r.ways false E s σ ↔ r.Match E s σ τ)
  | .sel l, s, σ, τ, h, hσ => by simp only [Re.loose] at h; simp only [Re.ways, Re.Match]; exact looseAny_iff h hσ
  | .seq l, s, σ, τ, h, hσ => by simp only [Re.loose] at h; simp only [Re.ways, Re.Match]; exact looseAll_iff h hσ
  | .cap _ _ l, s, σ, τ, h, hσ => by
    simp only [Re.loose] at h
    simp only [Re.ways, Re.Match, List.mem_map]
    constructor
    · rintro ⟨ρ, h1, rfl⟩; exact ⟨ρ, (looseAll_iff h hσ).1 h1, rfl⟩
    · rintro ⟨ρ, h1, rfl⟩; exact ⟨ρ, (looseAll_iff h hσ).2 h1, rfl⟩
  | .rep k a b l, s, σ, τ, h, hσ => by
    simp only [Re.loose, Bool.and_eq_true, bne_iff_ne, ne_eq] at h
    obtain ⟨⟨hk, hc⟩, hl⟩ := h
    simp only [Re.ways, Re.Match]
    have hstep : ∀ x y : MState, x.pos ≤ s.length → ((∃ ρ, MatchAll E l s x ρ ∧ y = { ρ with multiline := x.multiline, caseless := x.caseless }) ↔
        y ∈ iteration false (fun σ => waysAll false E l s σ) x) := by
      intro x y hx
      simp only [iteration, Bool.false_eq_true, if_false, List.mem_map]
      constructor
      · rintro ⟨ρ, h1, rfl⟩; exact ⟨ρ, (looseAll_iff hl hx).2 h1, rfl⟩
      · rintro ⟨ρ, h1, rfl⟩; exact ⟨ρ, (looseAll_iff hl hx).1 h1, rfl⟩
    have conv : ∀ {j : Nat} {x y : MState}, x.pos ≤ s.length →
        (Iterate (fun x y => ∃ ρ, MatchAll E l s x ρ ∧ y = { ρ with multiline := x.multiline, caseless := x.caseless }) j x y ↔
          Iterate (fun x y => y ∈ iteration false (fun σ => waysAll false E l s σ) x) j x y) := by
      intro j
      induction j with
      | zero => intro x y _; constructor <;> (intro h; cases h; exact .zero _)
      | succ j ih =>
        intro x y hx
        constructor
        · intro h
          cases h with
          | succ h1 h2 =>
            have h3 := (hstep _ _ hx).1 h1
            exact .succ h3 ((ih (iteration_keep _ _ hx h3)).1 h2)
        · intro h
          cases h with
          | succ h1 h2 => exact .succ ((hstep _ _ hx).2 h1) ((ih (iteration_keep _ _ hx h1)).2 h2)
    have bound : ∀ {j : Nat} {x y : MState}, x.pos ≤ s.length →
        Iterate (fun x y => y ∈ iteration false (fun σ => waysAll false E l s σ) x) j x y → x.pos + j ≤ s.length := by
      intro j
      induction j with
      | zero => intro x y hx _; omega
      | succ j ih =>
        intro x y hx h
        cases h with
        | @succ _ _ z _ h1 h2 =>
          have h3 := ih (iteration_keep _ _ hx h1) h2
          obtain ⟨ρ, h4, rfl⟩ := mem_iteration h1
          have := waysAll_lt hc hx h4
          simp only at h3
          omega
    constructor
    · intro h
      obtain ⟨j, h1, h2, h3⟩ := mem_repeats h
      exact ⟨j, h1, h2, (conv hσ).2 h3⟩
    · rintro ⟨j, h1, h2, h3⟩
      rw [conv hσ] at h3
      obtain ⟨i, rfl⟩ : ∃ i, j = a + i := ⟨j - a, by omega⟩
      obtain ⟨ρ, h4, h5⟩ := h3.split
      have h6 : ρ.pos ≤ s.length := Iterate.inv (P := fun ρ : MState => ρ.pos ≤ s.length) (fun x y h1 h2 => iteration_keep x y h2 h1) h4 hσ
      have h7 : i ≤ (if b = 0 then s.length else b - a) := by
        split
        · have := bound h6 h5; omega
        · omega
      have hab : ¬ (b ≠ 0 ∧ b < a) := by omega
      simp only [repeats, if_neg hab]
      cases k with
      | lazy => exact List.mem_flatMap.2 ⟨ρ, mem_times.2 h4, mem_fewest.2 ⟨i, h7, h5⟩⟩
      | greedy => exact List.mem_flatMap.2 ⟨ρ, mem_times.2 h4, mem_most.2 ⟨i, h7, h5⟩⟩
      | poss => exact absurd rfl hk
  | .ahead true l, s, σ, τ, h, hσ => by
    simp only [Re.loose, Bool.not_true, Bool.false_or, Bool.and_eq_true] at h
    simp only [Re.ways, Re.Match, if_true]
    have key : ∀ ρ, ρ ∈ waysAll false E l s σ ↔ MatchAll E l s σ ρ := fun ρ => looseAll_iff h.2 hσ
    cases hw : waysAll false E l s σ with
    | nil =>
      simp only [List.not_mem_nil, false_iff]
      rintro ⟨ρ, h1, _⟩
      rw [← key, hw] at h1
      simp at h1
    | cons ρ0 _ =>
      have h0 := (key ρ0).1 (by rw [hw]; simp)
      simp only [List.mem_singleton]
      constructor
      · rintro rfl; exact ⟨ρ0, h0, rfl⟩
      · rintro ⟨ρ, h1, rfl⟩
        rw [noGroups_same h.1 h0, noGroups_same h.1 h1]
  | .ahead false l, s, σ, τ, h, hσ => by
    simp only [Re.loose, Bool.not_false, Bool.true_or, Bool.true_and] at h
    simp only [Re.ways, Re.Match]
    have key : ∀ ρ, ρ ∈ waysAll false E l s σ ↔ MatchAll E l s σ ρ := fun ρ => looseAll_iff h hσ
    cases hw : waysAll false E l s σ with
    | nil =>
      simp only [Bool.false_eq_true, if_false, List.mem_singleton]
      constructor
      · rintro rfl
        refine ⟨?_, rfl⟩
        rintro ⟨ρ, h1⟩
        rw [← key, hw] at h1
        simp at h1
      · rintro ⟨_, rfl⟩; rfl
    | cons ρ0 _ =>
      have h0 := (key ρ0).1 (by rw [hw]; simp)
      simp only [Bool.false_eq_true, if_false, List.not_mem_nil, false_iff]
      rintro ⟨h1, _⟩
      exact h1 ⟨ρ0, h0⟩
  | .behind true l, s, σ, τ, h, hσ => by
    simp only [Re.loose, Bool.not_true, Bool.false_or, Bool.and_eq_true] at h
    simp only [Re.ways, Re.Match, if_true]
    have key : ∀ ρ, ρ ∈ waysAll false E l s.reverse { σ with pos := s.length - σ.pos } ↔
        MatchAll E l s.reverse { σ with pos := s.length - σ.pos } ρ := fun ρ => looseAll_iff h.2 (by simp)
    cases hw : waysAll false E l s.reverse { σ with pos := s.length - σ.pos } with
    | nil =>
      simp only [List.not_mem_nil, false_iff]
      rintro ⟨ρ, h1, _⟩
      rw [← key, hw] at h1
      simp at h1
    | cons ρ0 _ =>
      have h0 := (key ρ0).1 (by rw [hw]; simp)
      simp only [List.mem_singleton]
      constructor
      · rintro rfl; exact ⟨ρ0, h0, rfl⟩
      · rintro ⟨ρ, h1, rfl⟩
        rw [noGroups_same h.1 h0, noGroups_same h.1 h1]
  | .behind false l, s, σ, τ, h, hσ => by
    simp only [Re.loose, Bool.not_false, Bool.true_or, Bool.true_and] at h
    simp only [Re.ways, Re.Match]
    have key : ∀ ρ, ρ ∈ waysAll false E l s.reverse { σ with pos := s.length - σ.pos } ↔
        MatchAll E l s.reverse { σ with pos := s.length - σ.pos } ρ := fun ρ => looseAll_iff h (by simp)
    cases hw : waysAll false E l s.reverse { σ with pos := s.length - σ.pos } with
    | nil =>
      simp only [Bool.false_eq_true, if_false, List.mem_singleton]
      constructor
      · rintro rfl
        refine ⟨?_, rfl⟩
        rintro ⟨ρ, h1⟩
        rw [← key, hw] at h1
        simp at h1
      · rintro ⟨_, rfl⟩; rfl
    | cons ρ0 _ =>
      have h0 := (key ρ0).1 (by rw [hw]; simp)
      simp only [Bool.false_eq_true, if_false, List.not_mem_nil, false_iff]
      rintro ⟨h1, _⟩
      exact h1 ⟨ρ0, h0⟩
  | .atomic l, s, σ, τ, h, hσ => by simp [Re.loose] at h
  | .bref _, s, σ, τ, h, hσ => by simp only [Re.ways, Re.Match]; exact waysAgain_iff
  | .brefName n, s, σ, τ, h, hσ => by
    simp only [Re.ways, Re.Match]
    cases hn : E.number n with
    | none => simp
    | some id => simp only [Option.some.injEq, exists_eq_left', waysAgain_iff]
  | .cc _, s, σ, τ, h, hσ => by
    simp only [Re.ways, Re.Match]
    split <;> rename_i hc <;> simp [hc]
  | .any, s, σ, τ, h, hσ => by
    simp only [Re.ways, Re.Match]
    split <;> rename_i hc
    · simp only [List.mem_singleton]
      exact ⟨fun h => ⟨hc.1, hc.2, h⟩, fun h => h.2.2⟩
    · simp only [List.not_mem_nil, false_iff]
      rintro ⟨h1, h2, _⟩; exact hc ⟨h1, h2⟩
  | .str _, s, σ, τ, h, hσ => by
    simp only [Re.ways, Re.Match]
    split <;> rename_i hc
    · simp only [List.mem_singleton]
      exact ⟨fun h => ⟨hc, h⟩, fun h => h.2⟩
    · simp only [List.not_mem_nil, false_iff]
      rintro ⟨h1, _⟩; exact hc h1
  | .boundary _, s, σ, τ, h, hσ | .notBoundary _, s, σ, τ, h, hσ
  | .sBegin, s, σ, τ, h, hσ | .sEnd, s, σ, τ, h, hσ | .sEndLine, s, σ, τ, h, hσ | .lBegin, s, σ, τ, h, hσ | .lEnd, s, σ, τ, h, hσ => by
    simp only [Re.ways, Re.Match]
    split <;> rename_i hc
    · simp only [List.mem_singleton]
      exact ⟨fun h => ⟨hc, h⟩, fun h => h.2⟩
    · simp only [List.not_mem_nil, false_iff]
      rintro ⟨h1, _⟩; exact hc h1
  | .empty, s, σ, τ, h, hσ | .mode _, s, σ, τ, h, hσ | .reject _, s, σ, τ, h, hσ => by simp [Re.ways, Re.Match]

theorem looseAll_iff {E : Env} : ∀ {l : List Re} {s : List Ch} {σ τ : MState}, looseAll l = true → σ.pos ≤ s.length →
    (τ ∈ waysAll false E l s σ ↔ MatchAll E l s σ τ)
  | [], s, σ, τ, h, hσ => by simp [waysAll, MatchAll]
  | r :: l, s, σ, τ, h, hσ => by
    simp only [looseAll, Bool.and_eq_true] at h
    simp only [waysAll, MatchAll, List.mem_flatMap]
    constructor
    · rintro ⟨ρ, h1, h2⟩
      exact ⟨ρ, (Re.loose_iff h.1 hσ).1 h1, (looseAll_iff h.2 (Re.ways_fwd h1 hσ).2).1 h2⟩
    · rintro ⟨ρ, h1, h2⟩
      have h3 := (Re.loose_iff h.1 hσ).2 h1
      exact ⟨ρ, h3, (looseAll_iff h.2 (Re.ways_fwd h3 hσ).2).2 h2⟩

theorem looseAny_iff {E : Env} : ∀ {l : List Re} {s : List Ch} {σ τ : MState}, looseAll l = true → σ.pos ≤ s.length →
    (τ ∈ waysAny false E l s σ ↔ MatchAny E l s σ τ)
  | [], s, σ, τ, h, hσ => by simp [waysAny, MatchAny]
  | r :: l, s, σ, τ, h, hσ => by
    simp only [looseAll, Bool.and_eq_true] at h
    simp only [waysAny, MatchAny, List.mem_append]
    rw [Re.loose_iff h.1 hσ, looseAny_iff h.2 hσ]
end

end Ctre
