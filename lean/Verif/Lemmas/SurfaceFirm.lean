import Verif.Lemmas.SurfaceOrder

/-
When the rule of the library for iterations and the usual rule give the same ways of a syntax tree, in the same order, and when
the ways are all the matches.
-/
namespace Ctre.Parse
open Surface
variable {E : Env} {once : Bool}

/-! ### Quantifiers -/

theorem one_ways {a : Atom} {q : Quant} (h : q ≠ .none) {s : List Ch} {σ : MState} :
    (Cat.one a q).ways once E s σ = q.ways (iteration once fun σ => a.ways once E s σ) s.length σ := by
  cases q <;> first | exact (h rfl).elim | simp only [Cat.ways]

theorem cons_ways {a : Atom} {q : Quant} {l : Cat} {s : List Ch} {σ : MState} :
    (Cat.cons a q l).ways once E s σ = ((Cat.one a q).ways once E s σ).flatMap fun ρ => l.ways once E s ρ := by
  cases q <;> simp only [Cat.ways]

theorem mem_quantWays {q : Quant} {it : MState → List MState} {room : Nat} {x y : MState} (h : y ∈ q.ways it room x) :
    ∃ i, i ≤ q.extra room ∧ Iterate (fun x y => y ∈ it x) (q.low + i) x y := by
  have key : ∀ z, z ∈ times it q.low x → ∀ i, i ≤ q.extra room → Iterate (fun x y => y ∈ it x) i z y →
      ∃ i, i ≤ q.extra room ∧ Iterate (fun x y => y ∈ it x) (q.low + i) x y :=
    fun z hz i hi h2 => ⟨i, hi, (mem_times.1 hz).add h2⟩
  unfold Quant.ways at h
  split at h
  · obtain ⟨z, hz, h⟩ := List.mem_flatMap.1 h
    obtain ⟨i, hi, h⟩ := mem_fewest.1 h
    exact key z hz i hi h
  · obtain ⟨z, hz, h⟩ := List.mem_flatMap.1 h
    obtain ⟨i, hi, h⟩ := mem_most.1 h
    exact key z hz i hi h
  · obtain ⟨z, hz, h⟩ := List.mem_flatMap.1 (List.mem_of_mem_take h)
    obtain ⟨i, hi, h⟩ := mem_most.1 h
    exact key z hz i hi h

theorem quantWays_mem {q : Quant} (hk : q.kind ≠ .poss) {it : MState → List MState} {room i : Nat} {x y : MState} (hi : i ≤ q.extra room)
    (h : Iterate (fun x y => y ∈ it x) (q.low + i) x y) : y ∈ q.ways it room x := by
  obtain ⟨z, h1, h2⟩ := h.split
  unfold Quant.ways
  split
  · exact List.mem_flatMap.2 ⟨z, mem_times.2 h1, mem_fewest.2 ⟨i, hi, h2⟩⟩
  · exact List.mem_flatMap.2 ⟨z, mem_times.2 h1, mem_most.2 ⟨i, hi, h2⟩⟩
  · rename_i h; exact (hk h).elim

theorem quantWays_repeats {q : Quant} (h : q.Faithful) (hn : q ≠ .none) : ∃ b, ∀ it room σ, q.ways it room σ = repeats it q.kind q.low b room σ := by
  cases q with
  | none => exact (hn rfl).elim
  | opt k => exact ⟨1, fun it room σ => by cases k <;> simp [repeats, Quant.ways, Quant.kind, Quant.low, Quant.extra]⟩
  | star k => exact ⟨0, fun it room σ => by cases k <;> simp [repeats, Quant.ways, Quant.kind, Quant.low, Quant.extra]⟩
  | plus k => exact ⟨0, fun it room σ => by cases k <;> simp [repeats, Quant.ways, Quant.kind, Quant.low, Quant.extra]⟩
  | exactly ds =>
    simp only [Quant.Faithful] at h
    exact ⟨decimal ds, fun it room σ => by simp [repeats, Quant.ways, Quant.kind, Quant.low, Quant.extra, show decimal ds ≠ 0 by omega]⟩
  | atLeast ds k => exact ⟨0, fun it room σ => by cases k <;> simp [repeats, Quant.ways, Quant.kind, Quant.low, Quant.extra]⟩
  | between ds es k =>
    simp only [Quant.Faithful] at h
    have h1 : ¬ (decimal es ≠ 0 ∧ decimal es < decimal ds) := by omega
    have h2 : decimal es ≠ 0 := by omega
    exact ⟨decimal es, fun it room σ => by
      cases k <;> simp only [repeats, Quant.ways, Quant.kind, Quant.low, Quant.extra, if_neg h1, if_neg h2]⟩

theorem fixed_extra {q : Quant} (h : q.fixed = true) (room : Nat) : q.extra room = 0 := by
  cases q <;> simp_all [Quant.fixed, Quant.extra]

/-! ### Positions -/

theorem stepIf_mem {p : Ch → Bool} {s : List Ch} {σ τ : MState} (h : τ ∈ stepIf p s σ) :
    ∃ v, s[σ.pos]? = some v ∧ p v = true ∧ τ = { σ with pos := σ.pos + 1 } := by
  unfold stepIf at h
  split at h
  · rename_i v hv
    split at h
    · rename_i hp; exact ⟨v, hv, hp, by simpa using h⟩
    · simp at h
  · simp at h

theorem stepIf_iff {p : Ch → Bool} {s : List Ch} {σ τ : MState} :
    τ ∈ stepIf p s σ ↔ ∃ v, s[σ.pos]? = some v ∧ p v = true ∧ τ = { σ with pos := σ.pos + 1 } := by
  refine ⟨stepIf_mem, ?_⟩
  rintro ⟨v, hv, hp, rfl⟩
  unfold stepIf; rw [hv]; simp [hp]

theorem stepIf_fwd {p : Ch → Bool} {s : List Ch} {σ τ : MState} (h : τ ∈ stepIf p s σ) : MFwd s σ τ := by
  obtain ⟨v, hv, _, rfl⟩ := stepIf_mem h
  have := (List.getElem?_eq_some_iff.1 hv).1
  intro _; simp only; omega

theorem stayIf_iff {p : Bool} {σ τ : MState} : τ ∈ stayIf p σ ↔ p = true ∧ τ = σ := by
  unfold stayIf; split <;> simp_all

theorem mfwd_same {s : List Ch} {σ τ : MState} (h : τ.pos = σ.pos) : MFwd s σ τ := fun hσ => by omega

theorem again_fwd {s : List Ch} {σ τ : MState} {id : Nat} (h : τ ∈ waysAgain s σ id) : MFwd s σ τ := by
  obtain ⟨b, e, _, h1, h2, _, rfl⟩ := mem_waysAgain h
  intro _; simp only; omega

theorem item_fwd {a : Atom} {q : Quant} {s : List Ch} (ha : ∀ {σ τ : MState}, τ ∈ a.ways once E s σ → MFwd s σ τ) {σ τ : MState}
    (h : τ ∈ (Cat.one a q).ways once E s σ) : MFwd s σ τ := by
  by_cases hq : q = .none
  · subst hq; simp only [Cat.ways] at h; exact ha h
  · rw [one_ways hq] at h
    obtain ⟨i, _, h⟩ := mem_quantWays h
    refine miterate_fwd ?_ h
    intro u v huv
    obtain ⟨z, hz, rfl⟩ := mem_iteration huv
    exact (ha hz).of rfl rfl

mutual
theorem atom_fwd {s : List Ch} : ∀ {a : Atom} {σ τ : MState}, τ ∈ a.ways once E s σ → MFwd s σ τ
  | .ch _, _, _, h | .cls _, _, _, h | .set _ _, _, _, h | .dot, _, _, h => by simp only [Atom.ways] at h; exact stepIf_fwd h
  | .unknown _ _, _, _, h => by simp [Atom.ways] at h
  | .bol, _, _, h | .eol, _, _, h | .subjectBegin, _, _, h | .subjectEnd, _, _, h | .subjectEndLine, _, _, h
  | .wordBoundary, _, _, h | .notWordBoundary, _, _, h | .behind _ _, _, _, h => by
    simp only [Atom.ways] at h
    obtain ⟨_, rfl⟩ := stayIf_iff.1 h
    exact mfwd_same rfl
  | .ref _, _, _, h | .refNumber _, _, _, h | .refRelative _ _, _, _, h => by simp only [Atom.ways] at h; exact again_fwd h
  | .refName n, _, _, h => by
    simp only [Atom.ways] at h
    split at h
    · simp at h
    · exact again_fwd h
  | .cap _ b, _, _, h | .named _ _ b, _, _, h => by
    simp only [Atom.ways, List.mem_map] at h
    obtain ⟨ρ, h, rfl⟩ := h
    exact (body_fwd h).of rfl rfl
  | .group b, _, _, h => by simp only [Atom.ways] at h; exact body_fwd h
  | .ahead pos b, _, _, h => by
    simp only [Atom.ways] at h
    split at h <;> split at h <;> simp at h <;> subst h <;> exact mfwd_same rfl
  | .atomic b, _, _, h => by
    simp only [Atom.ways] at h
    obtain ⟨z, hz, rfl⟩ := mem_iteration (List.mem_of_mem_take h)
    exact (body_fwd hz).of rfl rfl
  | .mode m, _, _, h => by
    simp only [Atom.ways, List.mem_singleton] at h
    subst h; cases m <;> exact mfwd_same rfl

theorem cat_fwd {s : List Ch} : ∀ {c : Cat} {σ τ : MState}, τ ∈ c.ways once E s σ → MFwd s σ τ
  | .one a q, _, _, h => item_fwd (fun h => atom_fwd h) h
  | .cons a q l, σ, _, h => by
    rw [cons_ways] at h
    obtain ⟨ρ, h1, h2⟩ := List.mem_flatMap.1 h
    intro hσ
    have h3 := item_fwd (a := a) (fun h => atom_fwd h) h1 hσ
    have h4 := cat_fwd (c := l) h2 h3.2
    omega

theorem alt_fwd {s : List Ch} : ∀ {l : Alt} {σ τ : MState}, τ ∈ l.ways once E s σ → MFwd s σ τ
  | .empty, _, _, h => by simp only [Alt.ways, List.mem_singleton] at h; subst h; exact mfwd_same rfl
  | .one c, _, _, h => by simp only [Alt.ways] at h; exact cat_fwd h
  | .bar c l, _, _, h => by
    simp only [Alt.ways, List.mem_append] at h
    rcases h with h | h
    · exact cat_fwd h
    · exact alt_fwd h

theorem body_fwd {s : List Ch} : ∀ {b : Body} {σ τ : MState}, τ ∈ b.ways once E s σ → MFwd s σ τ
  | .alt l, _, _, h => by simp only [Body.ways] at h; exact alt_fwd h
  | .lead l, _, _, h => by
    simp only [Body.ways, List.mem_cons] at h
    rcases h with rfl | h
    · exact mfwd_same rfl
    · exact alt_fwd h
end

theorem atom_iteration_keep {a : Atom} {s : List Ch} (σ τ : MState) (hσ : σ.pos ≤ s.length)
    (h : τ ∈ iteration once (fun σ => a.ways once E s σ) σ) : τ.pos ≤ s.length := by
  obtain ⟨ρ, h1, rfl⟩ := mem_iteration h
  exact (atom_fwd h1 hσ).2

theorem item_lt {a : Atom} {q : Quant} {s : List Ch} (ha : ∀ {σ τ : MState}, σ.pos ≤ s.length → τ ∈ a.ways once E s σ → σ.pos < τ.pos)
    (hq : 1 ≤ q.low) {σ τ : MState} (hσ : σ.pos ≤ s.length) (h : τ ∈ (Cat.one a q).ways once E s σ) : σ.pos < τ.pos := by
  by_cases hn : q = .none
  · subst hn; simp only [Cat.ways] at h; exact ha hσ h
  · rw [one_ways hn] at h
    obtain ⟨i, _, h⟩ := mem_quantWays h
    have hstep : ∀ u v : MState, v ∈ iteration once (fun σ => a.ways once E s σ) u → MFwd s u v := by
      intro u v huv
      obtain ⟨z, hz, rfl⟩ := mem_iteration huv
      exact (atom_fwd hz).of rfl rfl
    generalize hj : q.low + i = j at h
    cases h with
    | zero => omega
    | succ h4 h5 =>
      have h8 := hstep _ _ h4 hσ
      obtain ⟨z, hz, rfl⟩ := mem_iteration h4
      have h6 := ha hσ hz
      have h7 := miterate_fwd hstep h5 h8.2
      simp only at h7
      omega

mutual
theorem atom_lt {s : List Ch} : ∀ {a : Atom} {σ τ : MState}, a.consumes = true → σ.pos ≤ s.length → τ ∈ a.ways once E s σ → σ.pos < τ.pos
  | .ch _, _, _, _, _, h | .cls _, _, _, _, _, h | .set _ _, _, _, _, _, h | .dot, _, _, _, _, h => by
    simp only [Atom.ways] at h
    obtain ⟨_, _, _, rfl⟩ := stepIf_mem h
    simp
  | .unknown _ _, _, _, _, _, h => by simp [Atom.ways] at h
  | .cap _ b, _, _, hc, hσ, h | .named _ _ b, _, _, hc, hσ, h => by
    simp only [Atom.ways, List.mem_map] at h
    simp only [Atom.consumes] at hc
    obtain ⟨ρ, h, rfl⟩ := h
    have := body_lt hc hσ h
    exact this
  | .group b, _, _, hc, hσ, h => by
    simp only [Atom.ways] at h; simp only [Atom.consumes] at hc; exact body_lt hc hσ h
  | .atomic b, _, _, hc, hσ, h => by
    simp only [Atom.ways] at h
    simp only [Atom.consumes] at hc
    obtain ⟨z, hz, rfl⟩ := mem_iteration (List.mem_of_mem_take h)
    have := body_lt hc hσ hz
    exact this
  | .bol, _, _, hc, _, _ | .eol, _, _, hc, _, _ | .subjectBegin, _, _, hc, _, _ | .subjectEnd, _, _, hc, _, _
  | .subjectEndLine, _, _, hc, _, _ | .wordBoundary, _, _, hc, _, _ | .notWordBoundary, _, _, hc, _, _ | .behind _ _, _, _, hc, _, _
  | .ref _, _, _, hc, _, _ | .refNumber _, _, _, hc, _, _ | .refRelative _ _, _, _, hc, _, _ | .refName _, _, _, hc, _, _
  | .ahead _ _, _, _, hc, _, _ | .mode _, _, _, hc, _, _ => by simp [Atom.consumes] at hc

theorem cat_lt {s : List Ch} : ∀ {c : Cat} {σ τ : MState}, c.consumes = true → σ.pos ≤ s.length → τ ∈ c.ways once E s σ → σ.pos < τ.pos
  | .one a q, _, _, hc, hσ, h => by
    simp only [Cat.consumes, Bool.and_eq_true, decide_eq_true_eq] at hc
    exact item_lt (fun hσ h => atom_lt hc.2 hσ h) hc.1 hσ h
  | .cons a q l, σ, _, hc, hσ, h => by
    rw [cons_ways] at h
    obtain ⟨ρ, h1, h2⟩ := List.mem_flatMap.1 h
    simp only [Cat.consumes, Bool.or_eq_true, Bool.and_eq_true, decide_eq_true_eq] at hc
    have h3 := item_fwd (a := a) (fun h => atom_fwd h) h1 hσ
    have h4 := cat_fwd (c := l) h2 h3.2
    rcases hc with hc | hc
    · have := item_lt (a := a) (fun hσ h => atom_lt hc.2 hσ h) hc.1 hσ h1; omega
    · have := cat_lt (c := l) hc h3.2 h2; omega

theorem alt_lt {s : List Ch} : ∀ {l : Alt} {σ τ : MState}, l.consumes = true → σ.pos ≤ s.length → τ ∈ l.ways once E s σ → σ.pos < τ.pos
  | .empty, _, _, hc, _, _ => by simp [Alt.consumes] at hc
  | .one c, _, _, hc, hσ, h => by simp only [Alt.ways] at h; simp only [Alt.consumes] at hc; exact cat_lt hc hσ h
  | .bar c l, _, _, hc, hσ, h => by
    simp only [Alt.ways, List.mem_append] at h
    simp only [Alt.consumes, Bool.and_eq_true] at hc
    rcases h with h | h
    · exact cat_lt hc.1 hσ h
    · exact alt_lt hc.2 hσ h

theorem body_lt {s : List Ch} : ∀ {b : Body} {σ τ : MState}, b.consumes = true → σ.pos ≤ s.length → τ ∈ b.ways once E s σ → σ.pos < τ.pos
  | .alt l, _, _, hc, hσ, h => by simp only [Body.ways] at h; simp only [Body.consumes] at hc; exact alt_lt hc hσ h
  | .lead l, _, _, hc, _, _ => by simp [Body.consumes] at hc
end

/-! ### First characters -/

theorem listed_has {U : Uni} {ci : Bool} {v : Ch} : ∀ {l : List SetItem} {H : List Nat}, listed l = some H → (∃ i ∈ l, i.has U ci v) →
    H.any (matchCharacter ci v) = true
  | [], _, _, h => by simp at h
  | .one c :: l, H, hh, h => by
    simp only [listed, Option.map_eq_some_iff] at hh
    obtain ⟨K, hK, rfl⟩ := hh
    simp only [List.mem_cons, exists_eq_or_imp] at h
    simp only [List.any_cons, Bool.or_eq_true]
    rcases h with h | h
    · left; simpa [SetItem.has, CC.matchChar] using h
    · right; exact listed_has hK h
  | .range _ _ :: _, _, hh, _ | .cls _ :: _, _, hh, _ | .posix _ _ :: _, _, hh, _ => by simp [listed] at hh

theorem item_heads {a : Atom} {q : Quant} {s : List Ch} {H : List Nat} (ha : ∀ {σ τ : MState}, τ ∈ a.ways once E s σ → HeadIn s σ H)
    (hq : q.low ≠ 0) {σ τ : MState} (h : τ ∈ (Cat.one a q).ways once E s σ) : HeadIn s σ H := by
  by_cases hn : q = .none
  · subst hn; simp only [Cat.ways] at h; exact ha h
  · rw [one_ways hn] at h
    obtain ⟨i, _, h⟩ := mem_quantWays h
    generalize hj : q.low + i = j at h
    cases h with
    | zero => omega
    | succ h4 _ =>
      obtain ⟨z, hz, _⟩ := mem_iteration h4
      exact ha hz

mutual
theorem atom_heads {s : List Ch} : ∀ {a : Atom} {H : List Nat} {σ τ : MState}, a.heads = some H → τ ∈ a.ways once E s σ → HeadIn s σ H
  | .ch c, H, σ, τ, hh, h => by
    simp only [Atom.heads, Option.some.injEq] at hh
    subst hh
    simp only [Atom.ways] at h
    obtain ⟨v, h1, h2, _⟩ := stepIf_mem h
    exact ⟨v, h1, by simpa [CC.matchChar] using h2⟩
  | .set false l, H, σ, τ, hh, h => by
    simp only [Atom.heads] at hh
    simp only [Atom.ways] at h
    obtain ⟨v, h1, h2, _⟩ := stepIf_mem h
    exact ⟨v, h1, listed_has (U := E.uni) hh (by simpa using h2)⟩
  | .cap _ b, H, σ, τ, hh, h | .named _ _ b, H, σ, τ, hh, h => by
    simp only [Atom.ways, List.mem_map] at h
    simp only [Atom.heads] at hh
    obtain ⟨ρ, h, rfl⟩ := h
    exact body_heads hh h
  | .group b, H, σ, τ, hh, h => by
    simp only [Atom.ways] at h; simp only [Atom.heads] at hh; exact body_heads hh h
  | .atomic b, H, σ, τ, hh, h => by
    simp only [Atom.ways] at h
    simp only [Atom.heads] at hh
    obtain ⟨z, hz, rfl⟩ := mem_iteration (List.mem_of_mem_take h)
    exact body_heads hh hz
  | .cls _, _, _, _, hh, _ | .set true _, _, _, _, hh, _ | .dot, _, _, _, hh, _ | .unknown _ _, _, _, _, hh, _
  | .bol, _, _, _, hh, _ | .eol, _, _, _, hh, _ | .subjectBegin, _, _, _, hh, _ | .subjectEnd, _, _, _, hh, _
  | .subjectEndLine, _, _, _, hh, _ | .wordBoundary, _, _, _, hh, _ | .notWordBoundary, _, _, _, hh, _ | .behind _ _, _, _, _, hh, _
  | .ref _, _, _, _, hh, _ | .refNumber _, _, _, _, hh, _ | .refRelative _ _, _, _, _, hh, _ | .refName _, _, _, _, hh, _
  | .ahead _ _, _, _, _, hh, _ | .mode _, _, _, _, hh, _ => by simp [Atom.heads] at hh

theorem cat_heads {s : List Ch} : ∀ {c : Cat} {H : List Nat} {σ τ : MState}, c.heads = some H → τ ∈ c.ways once E s σ → HeadIn s σ H
  | .one a q, H, σ, τ, hh, h => by
    simp only [Cat.heads] at hh
    split at hh
    · simp at hh
    · rename_i hq; exact item_heads (fun h => atom_heads hh h) hq h
  | .cons a q l, H, σ, τ, hh, h => by
    rw [cons_ways] at h
    obtain ⟨ρ, h1, h2⟩ := List.mem_flatMap.1 h
    simp only [Cat.heads] at hh
    split at hh
    · simp at hh
    · rename_i hq; exact item_heads (fun h => atom_heads hh h) hq h1

theorem alt_heads {s : List Ch} : ∀ {l : Alt} {H : List Nat} {σ τ : MState}, l.heads = some H → τ ∈ l.ways once E s σ → HeadIn s σ H
  | .empty, _, _, _, hh, _ => by simp [Alt.heads] at hh
  | .one c, H, σ, τ, hh, h => by simp only [Alt.ways] at h; simp only [Alt.heads] at hh; exact cat_heads hh h
  | .bar c l, H, σ, τ, hh, h => by
    simp only [Alt.ways, List.mem_append] at h
    simp only [Alt.heads] at hh
    split at hh
    · rename_i A B hA hB
      simp only [Option.some.injEq] at hh
      subst hh
      rcases h with h | h
      · obtain ⟨v, h1, h2⟩ := cat_heads hA h
        exact ⟨v, h1, by simp only [List.any_append, h2, Bool.true_or]⟩
      · obtain ⟨v, h1, h2⟩ := alt_heads hB h
        exact ⟨v, h1, by simp only [List.any_append, h2, Bool.or_true]⟩
    · simp at hh

theorem body_heads {s : List Ch} : ∀ {b : Body} {H : List Nat} {σ τ : MState}, b.heads = some H → τ ∈ b.ways once E s σ → HeadIn s σ H
  | .alt l, H, σ, τ, hh, h => by simp only [Body.ways] at h; simp only [Body.heads] at hh; exact alt_heads hh h
  | .lead l, _, _, _, hh, _ => by simp [Body.heads] at hh
end

/-! ### At most one way -/

theorem stepIf_le {p : Ch → Bool} {s : List Ch} {σ : MState} : (stepIf p s σ).length ≤ 1 := by
  unfold stepIf; split
  · split <;> simp
  · simp

theorem stayIf_le {p : Bool} {σ : MState} : (stayIf p σ).length ≤ 1 := by unfold stayIf; split <;> simp

theorem again_le {s : List Ch} {σ : MState} {id : Nat} : (waysAgain s σ id).length ≤ 1 := by
  unfold waysAgain; split
  · simp
  · split <;> simp

theorem item_le {a : Atom} {q : Quant} {s : List Ch} (h : q.kind = .poss ∨ (q.fixed = true ∧ ∀ {σ : MState}, σ.pos ≤ s.length →
    (a.ways once E s σ).length ≤ 1)) {σ : MState} (hσ : σ.pos ≤ s.length) : ((Cat.one a q).ways once E s σ).length ≤ 1 := by
  by_cases hn : q = .none
  · subst hn
    rcases h with h | h
    · simp [Quant.kind] at h
    · simp only [Cat.ways]; exact h.2 hσ
  · rw [one_ways hn]
    by_cases hk : q.kind = .poss
    · simp only [Quant.ways, hk, List.length_take]; omega
    · rcases h with h | ⟨hf, ha⟩
      · exact (hk h).elim
      · have hit : ∀ ρ : MState, ρ.pos ≤ s.length → (iteration once (fun σ => a.ways once E s σ) ρ).length ≤ 1 := by
          intro ρ hρ
          cases once with
          | true => exact iteration_le _ ρ
          | false =>
            simp only [iteration, List.length_map, Bool.false_eq_true, if_false]
            exact ha hρ
        have ht := length_times_le hit (atom_iteration_keep (once := once) (E := E) (a := a) (s := s)) q.low σ hσ
        simp only [Quant.ways, fixed_extra hf]
        split
        · exact length_flatMap_le ht (by simp [fewest])
        · exact length_flatMap_le ht (by simp [most])
        · rename_i h; exact (hk h).elim

mutual
theorem atom_le {s : List Ch} : ∀ {a : Atom} {σ : MState}, a.single = true → σ.pos ≤ s.length → (a.ways once E s σ).length ≤ 1
  | .ch _, _, _, _ | .cls _, _, _, _ | .set _ _, _, _, _ | .dot, _, _, _ => by simp only [Atom.ways]; exact stepIf_le
  | .unknown _ _, _, _, _ | .mode _, _, _, _ => by simp [Atom.ways]
  | .bol, _, _, _ | .eol, _, _, _ | .subjectBegin, _, _, _ | .subjectEnd, _, _, _ | .subjectEndLine, _, _, _
  | .wordBoundary, _, _, _ | .notWordBoundary, _, _, _ | .behind _ _, _, _, _ => by simp only [Atom.ways]; exact stayIf_le
  | .ref _, _, _, _ | .refNumber _, _, _, _ | .refRelative _ _, _, _, _ => by simp only [Atom.ways]; exact again_le
  | .refName n, _, _, _ => by
    simp only [Atom.ways]
    split
    · simp
    · exact again_le
  | .cap _ b, _, h, hσ | .named _ _ b, _, h, hσ => by
    simp only [Atom.single] at h; simp only [Atom.ways, List.length_map]; exact body_le h hσ
  | .group b, _, h, hσ => by simp only [Atom.single] at h; simp only [Atom.ways]; exact body_le h hσ
  | .ahead pos b, _, _, _ => by simp only [Atom.ways]; split <;> split <;> simp
  | .atomic b, _, _, _ => by simp only [Atom.ways, List.length_take]; omega

theorem cat_le {s : List Ch} : ∀ {c : Cat} {σ : MState}, c.single = true → σ.pos ≤ s.length → (c.ways once E s σ).length ≤ 1
  | .one a q, _, h, hσ => by
    simp only [Cat.single, Bool.or_eq_true, Bool.and_eq_true, decide_eq_true_eq] at h
    exact item_le (h.imp_right fun h => ⟨h.1, fun hσ => atom_le h.2 hσ⟩) hσ
  | .cons a q l, _, h, hσ => by
    simp only [Cat.single, Bool.or_eq_true, Bool.and_eq_true, decide_eq_true_eq] at h
    rw [cons_ways]
    exact length_flatMap_le (item_le (h.1.imp_right fun h => ⟨h.1, fun hσ => atom_le h.2 hσ⟩) hσ) fun ρ hρ =>
      cat_le h.2 (item_fwd (fun h => atom_fwd h) hρ hσ).2

theorem alt_le {s : List Ch} : ∀ {l : Alt} {σ : MState}, l.single = true → σ.pos ≤ s.length → (l.ways once E s σ).length ≤ 1
  | .empty, _, _, _ => by simp [Alt.ways]
  | .one c, _, h, hσ => by simp only [Alt.single] at h; simp only [Alt.ways]; exact cat_le h hσ
  | .bar c l, σ, h, hσ => by
    simp only [Alt.single, Bool.and_eq_true] at h
    obtain ⟨⟨h1, h2⟩, h3⟩ := h
    split at h3
    · rename_i H K hH hK
      have ha := cat_le h1 hσ
      have hb := alt_le h2 hσ
      rw [Alt.ways, List.length_append]
      by_cases h4 : (c.ways once E s σ).length = 0
      · omega
      · by_cases h5 : (l.ways once E s σ).length = 0
        · omega
        · exfalso
          obtain ⟨τ, hτ⟩ := List.exists_mem_of_length_pos (Nat.pos_of_ne_zero h4)
          obtain ⟨τ', hτ'⟩ := List.exists_mem_of_length_pos (Nat.pos_of_ne_zero h5)
          obtain ⟨v, h6, h7⟩ := cat_heads hH hτ
          obtain ⟨w, h8, h9⟩ := alt_heads hK hτ'
          rw [h6] at h8
          cases h8
          exact apart_spec h3 h7 h9
    · simp at h3

theorem body_le {s : List Ch} : ∀ {b : Body} {σ : MState}, b.single = true → σ.pos ≤ s.length → (b.ways once E s σ).length ≤ 1
  | .alt l, _, h, hσ => by simp only [Body.single] at h; simp only [Body.ways]; exact alt_le h hσ
  | .lead l, _, h, _ => by simp [Body.single] at h
end

/-! ### The two rules agree -/

theorem item_firm {a : Atom} {q : Quant} {s : List Ch} (hq : q.Faithful) (h : itemFirm q a.consumes a.single = true)
    (ha : ∀ {σ : MState}, σ.pos ≤ s.length → a.ways true E s σ = a.ways false E s σ) {σ : MState} (hσ : σ.pos ≤ s.length) :
    (Cat.one a q).ways true E s σ = (Cat.one a q).ways false E s σ := by
  simp only [itemFirm, Bool.or_eq_true, Bool.and_eq_true, decide_eq_true_eq] at h
  by_cases hn : q = .none
  · subst hn; simp only [Cat.ways]; exact ha hσ
  · rw [one_ways hn, one_ways hn]
    obtain ⟨b, hb⟩ := quantWays_repeats hq hn
    rw [hb, hb]
    obtain ⟨hc, h⟩ := h.resolve_left hn
    have hit : ∀ ρ : MState, ρ.pos ≤ s.length → iteration true (fun σ => a.ways true E s σ) ρ =
        (iteration false (fun σ => a.ways false E s σ) ρ).take 1 := by
      intro ρ hρ
      refine iteration_once (ha hρ) ?_
      intro τ hτ
      have := atom_lt hc hρ hτ
      omega
    rcases h with h1 | ⟨h1, h2⟩
    · refine repeats_congr (I := fun ρ => ρ.pos ≤ s.length) ?_ (atom_iteration_keep (once := true)) _ _ b s.length σ hσ
      intro ρ hρ
      rw [hit ρ hρ]
      refine take_one_of ?_
      simp only [iteration, List.length_map, Bool.false_eq_true, if_false]
      exact atom_le h1 hρ
    · rw [h1]
      exact repeats_take (I := fun ρ => ρ.pos ≤ s.length) hit (atom_iteration_keep (once := false)) h2 b s.length σ hσ

mutual
theorem atom_firm {s : List Ch} : ∀ {a : Atom} {σ : MState}, a.Faithful → a.firm = true → σ.pos ≤ s.length →
    a.ways true E s σ = a.ways false E s σ
  | .ch _, _, _, _, _ | .cls _, _, _, _, _ | .set _ _, _, _, _, _ | .dot, _, _, _, _ | .unknown _ _, _, _, _, _ | .mode _, _, _, _, _
  | .bol, _, _, _, _ | .eol, _, _, _, _ | .subjectBegin, _, _, _, _ | .subjectEnd, _, _, _, _ | .subjectEndLine, _, _, _, _
  | .wordBoundary, _, _, _, _ | .notWordBoundary, _, _, _, _
  | .ref _, _, _, _, _ | .refNumber _, _, _, _, _ | .refRelative _ _, _, _, _, _ | .refName _, _, _, _, _ => by simp only [Atom.ways]
  | .cap _ b, _, hf, h, hσ | .named _ _ b, _, hf, h, hσ | .group b, _, hf, h, hσ | .ahead pos b, _, hf, h, hσ => by
    simp only [Atom.firm] at h; simp only [Atom.Faithful] at hf; simp only [Atom.ways]; rw [body_firm hf h hσ]
  | .behind pos b, σ, hf, h, hσ => by
    simp only [Atom.firm] at h; simp only [Atom.Faithful] at hf; simp only [Atom.ways]
    congr 2
    rw [Bool.eq_iff_iff]
    simp only [List.any_eq_true, List.mem_range]
    refine exists_congr fun p => and_congr_right fun hp => ?_
    rw [body_firm hf.1 h (by show p ≤ s.length; omega)]
  | .atomic b, σ, hf, h, hσ => by
    simp only [Atom.firm, Bool.and_eq_true] at h; simp only [Atom.Faithful] at hf; simp only [Atom.ways]
    rw [iteration_once (body_firm hf h.2 hσ), List.take_take]
    · rfl
    · intro τ hτ
      have := body_lt h.1 hσ hτ
      omega

theorem cat_firm {s : List Ch} : ∀ {c : Cat} {σ : MState}, c.Faithful → c.firm = true → σ.pos ≤ s.length →
    c.ways true E s σ = c.ways false E s σ
  | .one a q, σ, hf, h, hσ => by
    simp only [Cat.firm, Bool.and_eq_true] at h; simp only [Cat.Faithful] at hf
    exact item_firm hf.2 h.1 (fun hσ => atom_firm hf.1 h.2 hσ) hσ
  | .cons a q l, σ, hf, h, hσ => by
    simp only [Cat.firm, Bool.and_eq_true] at h; simp only [Cat.Faithful] at hf
    rw [cons_ways, cons_ways, item_firm hf.2.1 h.1.1 (fun hσ => atom_firm hf.1 h.1.2 hσ) hσ]
    exact flatMap_same fun ρ hρ => cat_firm hf.2.2.1 h.2 (item_fwd (fun h => atom_fwd h) hρ hσ).2

theorem alt_firm {s : List Ch} : ∀ {l : Alt} {σ : MState}, l.Faithful → l.firm = true → σ.pos ≤ s.length →
    l.ways true E s σ = l.ways false E s σ
  | .empty, _, _, _, _ => by simp only [Alt.ways]
  | .one c, σ, hf, h, hσ => by
    simp only [Alt.firm] at h; simp only [Alt.Faithful] at hf; simp only [Alt.ways]; exact cat_firm hf h hσ
  | .bar c l, σ, hf, h, hσ => by
    simp only [Alt.firm, Bool.and_eq_true] at h; simp only [Alt.Faithful] at hf; simp only [Alt.ways]
    rw [cat_firm hf.1 h.1 hσ, alt_firm hf.2 h.2 hσ]

theorem body_firm {s : List Ch} : ∀ {b : Body} {σ : MState}, b.Faithful → b.firm = true → σ.pos ≤ s.length →
    b.ways true E s σ = b.ways false E s σ
  | .alt l, σ, hf, h, hσ => by
    simp only [Body.firm] at h; simp only [Body.Faithful] at hf; simp only [Body.ways]; exact alt_firm hf h hσ
  | .lead l, σ, hf, h, hσ => by
    simp only [Body.firm] at h; simp only [Body.Faithful] at hf; simp only [Body.ways]; rw [alt_firm hf h hσ]
end

/-! ### The ways are the matches -/

theorem iterate_cap {R : MState → MState → Prop} (hR : ∀ x y, R x y → y.cap = x.cap) {k : Nat} {x y : MState} (h : Iterate R k x y) :
    y.cap = x.cap := by
  induction h with
  | zero => rfl
  | succ h1 _ ih => rw [ih, hR _ _ h1]

theorem again_cap {s : List Ch} {σ τ : MState} {id : Nat} (h : Again s σ τ id) : τ.cap = σ.cap := by
  obtain ⟨b, e, _, _, _, _, rfl⟩ := h; rfl

theorem one_match {a : Atom} {q : Quant} (h : q ≠ .none) {s : List Ch} {σ τ : MState} : (Cat.one a q).Match E s σ τ ↔
    ∃ k, q.admits k ∧ Iterate (fun σ τ => ∃ ρ, a.Match E s σ ρ ∧ τ = withModes σ ρ) k σ τ := by
  cases q <;> first | exact (h rfl).elim | simp only [Cat.Match]

theorem cons_match {a : Atom} {q : Quant} {l : Cat} {s : List Ch} {σ τ : MState} :
    (Cat.cons a q l).Match E s σ τ ↔ ∃ ρ, (Cat.one a q).Match E s σ ρ ∧ l.Match E s ρ τ := by
  cases q <;> simp only [Cat.Match]

mutual
theorem atom_cap {s : List Ch} : ∀ {a : Atom} {σ τ : MState}, a.groups = 0 → a.Match E s σ τ → τ.cap = σ.cap
  | .ch _, _, _, _, h => by simp only [Atom.Match] at h; rw [h.2]
  | .cls _, _, _, _, h | .set _ _, _, _, _, h => by
    simp only [Atom.Match] at h; obtain ⟨_, _, _, rfl⟩ := h; rfl
  | .dot, _, _, _, h => by simp only [Atom.Match] at h; rw [h.2.2]
  | .unknown _ _, _, _, _, h => by simp only [Atom.Match] at h
  | .bol, _, _, _, h | .eol, _, _, _, h | .subjectBegin, _, _, _, h | .subjectEnd, _, _, _, h | .subjectEndLine, _, _, _, h
  | .wordBoundary, _, _, _, h | .notWordBoundary, _, _, _, h | .behind _ _, _, _, _, h => by simp only [Atom.Match] at h; rw [h.2]
  | .ref _, _, _, _, h | .refNumber _, _, _, _, h | .refRelative _ _, _, _, _, h => by simp only [Atom.Match] at h; exact again_cap h
  | .refName n, _, _, _, h => by simp only [Atom.Match] at h; obtain ⟨_, _, h⟩ := h; exact again_cap h
  | .cap _ b, _, _, hg, h | .named _ _ b, _, _, hg, h => by simp [Atom.groups] at hg
  | .group b, _, _, hg, h => by simp only [Atom.groups] at hg; simp only [Atom.Match] at h; exact body_cap hg h
  | .ahead true b, _, _, hg, h => by
    simp only [Atom.groups] at hg; simp only [Atom.Match] at h
    obtain ⟨ρ, h, rfl⟩ := h
    have := body_cap hg h
    exact this
  | .ahead false b, _, _, _, h => by simp only [Atom.Match] at h; rw [h.2]
  | .atomic b, _, _, hg, h => by
    simp only [Atom.groups] at hg; simp only [Atom.Match] at h
    obtain ⟨ρ, h, rfl⟩ := h
    have := body_cap hg h
    exact this
  | .mode m, _, _, _, h => by simp only [Atom.Match] at h; subst h; cases m <;> rfl

theorem cat_cap {s : List Ch} : ∀ {c : Cat} {σ τ : MState}, c.groups = 0 → c.Match E s σ τ → τ.cap = σ.cap
  | .one a q, σ, τ, hg, h => by
    simp only [Cat.groups] at hg
    by_cases hq : q = .none
    · subst hq; simp only [Cat.Match] at h; exact atom_cap hg h
    · rw [one_match hq] at h
      obtain ⟨k, _, h⟩ := h
      refine iterate_cap ?_ h
      rintro x y ⟨ρ, h, rfl⟩
      have := atom_cap hg h
      exact this
  | .cons a q l, σ, τ, hg, h => by
    simp only [Cat.groups] at hg
    rw [cons_match] at h
    obtain ⟨π, h1, h2⟩ := h
    rw [cat_cap (c := l) (by omega) h2]
    by_cases hq : q = .none
    · subst hq; simp only [Cat.Match] at h1; exact atom_cap (a := a) (by omega) h1
    · rw [one_match hq] at h1
      obtain ⟨k, _, h⟩ := h1
      refine iterate_cap ?_ h
      rintro x y ⟨ρ, h, rfl⟩
      have := atom_cap (a := a) (by omega) h
      exact this

theorem alt_cap {s : List Ch} : ∀ {l : Alt} {σ τ : MState}, l.groups = 0 → l.Match E s σ τ → τ.cap = σ.cap
  | .empty, _, _, _, h => by simp only [Alt.Match] at h; rw [h]
  | .one c, _, _, hg, h => by simp only [Alt.groups] at hg; simp only [Alt.Match] at h; exact cat_cap hg h
  | .bar c l, _, _, hg, h => by
    simp only [Alt.groups] at hg; simp only [Alt.Match] at h
    rcases h with h | h
    · exact cat_cap (c := c) (by omega) h
    · exact alt_cap (l := l) (by omega) h

theorem body_cap {s : List Ch} : ∀ {b : Body} {σ τ : MState}, b.groups = 0 → b.Match E s σ τ → τ.cap = σ.cap
  | .alt l, _, _, hg, h => by simp only [Body.groups] at hg; simp only [Body.Match] at h; exact alt_cap hg h
  | .lead l, _, _, hg, h => by
    simp only [Body.groups] at hg; simp only [Body.Match] at h
    rcases h with rfl | h
    · rfl
    · exact alt_cap hg h
end

theorem admits_of {q : Quant} (hq : q.Faithful) {i room : Nat} (hi : i ≤ q.extra room) : q.admits (q.low + i) := by
  cases q <;> simp only [Quant.extra, Quant.low, Quant.admits, Quant.Faithful] at * <;> omega

theorem of_admits {q : Quant} {k room : Nat} (hk : q.admits k) (hr : k ≤ room) : ∃ i, k = q.low + i ∧ i ≤ q.extra room := by
  refine ⟨k - q.low, ?_, ?_⟩ <;> cases q <;> simp only [Quant.extra, Quant.low, Quant.admits] at * <;> omega

theorem item_iff {a : Atom} {q : Quant} {s : List Ch} (hq : q.Faithful) (h : q = .none ∨ (q.kind ≠ .poss ∧ a.consumes = true))
    (ha : ∀ {σ τ : MState}, σ.pos ≤ s.length → (τ ∈ a.ways false E s σ ↔ a.Match E s σ τ)) {σ τ : MState} (hσ : σ.pos ≤ s.length) :
    τ ∈ (Cat.one a q).ways false E s σ ↔ (Cat.one a q).Match E s σ τ := by
  by_cases hn : q = .none
  · subst hn; simp only [Cat.ways, Cat.Match]; exact ha hσ
  · obtain ⟨hk, hc⟩ := h.resolve_left hn
    rw [one_ways hn, one_match hn]
    have hstep : ∀ x y : MState, x.pos ≤ s.length → ((∃ ρ, a.Match E s x ρ ∧ y = withModes x ρ) ↔
        y ∈ iteration false (fun σ => a.ways false E s σ) x) := by
      intro x y hx
      simp only [iteration, Bool.false_eq_true, if_false, List.mem_map]
      constructor
      · rintro ⟨ρ, h1, rfl⟩; exact ⟨ρ, (ha hx).2 h1, rfl⟩
      · rintro ⟨ρ, h1, rfl⟩; exact ⟨ρ, (ha hx).1 h1, rfl⟩
    have conv : ∀ {j : Nat} {x y : MState}, x.pos ≤ s.length →
        (Iterate (fun x y => ∃ ρ, a.Match E s x ρ ∧ y = withModes x ρ) j x y ↔
          Iterate (fun x y => y ∈ iteration false (fun σ => a.ways false E s σ) x) j x y) := by
      intro j
      induction j with
      | zero => intro x y _; constructor <;> (intro h; cases h; exact .zero _)
      | succ j ih =>
        intro x y hx
        constructor
        · intro h
          cases h with
          | succ h1 h2 =>
            have h3 := (hstep _ _ hx).1 h1
            exact .succ h3 ((ih (atom_iteration_keep _ _ hx h3)).1 h2)
        · intro h
          cases h with
          | succ h1 h2 => exact .succ ((hstep _ _ hx).2 h1) ((ih (atom_iteration_keep _ _ hx h1)).2 h2)
    have bound : ∀ {j : Nat} {x y : MState}, x.pos ≤ s.length →
        Iterate (fun x y => y ∈ iteration false (fun σ => a.ways false E s σ) x) j x y → x.pos + j ≤ s.length := by
      intro j
      induction j with
      | zero => intro x y hx _; omega
      | succ j ih =>
        intro x y hx h
        cases h with
        | @succ _ _ z _ h1 h2 =>
          have h3 := ih (atom_iteration_keep _ _ hx h1) h2
          obtain ⟨ρ, h4, rfl⟩ := mem_iteration h1
          have := atom_lt hc hx h4
          simp only at h3
          omega
    constructor
    · intro h
      obtain ⟨i, h1, h2⟩ := mem_quantWays h
      exact ⟨_, admits_of hq h1, (conv hσ).2 h2⟩
    · rintro ⟨j, h1, h2⟩
      rw [conv hσ] at h2
      have := bound hσ h2
      obtain ⟨i, rfl, h3⟩ := of_admits (room := s.length) h1 (by omega)
      exact quantWays_mem hk h3 h2

mutual
theorem atom_iff {s : List Ch} : ∀ {a : Atom} {σ τ : MState}, a.Faithful → a.loose = true → σ.pos ≤ s.length →
    (τ ∈ a.ways false E s σ ↔ a.Match E s σ τ)
  | .ch c, σ, τ, _, _, _ => by
    simp only [Atom.ways, Atom.Match, stepIf_iff, inClass]
    constructor
    · rintro ⟨v, h1, h2, h3⟩; exact ⟨⟨v, h1, h2⟩, h3⟩
    · rintro ⟨⟨v, h1, h2⟩, h3⟩; exact ⟨v, h1, h2, h3⟩
  | .cls c, σ, τ, _, _, _ => by simp only [Atom.ways, Atom.Match, stepIf_iff, decide_eq_true_eq]
  | .unknown _ _, σ, τ, _, _, _ => by simp [Atom.ways, Atom.Match]
  | .set neg l, σ, τ, _, _, _ => by
    simp only [Atom.ways, Atom.Match, stepIf_iff]
    refine exists_congr fun v => and_congr_right fun _ => and_congr_left fun _ => ?_
    cases neg <;> simp
  | .dot, σ, τ, _, _, _ => by
    simp only [Atom.ways, Atom.Match, stepIf_iff]
    constructor
    · rintro ⟨v, h1, h2, h3⟩
      refine ⟨(List.getElem?_eq_some_iff.1 h1).1, ?_, h3⟩
      rintro ⟨hm, hn⟩
      simp only [newlineAt, h1, Option.some.injEq] at hn
      simp [hm, hn] at h2
    · rintro ⟨h1, h2, h3⟩
      refine ⟨s[σ.pos], List.getElem?_eq_getElem h1, ?_, h3⟩
      simp only [newlineAt, List.getElem?_eq_getElem h1, Option.some.injEq, not_and] at h2
      cases hm : σ.multiline <;> simp_all
  | .bol, σ, τ, _, _, _ | .eol, σ, τ, _, _, _ | .subjectBegin, σ, τ, _, _, _ | .subjectEnd, σ, τ, _, _, _
  | .wordBoundary, σ, τ, _, _, _ | .notWordBoundary, σ, τ, _, _, _ => by simp [Atom.ways, Atom.Match, stayIf_iff]
  | .subjectEndLine, σ, τ, _, _, _ => by simp [Atom.ways, Atom.Match, stayIf_iff, and_assoc]
  | .ref _, σ, τ, _, _, _ | .refNumber _, σ, τ, _, _, _ | .refRelative _ _, σ, τ, _, _, _ => by
    simp only [Atom.ways, Atom.Match]; exact waysAgain_iff
  | .refName n, σ, τ, _, _, _ => by
    simp only [Atom.ways, Atom.Match]
    cases hn : E.number n with
    | none => simp
    | some id => simp only [Option.some.injEq, exists_eq_left', waysAgain_iff]
  | .cap _ b, σ, τ, hf, h, hσ | .named _ _ b, σ, τ, hf, h, hσ => by
    simp only [Atom.Faithful] at hf; simp only [Atom.loose] at h
    simp only [Atom.ways, Atom.Match, List.mem_map]
    exact exists_congr fun ρ => and_congr (body_iff hf h hσ) eq_comm
  | .group b, σ, τ, hf, h, hσ => by
    simp only [Atom.Faithful] at hf; simp only [Atom.loose] at h
    simp only [Atom.ways, Atom.Match]; exact body_iff hf h hσ
  | .ahead true b, σ, τ, hf, h, hσ => by
    simp only [Atom.Faithful] at hf
    simp only [Atom.loose, Bool.not_true, Bool.false_or, Bool.and_eq_true, decide_eq_true_eq] at h
    simp only [Atom.ways, Atom.Match, if_true]
    have key : ∀ ρ, ρ ∈ b.ways false E s σ ↔ b.Match E s σ ρ := fun ρ => body_iff hf h.2 hσ
    cases hw : b.ways false E s σ with
    | nil =>
      simp only [List.not_mem_nil, false_iff]
      rintro ⟨ρ, h1, _⟩
      rw [← key, hw] at h1
      simp at h1
    | cons ρ0 _ =>
      have h0 := (key ρ0).1 (by rw [hw]; simp)
      simp only [List.mem_singleton]
      constructor
      · rintro rfl; exact ⟨ρ0, h0, rfl⟩
      · rintro ⟨ρ, h1, rfl⟩
        rw [body_cap h.1 h0, body_cap h.1 h1]
  | .ahead false b, σ, τ, hf, h, hσ => by
    simp only [Atom.Faithful] at hf
    simp only [Atom.loose, Bool.not_false, Bool.true_or, Bool.true_and] at h
    simp only [Atom.ways, Atom.Match]
    have key : ∀ ρ, ρ ∈ b.ways false E s σ ↔ b.Match E s σ ρ := fun ρ => body_iff hf h hσ
    cases hw : b.ways false E s σ with
    | nil =>
      simp only [Bool.false_eq_true, if_false, List.mem_singleton]
      constructor
      · rintro rfl
        refine ⟨?_, rfl⟩
        rintro ⟨ρ, h1⟩
        rw [← key, hw] at h1
        simp at h1
      · rintro ⟨_, rfl⟩; rfl
    | cons ρ0 _ =>
      have h0 := (key ρ0).1 (by rw [hw]; simp)
      simp only [Bool.false_eq_true, if_false, List.not_mem_nil, false_iff]
      rintro ⟨h1, _⟩
      exact h1 ⟨ρ0, h0⟩
  | .behind pos b, σ, τ, hf, h, hσ => by
    simp only [Atom.Faithful] at hf; simp only [Atom.loose] at h
    simp only [Atom.ways, Atom.Match, stayIf_iff]
    refine and_congr_left fun _ => ?_
    have : ((List.range (σ.pos + 1)).any fun p => (b.ways false E s { σ with pos := p }).any fun ρ => ρ.pos == σ.pos) = true ↔
        ∃ p ρ, p ≤ σ.pos ∧ b.Match E s { σ with pos := p } ρ ∧ ρ.pos = σ.pos := by
      simp only [List.any_eq_true, List.mem_range, beq_iff_eq]
      constructor
      · rintro ⟨p, hp, ρ, h1, h2⟩
        exact ⟨p, ρ, by omega, (body_iff hf.1 h (by show p ≤ s.length; omega)).1 h1, h2⟩
      · rintro ⟨p, ρ, hp, h1, h2⟩
        exact ⟨p, by omega, ρ, (body_iff hf.1 h (by show p ≤ s.length; omega)).2 h1, h2⟩
    rw [← this, beq_iff_eq, ← Bool.eq_iff_iff]
  | .atomic b, σ, τ, _, h, _ => by simp [Atom.loose] at h
  | .mode m, σ, τ, _, _, _ => by simp [Atom.ways, Atom.Match]

theorem cat_iff {s : List Ch} : ∀ {c : Cat} {σ τ : MState}, c.Faithful → c.loose = true → σ.pos ≤ s.length →
    (τ ∈ c.ways false E s σ ↔ c.Match E s σ τ)
  | .one a q, σ, τ, hf, h, hσ => by
    simp only [Cat.Faithful] at hf
    simp only [Cat.loose, Bool.or_eq_true, Bool.and_eq_true, decide_eq_true_eq] at h
    exact item_iff hf.2 h.1 (fun hσ => atom_iff hf.1 h.2 hσ) hσ
  | .cons a q l, σ, τ, hf, h, hσ => by
    simp only [Cat.Faithful] at hf
    simp only [Cat.loose, Bool.or_eq_true, Bool.and_eq_true, decide_eq_true_eq] at h
    rw [cons_ways, cons_match, List.mem_flatMap]
    have key : ∀ ρ, ρ ∈ (Cat.one a q).ways false E s σ ↔ (Cat.one a q).Match E s σ ρ :=
      fun ρ => item_iff hf.2.1 h.1.1 (fun hσ => atom_iff hf.1 h.1.2 hσ) hσ
    constructor
    · rintro ⟨ρ, h1, h2⟩
      exact ⟨ρ, (key ρ).1 h1, (cat_iff hf.2.2.1 h.2 (cat_fwd h1 hσ).2).1 h2⟩
    · rintro ⟨ρ, h1, h2⟩
      have h1 := (key ρ).2 h1
      exact ⟨ρ, h1, (cat_iff hf.2.2.1 h.2 (cat_fwd h1 hσ).2).2 h2⟩

theorem alt_iff {s : List Ch} : ∀ {l : Alt} {σ τ : MState}, l.Faithful → l.loose = true → σ.pos ≤ s.length →
    (τ ∈ l.ways false E s σ ↔ l.Match E s σ τ)
  | .empty, σ, τ, _, _, _ => by simp [Alt.ways, Alt.Match]
  | .one c, σ, τ, hf, h, hσ => by
    simp only [Alt.Faithful] at hf; simp only [Alt.loose] at h
    simp only [Alt.ways, Alt.Match]; exact cat_iff hf h hσ
  | .bar c l, σ, τ, hf, h, hσ => by
    simp only [Alt.Faithful] at hf; simp only [Alt.loose, Bool.and_eq_true] at h
    simp only [Alt.ways, Alt.Match, List.mem_append]
    exact or_congr (cat_iff hf.1 h.1 hσ) (alt_iff hf.2 h.2 hσ)

theorem body_iff {s : List Ch} : ∀ {b : Body} {σ τ : MState}, b.Faithful → b.loose = true → σ.pos ≤ s.length →
    (τ ∈ b.ways false E s σ ↔ b.Match E s σ τ)
  | .alt l, σ, τ, hf, h, hσ => by
    simp only [Body.Faithful] at hf; simp only [Body.loose] at h
    simp only [Body.ways, Body.Match]; exact alt_iff hf h hσ
  | .lead l, σ, τ, hf, h, hσ => by
    simp only [Body.Faithful] at hf; simp only [Body.loose] at h
    simp only [Body.ways, Body.Match, List.mem_cons]
    exact or_congr Iff.rfl (alt_iff hf h hσ)
end

end Ctre.Parse
