import Verif.Lemmas.WaysLoop

/-
Ordered meaning of stacks on the state of the machine.  An intermediate step between the machine and the ordered
meaning of patterns.
-/
namespace Ctre

theorem flatMap_same {α β : Type} {L : List α} {T T' : α → List β} (h : ∀ z ∈ L, T z = T' z) : L.flatMap T = L.flatMap T' := by
  induction L with
  | nil => rfl
  | cons x L ih =>
    simp only [List.flatMap_cons]
    rw [h x (by simp), ih (fun z hz => h z (by simp [hz]))]

/-- One iteration: the first way that moves; modes set inside do not survive. -/
def siteration (content : SSt → List SSt) (x : SSt) : List SSt :=
  (((content x).filter fun z => decide (z.pos ≠ x.pos)).take 1).map fun z => { z with ml := x.ml, ci := x.ci }

/-- Moves to the position, if the comparison succeeds. -/
def cmpWays (x : SSt) : Cmp → List SSt
  | .yes p => [{ x with pos := p }]
  | _ => []

/-- As `cmpWays`, for back references. -/
def brefWays (x : SSt) : Option (Cmp × Bool) → List SSt
  | some (c, _) => cmpWays x c
  | none => []

mutual
def Re.sways (U : Uni) : Re → List Ch → SSt → List SSt
  | .cc cl, s, x => match s[x.pos]? with
    | none => []
    | some v => if cl.matchChar U x.ci v = true then [{ x with pos := x.pos + 1 }] else []
  | .any, s, x => match s[x.pos]? with
    | none => []
    | some v => if x.ml = true ∧ v = 10 then [] else [{ x with pos := x.pos + 1 }]
  | .str cs, s, x => cmpWays x (matchString x.ci s cs x.pos)
  | .sel l, s, x => swaysAny U l s x
  | .seq l, s, x => swaysAll U l s x
  | .empty, _, x => [x]
  | .rep k a b l, s, x => repeats (siteration fun x => swaysAll U l s x) k a b s.length x
  | .cap id _ l, s, x =>
    if hasId id x.gs = true then
      (swaysAll U l s { x with gs := modifyId id (fun sl => { sl with b := some x.pos }) x.gs }).map fun z =>
        { z with gs := modifyId id (fun sl => { sl with e := some z.pos, matched := true }) z.gs }
    else []
  | .bref id, s, x => brefWays x (brefCmp s x.pos (refSlot x.gs id))
  | .brefName n, s, x => brefWays x (brefCmp s x.pos (selectName n x.gs))
  | .ahead pos l, s, x => match swaysAll U l s x with
    | [] => if pos then [] else [x]
    | z :: _ => if pos then [{ x with gs := z.gs }] else []
  | .behind pos l, s, x => match swaysAll U l s.reverse { x with pos := s.length - x.pos } with
    | [] => if pos then [] else [x]
    | z :: _ => if pos then [{ x with gs := z.gs }] else []
  | .atomic l, s, x => (siteration (fun x => swaysAll U l s x) x).take 1
  | .mode m, _, x => [{ x with ml := (x.flags.add m).ml, ci := (x.flags.add m).ci }]
  | .boundary c, s, x => if testAt U s x.pos x.flags (.boundary c) = .yes then [x] else []
  | .notBoundary c, s, x => if testAt U s x.pos x.flags (.notBoundary c) = .yes then [x] else []
  | .sBegin, s, x => if testAt U s x.pos x.flags .sBegin = .yes then [x] else []
  | .sEnd, s, x => if testAt U s x.pos x.flags .sEnd = .yes then [x] else []
  | .sEndLine, s, x => if testAt U s x.pos x.flags .sEndLine = .yes then [x] else []
  | .lBegin, s, x => if testAt U s x.pos x.flags .lBegin = .yes then [x] else []
  | .lEnd, s, x => if testAt U s x.pos x.flags .lEnd = .yes then [x] else []
  | .reject _, _, _ => []

def swaysAll (U : Uni) : List Re → List Ch → SSt → List SSt
  | [], _, x => [x]
  | r :: l, s, x => (r.sways U s x).flatMap fun z => swaysAll U l s z

def swaysAny (U : Uni) : List Re → List Ch → SSt → List SSt
  | [], _, _ => []
  | r :: l, s, x => r.sways U s x ++ swaysAny U l s x
end

theorem Re.sways_test {U : Uni} {r : Re} (h : r.isTest = true) {s : List Ch} {x : SSt} :
    r.sways U s x = if testAt U s x.pos x.flags r = .yes then [x] else [] := by
  cases r <;> first | (simp [Re.isTest] at h; done) | simp [Re.sways]

/-- The ways of a stack; the marks for the whole match have no effect here. -/
def stackWays (U : Uni) : Stack → List Ch → SSt → List SSt
  | [], _, _ => []
  | .accept :: t, _, x | .endCycle :: t, _, x | .endAhead :: t, _, x | .endBehind :: t, _, x => if t = [] then [x] else []
  | .startMark :: t, s, x | .endMark :: t, s, x => stackWays U t s x
  | .numMark id :: t, s, x =>
    if hasId id x.gs = true then
      stackWays U t s { x with gs := modifyId id (fun sl => { sl with e := some x.pos, matched := true }) x.gs }
    else []
  | .re r :: t, s, x => (r.sways U s x).flatMap fun z => stackWays U t s z

theorem stackWays_items {U : Uni} {l : List Re} {t : Stack} {s : List Ch} : ∀ {x : SSt},
    stackWays U (items l t) s x = (swaysAll U l s x).flatMap fun z => stackWays U t s z := by
  induction l with
  | nil => intro x; simp [items, swaysAll]
  | cons r l ih =>
    intro x
    have : items (r :: l) t = .re r :: items l t := rfl
    rw [this]
    simp only [stackWays, swaysAll, ih, List.flatMap_assoc]

/-! ### Members are members of the relation -/

section loops
variable {α : Type} {it : α → List α} {P : α → Prop} {m : α → Nat}

theorem mem_times {n : Nat} : ∀ {x y : α}, y ∈ times it n x ↔ Iterate (fun x y => y ∈ it x) n x y := by
  induction n with
  | zero => intro x y; simp only [times, List.mem_singleton]; exact ⟨fun h => h ▸ .zero _, fun h => by cases h; rfl⟩
  | succ n ih =>
    intro x y
    simp only [times, List.mem_flatMap, ih]
    exact ⟨fun ⟨z, h1, h2⟩ => .succ h1 h2, fun h => by cases h with | succ h1 h2 => exact ⟨_, h1, h2⟩⟩

theorem mem_most {n : Nat} : ∀ {x y : α}, y ∈ most it n x ↔ ∃ k, k ≤ n ∧ Iterate (fun x y => y ∈ it x) k x y := by
  induction n with
  | zero =>
    intro x y
    simp only [most, List.mem_singleton]
    constructor
    · rintro rfl; exact ⟨0, by omega, .zero _⟩
    · rintro ⟨k, hk, h⟩
      have : k = 0 := by omega
      subst this; cases h; rfl
  | succ n ih =>
    intro x y
    simp only [most, List.mem_append, List.mem_flatMap, List.mem_singleton, ih]
    constructor
    · rintro (⟨z, h1, k, hk, h2⟩ | rfl)
      · exact ⟨k + 1, by omega, .succ h1 h2⟩
      · exact ⟨0, by omega, .zero _⟩
    · rintro ⟨k, hk, h⟩
      cases h with
      | zero => exact .inr rfl
      | succ h1 h2 => exact .inl ⟨_, h1, _, by omega, h2⟩

theorem mem_fewest {n : Nat} : ∀ {x y : α}, y ∈ fewest it n x ↔ ∃ k, k ≤ n ∧ Iterate (fun x y => y ∈ it x) k x y := by
  induction n with
  | zero =>
    intro x y
    simp only [fewest, List.mem_singleton]
    constructor
    · rintro rfl; exact ⟨0, by omega, .zero _⟩
    · rintro ⟨k, hk, h⟩
      have : k = 0 := by omega
      subst this; cases h; rfl
  | succ n ih =>
    intro x y
    simp only [fewest, List.mem_cons, List.mem_flatMap, ih]
    constructor
    · rintro (rfl | ⟨z, h1, k, hk, h2⟩)
      · exact ⟨0, by omega, .zero _⟩
      · exact ⟨k + 1, by omega, .succ h1 h2⟩
    · rintro ⟨k, hk, h⟩
      cases h with
      | zero => exact .inl rfl
      | succ h1 h2 => exact .inr ⟨_, h1, _, by omega, h2⟩

/-- What a repetition does is done by iterations. -/
theorem mem_repeats {k : RepKind} {a b room : Nat} {x y : α} (h : y ∈ repeats it k a b room x) :
    ∃ j, a ≤ j ∧ (b = 0 ∨ j ≤ b) ∧ Iterate (fun x y => y ∈ it x) j x y := by
  have key : ∀ {z}, z ∈ times it a x → ∀ {i}, i ≤ (if b = 0 then room else b - a) → ¬ (b ≠ 0 ∧ b < a) →
      Iterate (fun x y => y ∈ it x) i z y → ∃ j, a ≤ j ∧ (b = 0 ∨ j ≤ b) ∧ Iterate (fun x y => y ∈ it x) j x y := by
    intro z hz i hi hab h2
    refine ⟨a + i, by omega, ?_, (mem_times.1 hz).add h2⟩
    split at hi
    · exact .inl (by assumption)
    · exact .inr (by omega)
  unfold repeats at h
  simp only at h
  split at h
  · simp at h
  · rename_i hab
    cases k with
    | lazy =>
      simp only [List.mem_flatMap, mem_fewest] at h
      obtain ⟨z, hz, i, hi, h2⟩ := h
      exact key hz hi hab h2
    | greedy =>
      simp only [List.mem_flatMap, mem_most] at h
      obtain ⟨z, hz, i, hi, h2⟩ := h
      exact key hz hi hab h2
    | poss =>
      replace h := List.mem_of_mem_take h
      simp only [List.mem_flatMap, mem_most] at h
      obtain ⟨z, hz, i, hi, h2⟩ := h
      exact key hz hi hab h2
end loops

theorem mem_siteration {content : SSt → List SSt} {x y : SSt} (h : y ∈ siteration content x) :
    ∃ z ∈ content x, z.pos ≠ x.pos ∧ y = { z with ml := x.ml, ci := x.ci } := by
  simp only [siteration, List.mem_map] at h
  obtain ⟨z, hz, rfl⟩ := h
  replace hz := List.mem_of_mem_take hz
  simp only [List.mem_filter, decide_eq_true_eq] at hz
  exact ⟨z, hz.1, hz.2, rfl⟩

/-- Positions: forward and inside the subject. -/
def Fwd (s : List Ch) (x y : SSt) : Prop := x.pos ≤ s.length → x.pos ≤ y.pos ∧ y.pos ≤ s.length

theorem iterate_fwd {R : SSt → SSt → Prop} {s : List Ch} (hR : ∀ x y, R x y → Fwd s x y) {k : Nat} {x y : SSt}
    (h : Iterate R k x y) : Fwd s x y := by
  induction h with
  | zero => intro hx; exact ⟨Nat.le_refl _, hx⟩
  | succ h1 _ ih =>
    intro hx
    have h2 := hR _ _ h1 hx
    have h3 := ih h2.2
    omega

theorem mem_cmpWays {x y : SSt} {c : Cmp} (h : y ∈ cmpWays x c) : ∃ p, c = .yes p ∧ y = { x with pos := p } := by
  cases c <;> simp [cmpWays] at h
  exact ⟨_, rfl, h⟩

theorem mem_brefWays {x y : SSt} {o : Option (Cmp × Bool)} (h : y ∈ brefWays x o) :
    ∃ p q, o = some (.yes p, q) ∧ y = { x with pos := p } := by
  rcases o with _ | ⟨c, q⟩
  · simp [brefWays] at h
  · obtain ⟨p, rfl, h'⟩ := mem_cmpWays (x := x) (c := c) h
    exact ⟨p, q, rfl, h'⟩

theorem Fwd.of {s : List Ch} {x y x' y' : SSt} (h : Fwd s x y) (hx : x'.pos = x.pos) (hy : y'.pos = y.pos) : Fwd s x' y' := by
  unfold Fwd at *; rw [hx, hy]; exact h

mutual
theorem Re.sways_fwd {U : Uni} : ∀ {r : Re} {s : List Ch} {x y : SSt}, y ∈ r.sways U s x → Fwd s x y
  | .sel l, s, x, y, h => by simp only [Re.sways] at h; exact swaysAny_fwd h
  | .seq l, s, x, y, h => by simp only [Re.sways] at h; exact swaysAll_fwd h
  | .rep _ _ _ l, s, x, y, h => by
    simp only [Re.sways] at h
    obtain ⟨j, _, _, h3⟩ := mem_repeats h
    refine iterate_fwd ?_ h3
    intro u v huv
    obtain ⟨z, hz, _, rfl⟩ := mem_siteration huv
    exact (swaysAll_fwd hz).of rfl rfl
  | .cap _ _ l, s, x, y, h => by
    simp only [Re.sways] at h
    split at h
    · simp only [List.mem_map] at h
      obtain ⟨z, hz, rfl⟩ := h
      exact (swaysAll_fwd hz).of rfl rfl
    · simp at h
  | .ahead pos l, s, x, y, h | .behind pos l, s, x, y, h => by
    simp only [Re.sways] at h
    intro hx
    split at h <;> split at h <;> simp at h <;> subst h <;> exact ⟨Nat.le_refl _, hx⟩
  | .atomic l, s, x, y, h => by
    simp only [Re.sways] at h
    obtain ⟨z, hz, _, rfl⟩ := mem_siteration (List.mem_of_mem_take h)
    exact (swaysAll_fwd hz).of rfl rfl
  | .cc _, s, x, y, h | .any, s, x, y, h => by
    simp only [Re.sways] at h
    split at h
    · simp at h
    · rename_i v hv
      have := (List.getElem?_eq_some_iff.1 hv).1
      split at h <;> simp at h
      subst h
      intro _
      simp only; omega
  | .str _, s, x, y, h => by
    simp only [Re.sways] at h
    obtain ⟨p, h1, rfl⟩ := mem_cmpWays h
    intro hx
    have := matchString_yes h1
    have := this.2 hx
    simp only; omega
  | .bref _, s, x, y, h | .brefName _, s, x, y, h => by
    simp only [Re.sways] at h
    obtain ⟨p, q, h1, rfl⟩ := mem_brefWays h
    intro hx
    have := brefCmp_yes h1 hx
    simp only; omega
  | .empty, s, x, y, h | .mode _, s, x, y, h => by
    simp only [Re.sways, List.mem_singleton] at h
    subst h
    intro hx; exact ⟨Nat.le_refl _, hx⟩
  | .reject _, s, x, y, h => by simp [Re.sways] at h
  | .boundary _, s, x, y, h | .notBoundary _, s, x, y, h | .sBegin, s, x, y, h | .sEnd, s, x, y, h
  | .sEndLine, s, x, y, h | .lBegin, s, x, y, h | .lEnd, s, x, y, h => by
    simp only [Re.sways] at h
    split at h <;> simp at h
    subst h
    intro hx; exact ⟨Nat.le_refl _, hx⟩

theorem swaysAll_fwd {U : Uni} : ∀ {l : List Re} {s : List Ch} {x y : SSt}, y ∈ swaysAll U l s x → Fwd s x y
  | [], s, x, y, h => by
    simp only [swaysAll, List.mem_singleton] at h
    subst h
    intro hx; exact ⟨Nat.le_refl _, hx⟩
  | r :: l, s, x, y, h => by
    simp only [swaysAll, List.mem_flatMap] at h
    obtain ⟨z, h1, h2⟩ := h
    intro hx
    have h3 := Re.sways_fwd h1 hx
    have h4 := swaysAll_fwd h2 h3.2
    omega

theorem swaysAny_fwd {U : Uni} : ∀ {l : List Re} {s : List Ch} {x y : SSt}, y ∈ swaysAny U l s x → Fwd s x y
  | [], s, x, y, h => by simp [swaysAny] at h
  | r :: l, s, x, y, h => by
    simp only [swaysAny, List.mem_append] at h
    rcases h with h | h
    · exact Re.sways_fwd h
    · exact swaysAny_fwd h
end

mutual
theorem Re.sways_moves {U : Uni} : ∀ {r : Re} {s : List Ch} {x y : SSt}, r.moves = true → x.pos ≤ s.length →
    y ∈ r.sways U s x → x.pos < y.pos
  | .sel l, s, x, y, hm, hx, h => by
    simp only [Re.sways] at h; simp only [Re.moves] at hm; exact swaysAny_moves hm hx h
  | .seq l, s, x, y, hm, hx, h => by
    simp only [Re.sways] at h; simp only [Re.moves] at hm; exact swaysAll_moves hm hx h
  | .rep _ a _ l, s, x, y, hm, hx, h => by
    simp only [Re.sways] at h
    simp only [Re.moves, Bool.and_eq_true, decide_eq_true_eq] at hm
    obtain ⟨j, h1, _, h3⟩ := mem_repeats h
    have hstep : ∀ u v : SSt, v ∈ siteration (fun x => swaysAll U l s x) u → Fwd s u v := by
      intro u v huv
      obtain ⟨z, hz, _, rfl⟩ := mem_siteration huv
      exact (swaysAll_fwd hz).of rfl rfl
    cases h3 with
    | zero => omega
    | succ h4 h5 =>
      obtain ⟨z, hz, hne, rfl⟩ := mem_siteration h4
      have h6 := swaysAll_fwd hz hx
      have h7 := iterate_fwd hstep h5 h6.2
      simp only at h7
      omega
  | .cap _ _ l, s, x, y, hm, hx, h => by
    simp only [Re.sways] at h
    simp only [Re.moves] at hm
    split at h
    · simp only [List.mem_map] at h
      obtain ⟨z, hz, rfl⟩ := h
      have := swaysAll_moves hm (by exact hx) hz
      exact this
    · simp at h
  | .atomic l, s, x, y, hm, hx, h => by
    simp only [Re.sways] at h
    obtain ⟨z, hz, hne, rfl⟩ := mem_siteration (List.mem_of_mem_take h)
    have := swaysAll_fwd hz hx
    simp only; omega
  | .cc _, s, x, y, hm, hx, h | .any, s, x, y, hm, hx, h => by
    simp only [Re.sways] at h
    split at h
    · simp at h
    · split at h <;> simp at h
      subst h
      simp
  | .str cs, s, x, y, hm, hx, h => by
    simp only [Re.sways] at h
    obtain ⟨p, h1, rfl⟩ := mem_cmpWays h
    have := matchString_yes h1
    simp only [Re.moves, Bool.not_eq_true', List.isEmpty_eq_false_iff] at hm
    have := List.length_pos_iff.2 hm
    simp only; omega
  | .reject _, s, x, y, hm, hx, h => by simp [Re.sways] at h
  | .bref _, _, _, _, hm, _, _ | .brefName _, _, _, _, hm, _, _ | .empty, _, _, _, hm, _, _ | .mode _, _, _, _, hm, _, _
  | .ahead _ _, _, _, _, hm, _, _ | .behind _ _, _, _, _, hm, _, _
  | .boundary _, _, _, _, hm, _, _ | .notBoundary _, _, _, _, hm, _, _ | .sBegin, _, _, _, hm, _, _ | .sEnd, _, _, _, hm, _, _
  | .sEndLine, _, _, _, hm, _, _ | .lBegin, _, _, _, hm, _, _ | .lEnd, _, _, _, hm, _, _ => by simp [Re.moves] at hm

theorem swaysAll_moves {U : Uni} : ∀ {l : List Re} {s : List Ch} {x y : SSt}, movesAny l = true → x.pos ≤ s.length →
    y ∈ swaysAll U l s x → x.pos < y.pos
  | [], s, x, y, hm, hx, h => by simp [movesAny] at hm
  | r :: l, s, x, y, hm, hx, h => by
    simp only [swaysAll, List.mem_flatMap] at h
    obtain ⟨z, h1, h2⟩ := h
    simp only [movesAny, Bool.or_eq_true] at hm
    have h3 := Re.sways_fwd h1 hx
    have h4 := swaysAll_fwd h2 h3.2
    rcases hm with hm | hm
    · have := Re.sways_moves hm hx h1; omega
    · have := swaysAll_moves hm h3.2 h2; omega

theorem swaysAny_moves {U : Uni} : ∀ {l : List Re} {s : List Ch} {x y : SSt}, movesAll l = true → x.pos ≤ s.length →
    y ∈ swaysAny U l s x → x.pos < y.pos
  | [], s, x, y, hm, hx, h => by simp [swaysAny] at h
  | r :: l, s, x, y, hm, hx, h => by
    simp only [swaysAny, List.mem_append] at h
    simp only [movesAll, Bool.and_eq_true] at hm
    rcases h with h | h
    · exact Re.sways_moves hm.1 hx h
    · exact swaysAny_moves hm.2 hx h
end

theorem stackWays_fwd {U : Uni} : ∀ {st : Stack} {s : List Ch} {x y : SSt}, y ∈ stackWays U st s x → Fwd s x y
  | [], s, x, y, h => by simp [stackWays] at h
  | .accept :: t, s, x, y, h | .endCycle :: t, s, x, y, h | .endAhead :: t, s, x, y, h | .endBehind :: t, s, x, y, h => by
    simp only [stackWays] at h
    split at h <;> simp at h
    subst h; intro hx; exact ⟨Nat.le_refl _, hx⟩
  | .startMark :: t, s, x, y, h | .endMark :: t, s, x, y, h => by
    simp only [stackWays] at h; exact stackWays_fwd h
  | .numMark id :: t, s, x, y, h => by
    simp only [stackWays] at h
    split at h
    · exact (stackWays_fwd h).of rfl rfl
    · simp at h
  | .re r :: t, s, x, y, h => by
    simp only [stackWays, List.mem_flatMap] at h
    obtain ⟨z, h1, h2⟩ := h
    intro hx
    have h3 := Re.sways_fwd h1 hx
    have h4 := stackWays_fwd h2 h3.2
    omega

theorem stackWays_moves {U : Uni} : ∀ {st : Stack} {s : List Ch} {x y : SSt}, movesSt st = true → x.pos ≤ s.length →
    y ∈ stackWays U st s x → x.pos < y.pos
  | [], s, x, y, hm, hx, h => by simp [stackWays] at h
  | .accept :: t, s, x, y, hm, hx, h | .endCycle :: t, s, x, y, hm, hx, h | .endAhead :: t, s, x, y, hm, hx, h
  | .endBehind :: t, s, x, y, hm, hx, h => by
    simp only [stackWays] at h
    split at h
    · rename_i ht; subst ht; simp [movesSt] at hm
    · simp at h
  | .startMark :: t, s, x, y, hm, hx, h | .endMark :: t, s, x, y, hm, hx, h => by
    simp only [stackWays] at h
    simp only [movesSt] at hm
    exact stackWays_moves hm hx h
  | .numMark id :: t, s, x, y, hm, hx, h => by
    simp only [stackWays] at h
    simp only [movesSt] at hm
    split at h
    · have := stackWays_moves hm (by exact hx) h
      exact this
    · simp at h
  | .re r :: t, s, x, y, hm, hx, h => by
    simp only [stackWays, List.mem_flatMap] at h
    obtain ⟨z, h1, h2⟩ := h
    simp only [movesSt, Bool.or_eq_true] at hm
    have h3 := Re.sways_fwd h1 hx
    have h4 := stackWays_fwd h2 h3.2
    rcases hm with hm | hm
    · have := Re.sways_moves hm hx h1; omega
    · have := stackWays_moves hm h3.2 h2; omega

theorem iterate_shape {R : SSt → SSt → Prop} (hR : ∀ x y, R x y → shape y.gs = shape x.gs) {k : Nat} {x y : SSt}
    (h : Iterate R k x y) : shape y.gs = shape x.gs := by
  induction h with
  | zero => rfl
  | succ h1 _ ih => exact ih.trans (hR _ _ h1)

mutual
theorem Re.sways_shape {U : Uni} : ∀ {r : Re} {s : List Ch} {x y : SSt}, y ∈ r.sways U s x → shape y.gs = shape x.gs
  | .sel l, s, x, y, h => by simp only [Re.sways] at h; exact swaysAny_shape h
  | .seq l, s, x, y, h => by simp only [Re.sways] at h; exact swaysAll_shape h
  | .rep _ _ _ l, s, x, y, h => by
    simp only [Re.sways] at h
    obtain ⟨j, _, _, h3⟩ := mem_repeats h
    refine iterate_shape ?_ h3
    intro u v huv
    obtain ⟨z, hz, _, rfl⟩ := mem_siteration huv
    have := swaysAll_shape hz
    exact this
  | .cap _ _ l, s, x, y, h => by
    simp only [Re.sways] at h
    split at h
    · simp only [List.mem_map] at h
      obtain ⟨z, hz, rfl⟩ := h
      have := swaysAll_shape hz
      simp only [shape_modifyId] at this ⊢
      exact this
    · simp at h
  | .ahead pos l, s, x, y, h => by
    simp only [Re.sways] at h
    split at h
    · split at h <;> simp at h
      subst h; rfl
    · rename_i z _ hz
      split at h <;> simp at h
      subst h
      exact swaysAll_shape (y := z) (by rw [hz]; simp)
  | .behind pos l, s, x, y, h => by
    simp only [Re.sways] at h
    split at h
    · split at h <;> simp at h
      subst h; rfl
    · rename_i z _ hz
      split at h <;> simp at h
      subst h
      have := swaysAll_shape (y := z) (by rw [hz]; simp)
      exact this
  | .atomic l, s, x, y, h => by
    simp only [Re.sways] at h
    obtain ⟨z, hz, _, rfl⟩ := mem_siteration (List.mem_of_mem_take h)
    have := swaysAll_shape hz
    exact this
  | .cc _, s, x, y, h | .any, s, x, y, h => by
    simp only [Re.sways] at h
    split at h
    · simp at h
    · split at h <;> simp at h
      subst h; rfl
  | .str _, s, x, y, h => by
    simp only [Re.sways] at h
    obtain ⟨p, h1, rfl⟩ := mem_cmpWays h
    rfl
  | .bref _, s, x, y, h | .brefName _, s, x, y, h => by
    simp only [Re.sways] at h
    obtain ⟨p, q, h1, rfl⟩ := mem_brefWays h
    rfl
  | .empty, s, x, y, h | .mode _, s, x, y, h => by
    simp only [Re.sways, List.mem_singleton] at h
    subst h
    rfl
  | .reject _, s, x, y, h => by simp [Re.sways] at h
  | .boundary _, s, x, y, h | .notBoundary _, s, x, y, h | .sBegin, s, x, y, h | .sEnd, s, x, y, h
  | .sEndLine, s, x, y, h | .lBegin, s, x, y, h | .lEnd, s, x, y, h => by
    simp only [Re.sways] at h
    split at h <;> simp at h
    subst h
    rfl

theorem swaysAll_shape {U : Uni} : ∀ {l : List Re} {s : List Ch} {x y : SSt}, y ∈ swaysAll U l s x → shape y.gs = shape x.gs
  | [], s, x, y, h => by
    simp only [swaysAll, List.mem_singleton] at h
    subst h; rfl
  | r :: l, s, x, y, h => by
    simp only [swaysAll, List.mem_flatMap] at h
    obtain ⟨z, h1, h2⟩ := h
    exact (swaysAll_shape h2).trans (Re.sways_shape h1)

theorem swaysAny_shape {U : Uni} : ∀ {l : List Re} {s : List Ch} {x y : SSt}, y ∈ swaysAny U l s x → shape y.gs = shape x.gs
  | [], s, x, y, h => by simp [swaysAny] at h
  | r :: l, s, x, y, h => by
    simp only [swaysAny, List.mem_append] at h
    rcases h with h | h
    · exact Re.sways_shape h
    · exact swaysAny_shape h
end

end Ctre
