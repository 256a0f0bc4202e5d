import Verif.Spec.Semantics
import Verif.Spec.Shapes
import Verif.Lemmas.SoundComplete

/-
The relational meaning with capture slots agrees with the specification.
-/
namespace Ctre

/-! ### Slots -/

theorem selectId_modifyId (id id' : Nat) (g : Slot → Slot) (gs : List Group) :
    selectId id' (modifyId id g gs) = if id' = id then (selectId id' gs).map g else selectId id' gs := by
  induction gs with
  | nil => simp [modifyId, selectId]
  | cons x gs ih =>
    unfold modifyId
    by_cases h : x.id = id
    · rw [if_pos h]
      simp only [selectId, h]
      by_cases h' : id = id'
      · subst h'; simp
      · simp [h', Ne.symm h']
    · rw [if_neg h]
      simp only [selectId, ih]
      by_cases h' : x.id = id'
      · subst h'; simp [h]
      · simp [h']

theorem selectId_isSome (id : Nat) (gs : List Group) : (selectId id gs).isSome = hasId id gs := by
  induction gs with
  | nil => rfl
  | cons x gs ih =>
    simp only [selectId, hasId]
    by_cases h : x.id = id <;> simp [h, ih]

theorem hasId_iff (id : Nat) (gs : List Group) : hasId id gs = true ↔ id ∈ groupIds gs := by
  induction gs with
  | nil => simp [hasId, groupIds]
  | cons x gs ih =>
    simp only [hasId, Bool.or_eq_true, beq_iff_eq, ih, groupIds, List.map_cons, List.mem_cons]
    exact or_congr ⟨Eq.symm, Eq.symm⟩ Iff.rfl

theorem groupIds_shape (gs : List Group) : groupIds gs = (shape gs).map (·.1) := by
  simp [groupIds, shape]

theorem groupNumber_shape : ∀ {gs gs' : List Group} (n : List Nat), shape gs = shape gs' →
    groupNumber gs n = groupNumber gs' n
  | [], [], _, _ => rfl
  | [], _ :: _, _, h => by simp [shape] at h
  | _ :: _, [], _, h => by simp [shape] at h
  | g :: gs, g' :: gs', n, h => by
    simp only [shape, List.map_cons, List.cons.injEq, Prod.mk.injEq] at h
    simp only [groupNumber, h.1.1, h.1.2]
    rw [groupNumber_shape (gs := gs) (gs' := gs') n h.2]

/-- With distinct numbers, selecting by name is selecting by the number of the first such group. -/
theorem selectName_eq {gs : List Group} (hn : (groupIds gs).Nodup) (n : List Nat) :
    selectName n gs = (groupNumber gs n).bind (fun id => selectId id gs) := by
  induction gs with
  | nil => rfl
  | cons g gs ih =>
    simp only [groupIds, List.map_cons, List.nodup_cons] at hn
    simp only [selectName, groupNumber]
    by_cases h : g.name = some n
    · simp [h, selectId]
    · simp only [h, if_false]
      rw [ih hn.2]
      cases hg : groupNumber gs n with
      | none => rfl
      | some id =>
        simp only [Option.bind_some, selectId]
        have : id ∈ groupIds gs := by
          clear ih hn h
          induction gs with
          | nil => simp [groupNumber] at hg
          | cons g' gs ih =>
            simp only [groupNumber] at hg
            split at hg
            · simp only [Option.some.injEq] at hg; subst hg; simp [groupIds]
            · have := ih hg; simp [groupIds] at this ⊢; exact .inr this
        rw [if_neg]
        rintro rfl
        exact hn.1 this

/-! ### Texts -/

theorem text_length {s : List Ch} {b e : Nat} (h : e ≤ s.length) : (text s b e).length = e - b := by
  simp [text]; omega

theorem text_eq_iff {s : List Ch} {b c n : Nat} :
    text s b (b + n) = text s c (c + n) ↔ ∀ i < n, s[b+i]? = s[c+i]? := by
  unfold text
  rw [List.ext_getElem?_iff]
  simp only [Nat.add_sub_cancel_left, List.getElem?_take, List.getElem?_drop]
  constructor
  · intro h i hi
    have := h i
    simpa [hi] using this
  · intro h i
    by_cases hi : i < n
    · simp [hi, h i hi]
    · simp [hi]

theorem matchRangeBack_iff {s : List Ch} : ∀ (n : Nat) {cur b e p : Nat}, cur ≤ s.length → s.length - cur ≤ n →
    (matchRangeBack s n cur b e = .yes p ↔
      b ≤ e ∧ p = cur + (e - b) ∧ cur + (e - b) ≤ s.length ∧ ∀ i < e - b, s[b+i]? = s[cur+i]?) := by
  intro n
  induction n with
  | zero =>
    intro cur b e p hcur hn
    unfold matchRangeBack
    have : cur = s.length := by omega
    rw [if_pos (.inl this)]
    split
    · rename_i h; subst h; simp; omega
    · simp; omega
  | succ n ih =>
    intro cur b e p hcur hn
    unfold matchRangeBack
    by_cases h1 : cur = s.length ∨ e = b
    · rw [if_pos h1]
      split
      · rename_i h; subst h; simp; omega
      · simp; omega
    · rw [if_neg h1]
      have hlt : cur < s.length := by omega
      rw [List.getElem?_eq_getElem hlt]
      by_cases hb : b < s.length
      · rw [List.getElem?_eq_getElem hb]
        simp only
        by_cases hv : s[cur] = s[b]
        · rw [if_pos hv, ih (by omega) (by omega)]
          constructor
          · rintro ⟨h2, h3, h4, h5⟩
            refine ⟨by omega, by omega, by omega, ?_⟩
            intro i hi
            cases i with
            | zero => simp [List.getElem?_eq_getElem hb, List.getElem?_eq_getElem hlt, hv]
            | succ i =>
              have := h5 i (by omega)
              rw [show b + (i+1) = b + 1 + i by omega, show cur + (i+1) = cur + 1 + i by omega]
              exact this
          · rintro ⟨h2, h3, h4, h5⟩
            refine ⟨by omega, by omega, by omega, ?_⟩
            intro i hi
            have := h5 (i+1) (by omega)
            rw [show b + 1 + i = b + (i+1) by omega, show cur + 1 + i = cur + (i+1) by omega]
            exact this
        · rw [if_neg hv]
          refine ⟨by simp, ?_⟩
          rintro ⟨h2, h3, h4, h5⟩
          have := h5 0 (by omega)
          simp [List.getElem?_eq_getElem hb, List.getElem?_eq_getElem hlt] at this
          exact absurd this.symm hv
      · have hbn : s[b]? = none := List.getElem?_eq_none (by omega)
        rw [hbn]
        refine ⟨by simp, ?_⟩
        rintro ⟨h2, h3, h4, h5⟩
        have := h5 0 (by omega)
        simp [hbn, List.getElem?_eq_getElem hlt] at this

/-! ### Tests and strings -/

theorem boundaryAt_spec {U : Uni} {ci : Bool} {s : List Ch} {p : Nat} {c : CC} (hp : p ≤ s.length) :
    ∃ x y, boundaryAt U ci s p c = some (x, y) ∧
      (x = true ↔ (0 < p ∧ inClass U ci s (p - 1) c)) ∧ (y = true ↔ inClass U ci s p c) := by
  have hafter : ∃ y, (if s.length = p then some false else (s[p]?).map (c.matchChar U ci)) = some y ∧
      (y = true ↔ inClass U ci s p c) := by
    by_cases h : s.length = p
    · refine ⟨false, by rw [if_pos h], ?_⟩
      simp [inClass, ← h]
    · have hlt : p < s.length := by omega
      refine ⟨c.matchChar U ci s[p], by rw [if_neg h]; simp [List.getElem?_eq_getElem hlt], ?_⟩
      simp [inClass, List.getElem?_eq_getElem hlt]
  obtain ⟨y, hy, hy'⟩ := hafter
  cases p with
  | zero => 
    refine ⟨false, y, ?_, by simp, hy'⟩
    simp only [boundaryAt, hy]
  | succ q =>
    have hlt : q < s.length := by omega
    refine ⟨c.matchChar U ci s[q], y, ?_, ?_, hy'⟩
    · simp only [boundaryAt, hy, List.getElem?_eq_getElem hlt, Option.map_some]
    · simp [inClass, List.getElem?_eq_getElem hlt]

theorem testAt_iff {U : Uni} {s : List Ch} {σ : MState} {f : Flags} {r : Re} (hp : σ.pos ≤ s.length)
    (hml : f.ml = σ.multiline) (hci : f.ci = σ.caseless) :
    testAt U s σ.pos f r = .yes ↔ Holds U s σ r := by
  cases r with
  | sBegin => simp only [testAt, Holds]; split <;> simp_all
  | sEnd => simp only [testAt, Holds]; split <;> simp_all; omega
  | sEndLine =>
    simp only [testAt, Holds, hml]
    by_cases h : s.length = σ.pos
    · simp [h]
    · have hlt : σ.pos < s.length := by omega
      have h' : ¬ σ.pos = s.length := fun e => h e.symm
      simp only [h, h', if_false, false_or, newlineAt, List.getElem?_eq_getElem hlt, Option.some.injEq]
      cases σ.multiline
      · simp
      · simp
  | lBegin =>
    simp only [testAt, Holds, hml, newlineAt]
    cases hpos : σ.pos with
    | zero => simp
    | succ q =>
      have hlt : q < s.length := by omega
      cases σ.multiline
      · simp
      · simp [List.getElem?_eq_getElem hlt]
  | lEnd =>
    simp only [testAt, Holds, hml]
    by_cases h : s.length = σ.pos
    · simp [h]
    · have hlt : σ.pos < s.length := by omega
      have h' : ¬ σ.pos = s.length := fun e => h e.symm
      simp only [h, h', if_false, false_or, newlineAt, List.getElem?_eq_getElem hlt, Option.some.injEq]
      cases σ.multiline
      · simp
      · simp
  | boundary c =>
    simp only [testAt, Holds, hci, atBoundary]
    obtain ⟨x, y, h, hx, hy⟩ := boundaryAt_spec (U := U) (ci := σ.caseless) (c := c) hp
    rw [h, ← hx, ← hy]
    cases x <;> cases y <;> simp
  | notBoundary c =>
    simp only [testAt, Holds, hci, atBoundary]
    obtain ⟨x, y, h, hx, hy⟩ := boundaryAt_spec (U := U) (ci := σ.caseless) (c := c) hp
    rw [h, ← hx, ← hy]
    cases x <;> cases y <;> simp
  | _ => simp [testAt, Holds]

theorem matchString_iff {U : Uni} {ci : Bool} {s : List Ch} : ∀ {cs : List Nat} {cur p : Nat}, 
    matchString ci s cs cur = .yes p ↔
      p = cur + cs.length ∧ ∀ (i : Nat) (h : i < cs.length), inClass U ci s (cur + i) (.chr cs[i]) := by
  intro cs
  induction cs with
  | nil => intro cur p; simp [matchString, eq_comm]
  | cons c cs ih =>
    intro cur p
    unfold matchString
    have key : (∀ (i : Nat) (h : i < (c :: cs).length), inClass U ci s (cur + i) (.chr (c :: cs)[i])) ↔
        inClass U ci s cur (.chr c) ∧
          ∀ (i : Nat) (h : i < cs.length), inClass U ci s (cur + 1 + i) (.chr cs[i]) := by
      constructor
      · intro h
        refine ⟨h 0 (by simp), ?_⟩
        intro i hi
        have := h (i+1) (by simpa using hi)
        simpa [Nat.add_assoc, Nat.add_comm 1 i] using this
      · rintro ⟨h0, h⟩ i hi
        cases i with
        | zero => exact h0
        | succ i =>
          have := h i (by simpa using hi)
          simpa [Nat.add_assoc, Nat.add_comm 1 i] using this
    rw [key]
    by_cases hc : cur = s.length
    · rw [if_pos hc]
      simp [inClass, hc]
    · rw [if_neg hc]
      cases hv : s[cur]? with
      | none => simp [inClass, hv]
      | some v =>
        simp only
        by_cases hm : matchCharacter ci v c = true
        · rw [if_pos hm, ih]
          have : inClass U ci s cur (.chr c) := ⟨v, hv, by simpa [CC.matchChar] using hm⟩
          simp only [this, true_and, List.length_cons]
          rw [show cur + (cs.length + 1) = cur + 1 + cs.length by omega]
        · rw [if_neg hm]
          refine ⟨by simp, ?_⟩
          rintro ⟨_, ⟨w, hw, hw'⟩, _⟩
          rw [hv] at hw
          simp only [Option.some.injEq] at hw
          subst hw
          simp only [CC.matchChar] at hw'
          exact absurd hw' hm

/-! ### Simulation -/

/-- Both ends of a slot that is set are known. -/
def Slot.complete (sl : Slot) : Prop := sl.matched = true ∧ ∃ b e, sl.b = some b ∧ sl.e = some e

/-- A slot holds the span of a group. -/
def SlotRel : Option Slot → Option (Nat × Nat) → Prop
  | none, v => v = none
  | some sl, v => (sl.matched = true ∧ ∃ b e, sl.b = some b ∧ sl.e = some e ∧ v = some (b, e)) ∨
      (¬ sl.complete ∧ v = none)

/-- `x` is the machine state for the specification state `σ`; groups in `O` are open. -/
structure Rel (E : Env) (s : List Ch) (G : List Nat) (O : List Nat) (x : SSt) (σ : MState) : Prop where
  pos : x.pos = σ.pos
  ml : x.ml = σ.multiline
  ci : x.ci = σ.caseless
  le : x.pos ≤ s.length
  ids : groupIds x.gs = G
  nodup : G.Nodup
  nz : 0 ∉ G
  num : ∀ n, E.number n = groupNumber x.gs n
  slots : ∀ id, id ∉ O → SlotRel (refSlot x.gs id) (σ.cap id)

/-- Slots of open groups are not touched. -/
def Frame (O : List Nat) (x y : SSt) : Prop := ∀ id ∈ O, selectId id y.gs = selectId id x.gs

theorem Frame.rfl' {O : List Nat} {x : SSt} : Frame O x x := fun _ _ => rfl
theorem Frame.trans {O : List Nat} {x y z : SSt} (h : Frame O x y) (h' : Frame O y z) : Frame O x z :=
  fun id hid => (h' id hid).trans (h id hid)

/-- `A` and `B` are the same relation on related states. -/
def Sim (E : Env) (s : List Ch) (G O : List Nat) (cap : Prop) (A : SSt → SSt → Prop)
    (B : MState → MState → Prop) : Prop :=
  ∀ x σ, Rel E s G O x σ →
    (∀ y, A x y → ∃ τ, B σ τ ∧ Rel E s G O y τ ∧ Frame O x y) ∧
    (cap → ∀ τ, B σ τ → ∃ y, A x y ∧ Rel E s G O y τ ∧ Frame O x y)

theorem Sim.comp {E : Env} {s : List Ch} {G O : List Nat} {cap cap' : Prop} {A A' : SSt → SSt → Prop}
    {B B' : MState → MState → Prop} (h : Sim E s G O cap A B) (h' : Sim E s G O cap' A' B') :
    Sim E s G O (cap ∧ cap') (fun x y => ∃ z, A x z ∧ A' z y) (fun x y => ∃ z, B x z ∧ B' z y) := by
  intro x σ hr
  refine ⟨?_, ?_⟩
  · rintro y ⟨z, hz, hy⟩
    obtain ⟨ρ, h1, h2, h3⟩ := (h x σ hr).1 z hz
    obtain ⟨τ, h4, h5, h6⟩ := (h' z ρ h2).1 y hy
    exact ⟨τ, ⟨ρ, h1, h4⟩, h5, h3.trans h6⟩
  · rintro ⟨hc, hc'⟩ τ ⟨ρ, hρ, hτ⟩
    obtain ⟨z, h1, h2, h3⟩ := (h x σ hr).2 hc ρ hρ
    obtain ⟨y, h4, h5, h6⟩ := (h' z ρ h2).2 hc' τ hτ
    exact ⟨y, ⟨z, h1, h4⟩, h5, h3.trans h6⟩

theorem Sim.or {E : Env} {s : List Ch} {G O : List Nat} {cap cap' : Prop} {A A' : SSt → SSt → Prop}
    {B B' : MState → MState → Prop} (h : Sim E s G O cap A B) (h' : Sim E s G O cap' A' B') :
    Sim E s G O (cap ∧ cap') (fun x y => A x y ∨ A' x y) (fun x y => B x y ∨ B' x y) := by
  intro x σ hr
  refine ⟨?_, ?_⟩
  · rintro y (hy | hy)
    · obtain ⟨τ, h1, h2⟩ := (h x σ hr).1 y hy; exact ⟨τ, .inl h1, h2⟩
    · obtain ⟨τ, h1, h2⟩ := (h' x σ hr).1 y hy; exact ⟨τ, .inr h1, h2⟩
  · rintro ⟨hc, hc'⟩ τ (hτ | hτ)
    · obtain ⟨y, h1, h2⟩ := (h x σ hr).2 hc τ hτ; exact ⟨y, .inl h1, h2⟩
    · obtain ⟨y, h1, h2⟩ := (h' x σ hr).2 hc' τ hτ; exact ⟨y, .inr h1, h2⟩

theorem Sim.iterate {E : Env} {s : List Ch} {G O : List Nat} {cap : Prop} {A : SSt → SSt → Prop}
    {B : MState → MState → Prop} (h : Sim E s G O cap A B) (k : Nat) :
    Sim E s G O cap (Iterate A k) (Iterate B k) := by
  induction k with
  | zero =>
    intro x σ hr
    refine ⟨?_, ?_⟩
    · intro y hy; cases hy; exact ⟨σ, .zero _, hr, .rfl'⟩
    · intro _ y hy; cases hy; exact ⟨x, .zero _, hr, .rfl'⟩
  | succ k ih =>
    intro x σ hr
    refine ⟨?_, ?_⟩
    · intro y hy
      cases hy with
      | succ h1 h2 =>
        obtain ⟨ρ, h3, h4, h5⟩ := (h x σ hr).1 _ h1
        obtain ⟨τ, h6, h7, h8⟩ := (ih _ ρ h4).1 _ h2
        exact ⟨τ, .succ h3 h6, h7, h5.trans h8⟩
    · intro hc τ hy
      cases hy with
      | succ h1 h2 =>
        obtain ⟨z, h3, h4, h5⟩ := (h x σ hr).2 hc _ h1
        obtain ⟨y, h6, h7, h8⟩ := (ih z _ h4).2 hc _ h2
        exact ⟨y, .succ h3 h6, h7, h5.trans h8⟩

/-- A relation that only moves the position. -/
theorem Sim.move {E : Env} {s : List Ch} {G O : List Nat} {cap : Prop} {A : SSt → SSt → Prop}
    {B : MState → MState → Prop} (P : SSt → MState → Nat → Prop)
    (hA : ∀ x σ y, Rel E s G O x σ → (A x y ↔ ∃ p, P x σ p ∧ y = { x with pos := p }))
    (hB : ∀ x σ τ, Rel E s G O x σ → (B σ τ ↔ ∃ p, P x σ p ∧ τ = { σ with pos := p }))
    (hP : ∀ x σ p, Rel E s G O x σ → P x σ p → p ≤ s.length) : Sim E s G O cap A B := by
  intro x σ hr
  refine ⟨?_, ?_⟩
  · intro y hy
    obtain ⟨p, h1, rfl⟩ := (hA x σ y hr).1 hy
    exact ⟨{ σ with pos := p }, (hB x σ _ hr).2 ⟨p, h1, rfl⟩,
      ⟨rfl, hr.ml, hr.ci, hP x σ p hr h1, hr.ids, hr.nodup, hr.nz, hr.num, hr.slots⟩, .rfl'⟩
  · intro _ τ hy
    obtain ⟨p, h1, rfl⟩ := (hB x σ τ hr).1 hy
    exact ⟨{ x with pos := p }, (hA x σ _ hr).2 ⟨p, h1, rfl⟩,
      ⟨rfl, hr.ml, hr.ci, hP x σ p hr h1, hr.ids, hr.nodup, hr.nz, hr.num, hr.slots⟩, .rfl'⟩

/-- A relation that changes nothing. -/
theorem Sim.test {E : Env} {s : List Ch} {G O : List Nat} {cap : Prop} {A : SSt → SSt → Prop}
    {B : MState → MState → Prop} (P : SSt → MState → Prop)
    (hA : ∀ x σ y, Rel E s G O x σ → (A x y ↔ P x σ ∧ y = x))
    (hB : ∀ x σ τ, Rel E s G O x σ → (B σ τ ↔ P x σ ∧ τ = σ)) : Sim E s G O cap A B := by
  intro x σ hr
  refine ⟨?_, ?_⟩
  · intro y hy
    obtain ⟨h1, rfl⟩ := (hA x σ y hr).1 hy
    exact ⟨σ, (hB _ σ _ hr).2 ⟨h1, rfl⟩, hr, .rfl'⟩
  · intro _ τ hy
    obtain ⟨h1, rfl⟩ := (hB x σ τ hr).1 hy
    exact ⟨x, (hA x _ _ hr).2 ⟨h1, rfl⟩, hr, .rfl'⟩

theorem brefCmp_iff {s : List Ch} {cur p : Nat} {sl : Option Slot} {v : Option (Nat × Nat)}
    (hs : SlotRel sl v) (hcur : cur ≤ s.length) :
    (∃ q, brefCmp s cur sl = some (.yes p, q)) ↔
      ∃ b e, v = some (b, e) ∧ b ≤ e ∧ cur + (e - b) ≤ s.length ∧
        text s b e = text s cur (cur + (e - b)) ∧ p = cur + (e - b) := by
  cases sl with
  | none => simp only [SlotRel] at hs; subst hs; simp [brefCmp]
  | some sl =>
    simp only [SlotRel] at hs
    rcases hs with ⟨hm, b, e, hb, he, rfl⟩ | ⟨hm, rfl⟩
    · simp only [brefCmp, hm, if_true, hb, he, Option.some.injEq, Prod.mk.injEq, exists_and_left,
        exists_eq', and_true]
      rw [matchRangeBack_iff _ hcur (Nat.le_refl _)]
      constructor
      · rintro ⟨h1, h2, h3, h4⟩
        refine ⟨b, e, ⟨rfl, rfl⟩, h1, h3, ?_, h2⟩
        have := (text_eq_iff (s := s) (b := b) (c := cur) (n := e - b)).2 h4
        rwa [show b + (e - b) = e by omega] at this
      · rintro ⟨b', e', ⟨rfl, rfl⟩, h1, h3, h4, h2⟩
        refine ⟨h1, h2, h3, ?_⟩
        apply (text_eq_iff (s := s) (b := b) (c := cur) (n := e - b)).1
        rwa [show b + (e - b) = e by omega]
    · simp only [brefCmp]
      split
      · rename_i hmt
        split
        · rename_i b e hb he
          exact absurd ⟨hmt, b, e, hb, he⟩ hm
        · simp
      · simp

theorem Rel.slotName {E : Env} {s : List Ch} {G O : List Nat} {x : SSt} {σ : MState}
    (hr : Rel E s G O x σ) (n : List Nat) (hO : ∀ id, E.number n = some id → id ∉ O) :
    SlotRel (selectName n x.gs) ((E.number n).bind σ.cap) := by
  rw [selectName_eq (by rw [hr.ids]; exact hr.nodup), ← hr.num]
  cases hn : E.number n with
  | none => simp [SlotRel]
  | some id =>
    simp only [Option.bind_some]
    have := hr.slots id (hO id hn)
    unfold refSlot at this
    by_cases h0 : id = 0
    · subst h0
      have h1 := hr.nz
      rw [← hr.ids, ← hasId_iff, ← selectId_isSome] at h1
      simp only [if_true, SlotRel] at this
      have h2 : selectId 0 x.gs = none := by
        cases h : selectId 0 x.gs <;> simp [h] at h1 ⊢
      rw [h2]
      simp [SlotRel] at this ⊢
      exact this.2
    · rwa [if_neg h0] at this

theorem Rel.openCap {E : Env} {s : List Ch} {G O : List Nat} {x : SSt} {σ : MState} {id : Nat} (g : Slot → Slot)
    (hr : Rel E s G O x σ) : Rel E s G (id :: O) { x with gs := modifyId id g x.gs } σ := by
  refine ⟨hr.pos, hr.ml, hr.ci, hr.le, ?_, hr.nodup, hr.nz, ?_, ?_⟩
  · rw [groupIds_shape, shape_modifyId, ← groupIds_shape]; exact hr.ids
  · intro n; rw [hr.num, groupNumber_shape n (shape_modifyId _ _ _)]
  · intro id' hid'
    simp only [List.mem_cons, not_or] at hid'
    have := hr.slots id' hid'.2
    unfold refSlot at this ⊢
    simpa [selectId_modifyId, hid'.1] using this

theorem Sim.mono {E : Env} {s : List Ch} {G O : List Nat} {cap cap' : Prop} {A A' : SSt → SSt → Prop}
    {B B' : MState → MState → Prop} (h : Sim E s G O cap A B) (hc : cap' → cap)
    (hA : ∀ x y, A' x y ↔ A x y) (hB : ∀ x y, B' x y ↔ B x y) : Sim E s G O cap' A' B' := by
  intro x σ hr
  refine ⟨?_, ?_⟩
  · intro y hy
    obtain ⟨τ, h1, h2⟩ := (h x σ hr).1 y ((hA _ _).1 hy)
    exact ⟨τ, (hB _ _).2 h1, h2⟩
  · intro hc' τ hy
    obtain ⟨y, h1, h2⟩ := (h x σ hr).2 (hc hc') τ ((hB _ _).1 hy)
    exact ⟨y, (hA _ _).2 h1, h2⟩

/-- A loop body: the modes are restored. -/
theorem Sim.body {E : Env} {s : List Ch} {G O : List Nat} {cap : Prop} {A : SSt → SSt → Prop}
    {B : MState → MState → Prop} (h : Sim E s G O cap A B) :
    Sim E s G O cap (fun x y => ∃ z, A x z ∧ y = { z with ml := x.ml, ci := x.ci })
      (fun σ τ => ∃ ρ, B σ ρ ∧ τ = { ρ with multiline := σ.multiline, caseless := σ.caseless }) := by
  intro x σ hr
  refine ⟨?_, ?_⟩
  · rintro y ⟨z, hz, rfl⟩
    obtain ⟨ρ, h1, h2, h3⟩ := (h x σ hr).1 z hz
    exact ⟨_, ⟨ρ, h1, rfl⟩, ⟨h2.pos, hr.ml, hr.ci, h2.le, h2.ids, h2.nodup, h2.nz, h2.num, h2.slots⟩, h3⟩
  · rintro hc τ ⟨ρ, hρ, rfl⟩
    obtain ⟨z, h1, h2, h3⟩ := (h x σ hr).2 hc ρ hρ
    exact ⟨_, ⟨z, h1, rfl⟩, ⟨h2.pos, hr.ml, hr.ci, h2.le, h2.ids, h2.nodup, h2.nz, h2.num, h2.slots⟩, h3⟩

theorem refine_char {E : Env} {s : List Ch} {G O : List Nat} {cap : Prop} (cl : CC) :
    Sim E s G O cap (Re.Sem E.uni (.cc cl) s) (Re.Match E (.cc cl) s) := by
  refine Sim.move (fun x σ p => inClass E.uni σ.caseless s σ.pos cl ∧ p = σ.pos + 1) ?_ ?_ ?_
  · intro x σ y hr
    simp only [Re.Sem, inClass, hr.pos, hr.ci]
    constructor
    · rintro ⟨v, h1, h2, rfl⟩; exact ⟨_, ⟨⟨v, h1, h2⟩, rfl⟩, rfl⟩
    · rintro ⟨p, ⟨⟨v, h1, h2⟩, rfl⟩, rfl⟩; exact ⟨v, h1, h2, rfl⟩
  · intro x σ y hr
    simp only [Re.Match]
    constructor
    · rintro ⟨h1, rfl⟩; exact ⟨_, ⟨h1, rfl⟩, rfl⟩
    · rintro ⟨p, ⟨h1, rfl⟩, rfl⟩; exact ⟨h1, rfl⟩
  · rintro x σ p hr ⟨⟨v, hv, _⟩, rfl⟩
    have := (List.getElem?_eq_some_iff.1 hv).1
    omega

theorem refine_any {E : Env} {s : List Ch} {G O : List Nat} {cap : Prop} :
    Sim E s G O cap (Re.Sem E.uni .any s) (Re.Match E .any s) := by
  refine Sim.move (fun x σ p => σ.pos < s.length ∧ ¬ (σ.multiline = true ∧ newlineAt s σ.pos) ∧
    p = σ.pos + 1) ?_ ?_ ?_
  · intro x σ y hr
    simp only [Re.Sem, newlineAt, hr.pos, hr.ml]
    constructor
    · rintro ⟨v, h1, h2, rfl⟩
      refine ⟨_, ⟨(List.getElem?_eq_some_iff.1 h1).1, ?_, rfl⟩, rfl⟩
      rintro ⟨h3, h4⟩
      rw [h1] at h4
      simp only [Option.some.injEq] at h4
      exact h2 h3 h4
    · rintro ⟨p, ⟨h1, h2, rfl⟩, rfl⟩
      refine ⟨s[σ.pos], List.getElem?_eq_getElem h1, ?_, rfl⟩
      intro h3 h4
      exact h2 ⟨h3, by rw [List.getElem?_eq_getElem h1, h4]⟩
  · intro x σ y hr
    simp only [Re.Match]
    constructor
    · rintro ⟨h1, h2, rfl⟩; exact ⟨_, ⟨h1, h2, rfl⟩, rfl⟩
    · rintro ⟨p, ⟨h1, h2, rfl⟩, rfl⟩; exact ⟨h1, h2, rfl⟩
  · rintro x σ p hr ⟨h1, _, rfl⟩
    omega

theorem refine_str {E : Env} {s : List Ch} {G O : List Nat} {cap : Prop} (cs : List Nat) :
    Sim E s G O cap (Re.Sem E.uni (.str cs) s) (Re.Match E (.str cs) s) := by
  refine Sim.move (fun x σ p => matchString σ.caseless s cs σ.pos = .yes p) ?_ ?_ ?_
  · intro x σ y hr
    simp only [Re.Sem, hr.pos, hr.ci]
  · intro x σ y hr
    simp only [Re.Match]
    constructor
    · rintro ⟨h1, rfl⟩; exact ⟨_, (matchString_iff (U := E.uni)).2 ⟨rfl, h1⟩, rfl⟩
    · rintro ⟨p, h, rfl⟩
      obtain ⟨rfl, h2⟩ := (matchString_iff (U := E.uni)).1 h
      exact ⟨h2, rfl⟩
  · rintro x σ p hr h
    exact (matchString_yes h).2 (by rw [← hr.pos]; exact hr.le)

theorem refine_test {E : Env} {s : List Ch} {G O : List Nat} {cap : Prop} {r : Re} (h : r.isTest = true)
    (hm : ∀ σ τ, r.Match E s σ τ ↔ Holds E.uni s σ r ∧ τ = σ) :
    Sim E s G O cap (Re.Sem E.uni r s) (Re.Match E r s) := by
  refine Sim.test (fun x σ => Holds E.uni s σ r) ?_ (fun x σ τ _ => hm σ τ)
  intro x σ y hr
  rw [Re.Sem_test h, hr.pos, testAt_iff (by rw [← hr.pos]; exact hr.le) hr.ml hr.ci]

theorem refine_again {E : Env} {s : List Ch} {G O : List Nat} {cap : Prop} {A : SSt → SSt → Prop}
    {B : MState → MState → Prop} (sl : SSt → Option Slot) (v : MState → Option (Nat × Nat))
    (hsl : ∀ x σ, Rel E s G O x σ → SlotRel (sl x) (v σ))
    (hA : ∀ x y, A x y ↔ ∃ p q, brefCmp s x.pos (sl x) = some (.yes p, q) ∧ y = { x with pos := p })
    (hB : ∀ σ τ, B σ τ ↔ ∃ b e, v σ = some (b, e) ∧ b ≤ e ∧ σ.pos + (e - b) ≤ s.length ∧
      text s b e = text s σ.pos (σ.pos + (e - b)) ∧ τ = { σ with pos := σ.pos + (e - b) }) :
    Sim E s G O cap A B := by
  refine Sim.move (fun x σ p => ∃ b e, v σ = some (b, e) ∧ b ≤ e ∧ σ.pos + (e - b) ≤ s.length ∧
      text s b e = text s σ.pos (σ.pos + (e - b)) ∧ p = σ.pos + (e - b)) ?_ ?_ ?_
  · intro x σ y hr
    rw [hA]
    constructor
    · rintro ⟨p, q, h, rfl⟩
      rw [hr.pos] at h
      exact ⟨p, (brefCmp_iff (hsl x σ hr) (by rw [← hr.pos]; exact hr.le)).1 ⟨q, h⟩, rfl⟩
    · rintro ⟨p, h, rfl⟩
      obtain ⟨q, hq⟩ := (brefCmp_iff (hsl x σ hr) (by rw [← hr.pos]; exact hr.le)).2 h
      exact ⟨p, q, by rw [hr.pos]; exact hq, rfl⟩
  · intro x σ τ hr
    rw [hB]
    constructor
    · rintro ⟨b, e, h1, h2, h3, h4, rfl⟩; exact ⟨_, ⟨b, e, h1, h2, h3, h4, rfl⟩, rfl⟩
    · rintro ⟨p, ⟨b, e, h1, h2, h3, h4, rfl⟩, rfl⟩; exact ⟨b, e, h1, h2, h3, h4, rfl⟩
  · rintro x σ p hr ⟨b, e, h1, h2, h3, h4, rfl⟩
    exact h3

theorem refine_cap {E : Env} {s : List Ch} {G O : List Nat} {cap : Prop} {A : SSt → SSt → Prop}
    {B : MState → MState → Prop} {id : Nat} (hid0 : id ≠ 0) (hO : id ∉ O) (h : Sim E s G (id :: O) cap A B) :
    Sim E s G O (id ∈ G ∧ cap)
      (fun x y => hasId id x.gs = true ∧ ∃ z,
        A { x with gs := modifyId id (fun sl => { sl with b := some x.pos }) x.gs } z ∧
        y = { z with gs := modifyId id (fun sl => { sl with e := some z.pos, matched := true }) z.gs })
      (fun σ τ => ∃ ρ, B σ ρ ∧ τ = ρ.setCap id σ.pos ρ.pos) := by
  intro x σ hr
  have hopen := hr.openCap (id := id) (fun sl => { sl with b := some x.pos })
  have key : ∀ z ρ, hasId id x.gs = true → Rel E s G (id :: O) z ρ →
      Frame (id :: O) { x with gs := modifyId id (fun sl => { sl with b := some x.pos }) x.gs } z →
      Rel E s G O { z with gs := modifyId id (fun sl => { sl with e := some z.pos, matched := true }) z.gs }
        (ρ.setCap id σ.pos ρ.pos) ∧
      Frame O x { z with gs := modifyId id (fun sl => { sl with e := some z.pos, matched := true }) z.gs } := by
    intro z ρ hid hz hf
    refine ⟨⟨hz.pos, hz.ml, hz.ci, hz.le, ?_, hz.nodup, hz.nz, ?_, ?_⟩, ?_⟩
    · rw [groupIds_shape, shape_modifyId, ← groupIds_shape]; exact hz.ids
    · intro n; rw [hz.num, groupNumber_shape n (shape_modifyId _ _ _)]
    · intro id' hid'
      by_cases he : id' = id
      · subst he
        have h1 := hf id' (by simp)
        simp only [selectId_modifyId, if_true] at h1
        rw [← selectId_isSome] at hid
        obtain ⟨sl, hsl⟩ := Option.isSome_iff_exists.1 hid
        rw [hsl] at h1
        simp only [Option.map_some] at h1
        unfold refSlot
        rw [if_neg hid0, selectId_modifyId, if_pos rfl, h1]
        simp only [Option.map_some, SlotRel, MState.setCap, if_true]
        exact .inl ⟨trivial, _, _, rfl, rfl, by rw [hr.pos, hz.pos]⟩
      · have := hz.slots id' (by simp [he, hid'])
        unfold refSlot at this ⊢
        simpa [selectId_modifyId, he, MState.setCap] using this
    · intro id' hid'
      have he : id' ≠ id := by rintro rfl; exact hO hid'
      have := hf id' (by simp [hid'])
      simpa [selectId_modifyId, he] using this
  refine ⟨?_, ?_⟩
  · rintro y ⟨hid, z, hz, rfl⟩
    obtain ⟨ρ, h1, h2, h3⟩ := (h _ σ hopen).1 z hz
    obtain ⟨h4, h5⟩ := key z ρ hid h2 h3
    exact ⟨_, ⟨ρ, h1, rfl⟩, h4, h5⟩
  · rintro ⟨hG, hc⟩ τ ⟨ρ, hρ, rfl⟩
    obtain ⟨z, h1, h2, h3⟩ := (h _ σ hopen).2 hc ρ hρ
    have hid : hasId id x.gs = true := by rw [hasId_iff, hr.ids]; exact hG
    obtain ⟨h4, h5⟩ := key z ρ hid h2 h3
    exact ⟨_, ⟨hid, z, h1, rfl⟩, h4, h5⟩

/-- Positive lookaround: position and modes are restored, captures are kept. -/
theorem refine_look {E : Env} {s s' : List Ch} {G O : List Nat} {cap : Prop} {A : SSt → SSt → Prop}
    {B : MState → MState → Prop} (g : Nat → Nat) (hg : ∀ p, p ≤ s.length → g p ≤ s'.length)
    (h : Sim E s' G O cap A B) :
    Sim E s G O cap (fun x y => ∃ z, A { x with pos := g x.pos } z ∧ y = { x with gs := z.gs })
      (fun σ τ => ∃ ρ, B { σ with pos := g σ.pos } ρ ∧ τ = { σ with cap := ρ.cap }) := by
  intro x σ hr
  have hr' : Rel E s' G O { x with pos := g x.pos } { σ with pos := g σ.pos } :=
    ⟨by rw [hr.pos], hr.ml, hr.ci, hg _ hr.le, hr.ids, hr.nodup, hr.nz, hr.num, hr.slots⟩
  refine ⟨?_, ?_⟩
  · rintro y ⟨z, hz, rfl⟩
    obtain ⟨ρ, h1, h2, h3⟩ := (h _ _ hr').1 z hz
    exact ⟨_, ⟨ρ, h1, rfl⟩, ⟨hr.pos, hr.ml, hr.ci, hr.le, h2.ids, h2.nodup, h2.nz, h2.num, h2.slots⟩, h3⟩
  · rintro hc τ ⟨ρ, hρ, rfl⟩
    obtain ⟨z, h1, h2, h3⟩ := (h _ _ hr').2 hc ρ hρ
    exact ⟨_, ⟨z, h1, rfl⟩, ⟨hr.pos, hr.ml, hr.ci, hr.le, h2.ids, h2.nodup, h2.nz, h2.num, h2.slots⟩, h3⟩

/-- Negative lookaround. -/
theorem refine_neg {E : Env} {s s' : List Ch} {G O : List Nat} {cap cap' : Prop} {A : SSt → SSt → Prop}
    {B : MState → MState → Prop} (g : Nat → Nat) (hg : ∀ p, p ≤ s.length → g p ≤ s'.length)
    (h : Sim E s' G O cap A B) (hc : cap) :
    Sim E s G O cap' (fun x y => (¬ ∃ z, A { x with pos := g x.pos } z) ∧ y = x)
      (fun σ τ => (¬ ∃ ρ, B { σ with pos := g σ.pos } ρ) ∧ τ = σ) := by
  intro x σ hr
  have hr' : Rel E s' G O { x with pos := g x.pos } { σ with pos := g σ.pos } :=
    ⟨by rw [hr.pos], hr.ml, hr.ci, hg _ hr.le, hr.ids, hr.nodup, hr.nz, hr.num, hr.slots⟩
  refine ⟨?_, ?_⟩
  · rintro y ⟨hn, rfl⟩
    refine ⟨σ, ⟨?_, rfl⟩, hr, .rfl'⟩
    rintro ⟨ρ, hρ⟩
    obtain ⟨z, h1, _⟩ := (h _ _ hr').2 hc ρ hρ
    exact hn ⟨z, h1⟩
  · rintro _ τ ⟨hn, rfl⟩
    refine ⟨x, ⟨?_, rfl⟩, hr, .rfl'⟩
    rintro ⟨z, hz⟩
    obtain ⟨ρ, h1, _⟩ := (h _ _ hr').1 z hz
    exact hn ⟨ρ, h1⟩

mutual
theorem Re.refine {E : Env} {G : List Nat} : ∀ {r : Re} {s : List Ch} {O : List Nat},
    r.noSelf E.number O = true → r.negCaps G = true →
    Sim E s G O (r.capsIn G = true) (r.Sem E.uni s) (r.Match E s)
  | .cc cl, s, O, _, _ => refine_char cl
  | .any, s, O, _, _ => refine_any
  | .str cs, s, O, _, _ => refine_str cs
  | .sel l, s, O, h, h' => by
    simp only [Re.noSelf] at h; simp only [Re.negCaps] at h'
    exact (refineAny h h').mono (by simp [Re.capsIn]) (by simp [Re.Sem]) (by simp [Re.Match])
  | .seq l, s, O, h, h' => by
    simp only [Re.noSelf] at h; simp only [Re.negCaps] at h'
    exact (refineAll h h').mono (by simp [Re.capsIn]) (by simp [Re.Sem]) (by simp [Re.Match])
  | .empty, s, O, h, h' => by
    exact Sim.test (fun _ _ => True) (by simp [Re.Sem]) (by simp [Re.Match])
  | .rep k a b l, s, O, h, h' => by
    simp only [Re.noSelf] at h; simp only [Re.negCaps] at h'
    have := (refineAll (s := s) h h').body
    intro x σ hr
    refine ⟨?_, ?_⟩
    · intro y hy
      simp only [Re.Sem] at hy
      obtain ⟨k, h1, h2, h3⟩ := hy
      obtain ⟨τ, h4, h5⟩ := (this.iterate k x σ hr).1 y h3
      exact ⟨τ, by simp only [Re.Match]; exact ⟨k, h1, h2, h4⟩, h5⟩
    · intro hc τ hτ
      simp only [Re.capsIn] at hc
      simp only [Re.Match] at hτ
      obtain ⟨k, h1, h2, h3⟩ := hτ
      obtain ⟨y, h4, h5⟩ := (this.iterate k x σ hr).2 hc τ h3
      exact ⟨y, by simp only [Re.Sem]; exact ⟨k, h1, h2, h4⟩, h5⟩
  | .cap id n l, s, O, h, h' => by
    simp only [Re.noSelf, Bool.and_eq_true, bne_iff_ne, ne_eq, Bool.not_eq_true',
      List.contains_eq_mem, decide_eq_false_iff_not] at h
    simp only [Re.negCaps] at h'
    exact (refine_cap h.1.1 h.1.2 (refineAll h.2 h')).mono (by simp [Re.capsIn]) (by simp [Re.Sem])
      (by simp [Re.Match])
  | .bref id, s, O, h, h' => by
    simp only [Re.noSelf, Bool.not_eq_true', List.contains_eq_mem, decide_eq_false_iff_not] at h
    exact refine_again (fun x => refSlot x.gs id) (fun σ => σ.cap id) (fun x σ hr => hr.slots id h)
      (by simp [Re.Sem]) (by simp [Re.Match, Again])
  | .brefName n, s, O, h, h' => by
    have hO : ∀ id, E.number n = some id → id ∉ O := by
      intro id hid
      simpa [Re.noSelf, hid] using h
    refine refine_again (fun x => selectName n x.gs) (fun σ => (E.number n).bind σ.cap)
      (fun x σ hr => hr.slotName n hO) (by simp [Re.Sem]) ?_
    intro σ τ
    simp only [Re.Match, Again]
    constructor
    · rintro ⟨id, h1, b, e, h2, h3⟩; exact ⟨b, e, by rw [h1]; exact h2, h3⟩
    · rintro ⟨b, e, h1, h2⟩
      cases hn : E.number n with
      | none => simp [hn] at h1
      | some id => rw [hn] at h1; exact ⟨id, rfl, b, e, h1, h2⟩
  | .ahead true l, s, O, h, h' => by
    simp only [Re.noSelf] at h
    simp only [Re.negCaps, Bool.and_eq_true] at h'
    exact (refine_look id (fun _ h => h) (refineAll h h'.1)).mono (by simp [Re.capsIn]) (by simp [Re.Sem])
      (by simp [Re.Match])
  | .ahead false l, s, O, h, h' => by
    simp only [Re.noSelf] at h
    simp only [Re.negCaps, Bool.and_eq_true, Bool.false_or] at h'
    exact (refine_neg id (fun _ h => h) (refineAll h h'.1) h'.2).mono (fun h => h) (by simp [Re.Sem])
      (by simp [Re.Match])
  | .behind true l, s, O, h, h' => by
    simp only [Re.noSelf] at h
    simp only [Re.negCaps, Bool.and_eq_true] at h'
    exact (refine_look (s' := s.reverse) (fun p => s.length - p) (by simp) (refineAll h h'.1)).mono (by simp [Re.capsIn])
      (by simp [Re.Sem]) (by simp [Re.Match])
  | .behind false l, s, O, h, h' => by
    simp only [Re.noSelf] at h
    simp only [Re.negCaps, Bool.and_eq_true, Bool.false_or] at h'
    exact (refine_neg (s' := s.reverse) (fun p => s.length - p) (by simp) (refineAll h h'.1) h'.2).mono (fun h => h)
      (by simp [Re.Sem]) (by simp [Re.Match])
  | .atomic l, s, O, h, h' => by
    simp only [Re.noSelf] at h; simp only [Re.negCaps] at h'
    exact (refineAll h h').body.mono (by simp [Re.capsIn]) (by simp [Re.Sem]) (by simp [Re.Match])
  | .mode m, s, O, h, h' => by
    intro x σ hr
    have hrel : Rel E s G O { x with ml := (x.flags.add m).ml, ci := (x.flags.add m).ci } (σ.setMode m) := by
      cases m <;> exact ⟨hr.pos, by first | exact hr.ml | rfl, by first | exact hr.ci | rfl,
        hr.le, hr.ids, hr.nodup, hr.nz, hr.num, hr.slots⟩
    refine ⟨?_, ?_⟩
    · intro y hy
      simp only [Re.Sem] at hy
      subst hy
      exact ⟨_, by simp only [Re.Match], hrel, .rfl'⟩
    · intro _ τ hy
      simp only [Re.Match] at hy
      subst hy
      exact ⟨_, by simp only [Re.Sem], hrel, .rfl'⟩
  | .reject _, s, O, h, h' => Sim.test (fun _ _ => False) (by simp [Re.Sem]) (by simp [Re.Match])
  | .boundary _, s, O, _, _ | .notBoundary _, s, O, _, _ | .sBegin, s, O, _, _ | .sEnd, s, O, _, _
  | .sEndLine, s, O, _, _ | .lBegin, s, O, _, _ | .lEnd, s, O, _, _ =>
    refine_test rfl (by simp [Re.Match])

theorem refineAll {E : Env} {G : List Nat} : ∀ {l : List Re} {s : List Ch} {O : List Nat},
    noSelfList E.number O l = true → negCapsList G l = true →
    Sim E s G O (capsInList G l = true) (SemSeq E.uni l s) (MatchAll E l s)
  | [], s, O, h, h' => Sim.test (fun _ _ => True) (by simp [SemSeq]) (by simp [MatchAll])
  | r :: l, s, O, h, h' => by
    simp only [noSelfList, Bool.and_eq_true] at h
    simp only [negCapsList, Bool.and_eq_true] at h'
    exact ((Re.refine h.1 h'.1).comp (refineAll h.2 h'.2)).mono (by simp [capsInList])
      (by simp [SemSeq]) (by simp [MatchAll])

theorem refineAny {E : Env} {G : List Nat} : ∀ {l : List Re} {s : List Ch} {O : List Nat},
    noSelfList E.number O l = true → negCapsList G l = true →
    Sim E s G O (capsInList G l = true) (SemSel E.uni l s) (MatchAny E l s)
  | [], s, O, h, h' => Sim.test (fun _ _ => False) (by simp [SemSel]) (by simp [MatchAny])
  | r :: l, s, O, h, h' => by
    simp only [noSelfList, Bool.and_eq_true] at h
    simp only [negCapsList, Bool.and_eq_true] at h'
    exact ((Re.refine h.1 h'.1).or (refineAny h.2 h'.2)).mono (by simp [capsInList])
      (by simp [SemSel]) (by simp [MatchAny])
end

end Ctre
