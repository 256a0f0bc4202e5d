import Verif.Lemmas.SurfaceSem

/-
The trees built by the parser mean what the syntax trees mean: `body_sem`.
-/
namespace Ctre
variable {E : Env}

/-! ### Lookbehind does not look at the captures -/

theorem backward_caps {r : Re} : r.backward = true → ∀ {s : List Ch} {σ σ' : MState} {e : Nat}, σ.pos = σ'.pos →
    σ.multiline = σ'.multiline → σ.caseless = σ'.caseless → σ.pos ≤ s.length → r.Match E s σ { σ with pos := e } →
    r.Match E s σ' { σ' with pos := e } := by
  induction r using Re.rec (motive_2 := fun l => backwardAll l = true → ∀ {s : List Ch} {σ σ' : MState} {e : Nat}, σ.pos = σ'.pos →
    σ.multiline = σ'.multiline → σ.caseless = σ'.caseless → σ.pos ≤ s.length →
    (MatchAll E l s σ { σ with pos := e } → MatchAll E l s σ' { σ' with pos := e }) ∧
    (MatchAny E l s σ { σ with pos := e } → MatchAny E l s σ' { σ' with pos := e })) with
  | cc c =>
    intro _ s σ σ' e h1 h2 h3 hp h
    simp only [Re.Match, MState.mk.injEq, and_true] at h ⊢
    rw [← h1, ← h3]; exact h
  | any =>
    intro _ s σ σ' e h1 h2 h3 hp h
    simp only [Re.Match, MState.mk.injEq, and_true] at h ⊢
    rw [← h1, ← h2]; exact h
  | str cs =>
    intro _ s σ σ' e h1 h2 h3 hp h
    simp only [Re.Match, MState.mk.injEq, and_true] at h ⊢
    rw [← h1, ← h3]; exact h
  | sel l ih =>
    intro hb s σ σ' e h1 h2 h3 hp h
    simp only [Re.backward] at hb
    simp only [Re.Match] at h ⊢
    exact (ih hb h1 h2 h3 hp).2 h
  | seq l ih =>
    intro hb s σ σ' e h1 h2 h3 hp h
    simp only [Re.backward, Bool.and_eq_true] at hb
    simp only [Re.Match] at h ⊢
    exact (ih hb.2 h1 h2 h3 hp).1 h
  | empty =>
    intro _ s σ σ' e h1 h2 h3 hp h
    simp only [Re.Match] at h ⊢
    have := congrArg MState.pos h
    simp only at this
    rw [this, h1]
  | reject => intro _ s σ σ' e h1 h2 h3 hp h; simp [Re.Match] at h
  | boundary c =>
    intro _ s σ σ' e h1 h2 h3 hp h
    simp only [Re.Match, Holds] at h ⊢
    have := congrArg MState.pos h.2
    simp only at this
    refine ⟨by rw [← h1, ← h3]; exact h.1, ?_⟩
    rw [this, h1]
  | notBoundary c =>
    intro _ s σ σ' e h1 h2 h3 hp h
    simp only [Re.Match, Holds] at h ⊢
    have := congrArg MState.pos h.2
    simp only at this
    refine ⟨by rw [← h1, ← h3]; exact h.1, ?_⟩
    rw [this, h1]
  | nil =>
    rename_i s σ σ' e h1 h2 h3 hp
    refine ⟨fun h => ?_, fun h => by simp [MatchAny] at h⟩
    simp only [MatchAll] at h ⊢
    have := congrArg MState.pos h
    simp only at this
    rw [this, h1]
  | cons r l ih1 ih2 =>
    rename_i hb s σ σ' e h1 h2 h3 hp
    simp only [backwardAll, Bool.and_eq_true] at hb
    constructor
    · intro h
      simp only [MatchAll] at h ⊢
      obtain ⟨ρ, h4, h5⟩ := h
      obtain ⟨e1, _, e3⟩ := backward_match hb.1 h4 hp
      rw [e1] at h4 h5
      refine ⟨_, ih1 hb.1 h1 h2 h3 hp h4, ?_⟩
      exact (ih2 hb.2 (σ := { σ with pos := ρ.pos }) (σ' := { σ' with pos := ρ.pos }) rfl h2 h3 e3).1 h5
    · intro h
      simp only [MatchAny] at h ⊢
      exact h.imp (fun h => ih1 hb.1 h1 h2 h3 hp h) (fun h => (ih2 hb.2 h1 h2 h3 hp).2 h)
  | _ => intro hb; simp [Re.backward] at hb

theorem backward_span {r : Re} (hr : r.backward = true) {s : List Ch} {σ : MState} {e : Nat} (hp : σ.pos ≤ s.length) :
    r.Match E s σ { σ with pos := e } ↔ Span E r s { blk := false, ml := σ.multiline, ci := σ.caseless } σ.pos e := by
  constructor
  · intro h
    exact backward_caps (σ := σ) (σ' := .start σ.pos { blk := false, ml := σ.multiline, ci := σ.caseless }) hr rfl rfl rfl hp h
  · intro h
    exact backward_caps (σ' := σ) (σ := .start σ.pos { blk := false, ml := σ.multiline, ci := σ.caseless }) hr rfl rfl rfl hp h

namespace Parse
open Surface

theorem unpack_backward {r : Re} (h : r.backward = true) : backwardAll (unpack r) = true ∧ unpack r ≠ [] := by
  unfold unpack
  split
  · simp only [Re.backward, Bool.and_eq_true, Bool.not_eq_true', List.isEmpty_eq_false_iff] at h
    exact ⟨h.2, h.1⟩
  · simp [backwardAll, h]

theorem behind_match {r : Re} (hr : r.backward = true) (hrot : Rot r) {pos : Bool} {s : List Ch} {σ τ : MState}
    (hp : σ.pos ≤ s.length) :
    (Re.behind pos (rotated r)).Match E s σ τ ↔
      ((∃ p ρ, p ≤ σ.pos ∧ r.Match E s { σ with pos := p } ρ ∧ ρ.pos = σ.pos) ↔ pos = true) ∧ τ = σ := by
  obtain ⟨hu, hne⟩ := unpack_backward hr
  obtain ⟨l', hl'⟩ := Option.ne_none_iff_exists'.1 (rotateList_iff.2 (rot_unpack hrot))
  have hR : rotated r = l'.reverse := by simp [rotated, hl']
  have hseq : (Re.seq (unpack r)).backward = true := by simp [Re.backward, hu, hne]
  have hrs : (Re.seq (unpack r)).rotate = some (.seq l'.reverse) := by simp [Re.rotate, hl']
  obtain ⟨hb', hspan⟩ := rotate_span (E := E) hseq _ hrs
  -- the content, read backwards
  have key : ∀ ρ, (MatchAll E l'.reverse s.reverse { σ with pos := s.length - σ.pos } ρ →
      ρ = { σ with pos := ρ.pos } ∧ ∃ p π, p ≤ σ.pos ∧ r.Match E s { σ with pos := p } π ∧ π.pos = σ.pos) := by
    intro ρ h
    have h : (Re.seq l'.reverse).Match E s.reverse { σ with pos := s.length - σ.pos } ρ := by simpa only [Re.Match] using h
    obtain ⟨e1, e2, e3⟩ := backward_match hb' h (by simp)
    simp only [List.length_reverse] at e2 e3
    refine ⟨e1, s.length - ρ.pos, { σ with pos := σ.pos }, by omega, ?_, rfl⟩
    rw [e1] at h
    have h := (backward_span hb' (σ := { σ with pos := s.length - σ.pos }) (by simp)).1 h
    have h4 := (hspan (s := s) (b := s.length - ρ.pos) (e := σ.pos)
      (f := { blk := false, ml := σ.multiline, ci := σ.caseless }) (by omega) hp).1
      (by rw [show s.length - (s.length - ρ.pos) = ρ.pos by omega]; exact h)
    have h5 := (backward_span hseq (σ := { σ with pos := s.length - ρ.pos }) (e := σ.pos) (by simp)).2 h4
    simp only [Re.Match, MatchAll_unpack] at h5
    exact h5
  have key2 : (∃ p π, p ≤ σ.pos ∧ r.Match E s { σ with pos := p } π ∧ π.pos = σ.pos) →
      MatchAll E l'.reverse s.reverse { σ with pos := s.length - σ.pos } = 
        MatchAll E l'.reverse s.reverse { σ with pos := s.length - σ.pos } ∧
      ∃ ρ, MatchAll E l'.reverse s.reverse { σ with pos := s.length - σ.pos } ρ := by
    rintro ⟨p, π, h1, h2, h3⟩
    refine ⟨rfl, ?_⟩
    obtain ⟨e1, e2, e3⟩ := backward_match hr h2 (by show p ≤ s.length; omega)
    rw [e1, h3] at h2
    have h2 : (Re.seq (unpack r)).Match E s { σ with pos := p } { σ with pos := σ.pos } := by
      simp only [Re.Match, MatchAll_unpack]; exact h2
    have h4 := (backward_span hseq (σ := { σ with pos := p }) (e := σ.pos) (by show p ≤ s.length; omega)).1 h2
    have h5 := (hspan (s := s) (b := p) (e := σ.pos) (f := { blk := false, ml := σ.multiline, ci := σ.caseless }) h1 hp).2 h4
    have h6 := (backward_span hb' (σ := { σ with pos := s.length - σ.pos }) (s := s.reverse) (e := s.length - p) (by simp)).2 h5
    exact ⟨_, by simpa only [Re.Match] using h6⟩
  rw [hR]
  cases pos
  · simp only [Re.Match, Bool.false_eq_true, iff_false]
    constructor
    · rintro ⟨h1, h2⟩; exact ⟨fun h => h1 (key2 h).2, h2⟩
    · rintro ⟨h1, h2⟩; exact ⟨fun ⟨ρ, h⟩ => h1 (key ρ h).2, h2⟩
  · simp only [Re.Match, iff_true]
    constructor
    · rintro ⟨ρ, h1, h2⟩
      obtain ⟨h3, h4⟩ := key ρ h1
      refine ⟨h4, ?_⟩
      rw [h2, congrArg MState.cap h3]
    · rintro ⟨h1, rfl⟩
      obtain ⟨_, ρ, h⟩ := key2 h1
      exact ⟨ρ, h, by rw [congrArg MState.cap (key ρ h).1]⟩

/-! ### Lookbehind contents -/

theorem backward_makeSequence {b a : Re} (hb : b.backward = true) (ha : a.backward = true) : (makeSequence b a).backward = true := by
  unfold makeSequence
  split
  · rfl
  · rfl
  · simpa [Re.backward, backwardAll] using hb
  · simpa [Re.backward, backwardAll] using hb
  · simp [Re.backward] at hb
  · simp [Re.backward, backwardAll] at hb
  · simp only [Re.backward, Bool.and_eq_true] at hb; simp [Re.backward, backwardAll, ha, hb.2]
  · simp [Re.backward, backwardAll, ha, hb]

theorem backward_makeAlternate {b a : Re} (hb : b.backward = true) (ha : a.backward = true) : (makeAlternate b a).backward = true := by
  unfold makeAlternate
  split
  · simp only [Re.backward] at hb; simp [Re.backward, backwardAll, ha, hb]
  · simp [Re.backward, backwardAll, ha, hb]

mutual
theorem backward_atom : ∀ (a : Atom), a.plainBehind = true → (atomTree a).backward = true ∧ Rot (atomTree a)
  | .ch _, _ | .cls _, _ | .set _ _, _ | .dot, _ | .wordBoundary, _ => by simp [atomTree, Re.backward, Rot, Re.rotate]
  | .group b, h => by
    simp only [Atom.plainBehind] at h
    simp only [atomTree]; exact backward_body b h
  | .bol, h | .eol, h | .subjectBegin, h | .subjectEnd, h | .subjectEndLine, h | .notWordBoundary, h | .ref _, h
  | .refNumber _, h | .refRelative _ _, h | .refName _, h | .cap _ _, h | .named _ _ _, h | .ahead _ _, h | .behind _ _, h
  | .atomic _, h | .mode _, h | .unknown _ _, h => by simp [Atom.plainBehind] at h

theorem backward_cat : ∀ (c : Cat), c.plainBehind = true → (catTree c).backward = true ∧ Rot (catTree c)
  | .one a q, h => by
    cases q <;> simp [Cat.plainBehind] at h
    simp only [catTree, quantTree]; exact backward_atom a h
  | .cons a q l, h => by
    cases q <;> simp [Cat.plainBehind] at h
    simp only [catTree, quantTree]
    have h1 := backward_atom a h.1
    have h2 := backward_cat l h.2
    exact ⟨backward_makeSequence h2.1 h1.1, rot_makeSequence h2.2 h1.2⟩

theorem backward_alt : ∀ (l : Alt), l.plainBehind = true → (altTree l).backward = true ∧ Rot (altTree l)
  | .empty, _ => by simp [altTree, Re.backward, Rot, Re.rotate]
  | .one c, h => by simp only [Alt.plainBehind] at h; simp only [altTree]; exact backward_cat c h
  | .bar c l, h => by
    simp only [Alt.plainBehind, Bool.and_eq_true] at h
    simp only [altTree]
    have h1 := backward_cat c h.1
    have h2 := backward_alt l h.2
    exact ⟨backward_makeAlternate h2.1 h1.1, rot_makeAlternate h2.2 h1.2⟩

theorem backward_body : ∀ (b : Body), b.plainBehind = true → (bodyTree b).backward = true ∧ Rot (bodyTree b)
  | .alt l, h => by simp only [Body.plainBehind] at h; simp only [bodyTree]; exact backward_alt l h
  | .lead l, h => by
    simp only [Body.plainBehind] at h
    simp only [bodyTree]
    have h2 := backward_alt l h
    exact ⟨backward_makeAlternate h2.1 rfl, rot_makeAlternate h2.2 (by simp [Rot, Re.rotate])⟩
end

/-! ### Characters and sets -/

theorem charTree_eq {c : Char1} (h : c.Faithful) : charTree c = c.code := by
  cases c <;> simp only [charTree, Char1.code, Char1.Faithful] at h ⊢
  · rw [if_neg h]
  · exact Nat.mod_eq_of_lt (by simp only [szMod]; omega)
  · exact Nat.mod_eq_of_lt (by simp only [szMod]; omega)

theorem matchAny_iff {U : Uni} {ci : Bool} {v : Ch} {l : List CC} :
    CC.matchAny U ci v l = true ↔ ∃ c ∈ l, CC.matchChar U ci v c = true := by
  induction l with
  | nil => simp [CC.matchAny]
  | cons c l ih => simp [CC.matchAny, ih]

theorem push_iff {U : Uni} {ci : Bool} {v : Ch} {x : CC} {l : List CC} :
    CC.matchAny U ci v (pushBackIntoSet x l) = true ↔ CC.matchAny U ci v l = true ∨ x.matchChar U ci v = true := by
  unfold pushBackIntoSet
  split
  · rename_i h
    refine ⟨.inl, fun h' => h'.elim id fun h' => ?_⟩
    obtain ⟨y, hy, hxy⟩ := List.any_eq_true.1 h
    rw [matchAny_iff]
    exact ⟨y, hy, by rw [← CC.same_eq hxy]; exact h'⟩
  · simp [matchAny_iff, or_and_right, exists_or]

theorem clsTree_match {U : Uni} {ci : Bool} {v : Ch} {c : Cls} : (clsTree c).matchChar U ci v = true ↔ c.has U ci v := by
  cases c with
  | letter l => simp only [clsTree, Cls.has]; split <;> simp [CC.matchChar, CC.matchAny]
  | prop neg p name value => simp only [clsTree, Cls.has]; split <;> simp [CC.matchChar, CC.matchAny]

theorem itemTree_match {U : Uni} {ci : Bool} {v : Ch} {i : SetItem} (h : i.Faithful) :
    (itemTree i).matchChar U ci v = true ↔ i.has U ci v := by
  cases i with
  | one c => simp only [itemTree, SetItem.has, SetItem.Faithful] at h ⊢; rw [charTree_eq h]
  | range a b => simp only [itemTree, SetItem.has, SetItem.Faithful] at h ⊢; rw [charTree_eq h.1, charTree_eq h.2]
  | cls c => exact clsTree_match
  | posix neg n => simp only [itemTree, SetItem.has]; split <;> simp [CC.matchChar, CC.matchAny]

theorem items_foldl {U : Uni} {ci : Bool} {v : Ch} : ∀ (l : List SetItem) (acc : List CC), (∀ i ∈ l, i.Faithful) →
    (CC.matchAny U ci v (l.foldl (fun acc j => pushBackIntoSet (itemTree j) acc) acc) = true ↔
      CC.matchAny U ci v acc = true ∨ ∃ i ∈ l, i.has U ci v)
  | [], acc, _ => by simp
  | i :: l, acc, h => by
    simp only [List.foldl_cons]
    rw [items_foldl l _ (fun j hj => h j (List.mem_cons_of_mem _ hj)), push_iff, itemTree_match (h i (by simp))]
    simp only [List.mem_cons, exists_eq_or_imp, or_assoc]

theorem itemsTree_match {U : Uni} {ci : Bool} {v : Ch} {l : List SetItem} (h : ∀ i ∈ l, i.Faithful) :
    CC.matchAny U ci v (itemsTree l) = true ↔ ∃ i ∈ l, i.has U ci v := by
  cases l with
  | nil => simp [itemsTree, CC.matchAny]
  | cons i l =>
    simp only [itemsTree]
    rw [items_foldl l _ (fun j hj => h j (List.mem_cons_of_mem _ hj))]
    simp [CC.matchAny, itemTree_match (h i (by simp))]

theorem setTree_match {U : Uni} {ci : Bool} {v : Ch} {neg : Bool} {l : List SetItem} (h : ∀ i ∈ l, i.Faithful) :
    (setTree neg l).matchChar U ci v = true ↔ ((∃ i ∈ l, i.has U ci v) ↔ neg = false) := by
  rw [← itemsTree_match h]
  unfold setTree
  split <;> rename_i hn <;> simp [CC.matchChar, hn]

/-! ### Quantifiers -/

theorem rep_modes {k : RepKind} {a b : Nat} {l : List Re} {s : List Ch} {σ τ : MState} (h : (Re.rep k a b l).Match E s σ τ) :
    withModes σ τ = τ := by
  simp only [Re.Match] at h
  obtain ⟨n, _, _, h⟩ := h
  have := Iterate.keep (I := fun ρ => ρ.multiline = σ.multiline ∧ ρ.caseless = σ.caseless)
    (fun x y hx ⟨ρ, _, h2⟩ => by rw [h2]; exact hx) ⟨rfl, rfl⟩ h
  simp only [withModes, ← this.1, ← this.2]

theorem kind_match {k j : RepKind} {a b : Nat} {l : List Re} {s : List Ch} {σ τ : MState} :
    (kindTree k (.rep j a b l)).Match E s σ τ ↔ (Re.rep j a b l).Match E s σ τ := by
  cases k <;> cases j <;> simp only [kindTree, Re.Match]

/-- One iteration. -/
def Step (E : Env) (s : List Ch) (r : Re) (σ τ : MState) : Prop := ∃ ρ, r.Match E s σ ρ ∧ τ = withModes σ ρ

theorem rep_step {k : RepKind} {a b : Nat} {r : Re} {s : List Ch} {σ τ : MState} :
    (Re.rep k a b (unpack r)).Match E s σ τ ↔ ∃ n, a ≤ n ∧ (b = 0 ∨ n ≤ b) ∧ Iterate (Step E s r) n σ τ := by
  simp only [Re.Match, MatchAll_unpack]
  exact Iff.rfl

theorem optional_nested {k : RepKind} {x : Re} {s : List Ch} {σ τ : MState} :
    (Re.rep k 0 1 [x]).Match E s σ τ ↔ ∃ n, n ≤ 1 ∧ Iterate (Step E s (.rep k 0 1 [x])) n σ τ := by
  constructor
  · intro h
    exact ⟨1, Nat.le_refl _, Iterate.one.2 ⟨τ, h, (rep_modes h).symm⟩⟩
  · rintro ⟨n, h1, h2⟩
    rcases Nat.le_one_iff_eq_zero_or_eq_one.1 h1 with rfl | rfl
    · cases h2
      simp only [Re.Match]
      exact ⟨0, Nat.le_refl _, .inr (by omega), .zero _⟩
    · obtain ⟨ρ, h3, h4⟩ := Iterate.one.1 h2
      rw [h4, rep_modes h3]; exact h3

theorem optional_match {k : RepKind} {r : Re} {s : List Ch} {σ τ : MState} :
    (kindTree k (makeOptional r)).Match E s σ τ ↔ ∃ n, n ≤ 1 ∧ Iterate (Step E s r) n σ τ := by
  have main : ∀ r, (Re.rep .greedy 0 1 (unpack r)).Match E s σ τ ↔ ∃ n, n ≤ 1 ∧ Iterate (Step E s r) n σ τ := by
    intro r; rw [rep_step]; simp
  unfold makeOptional
  split
  · rename_i l; rw [kind_match]; exact main (.seq l)
  · rw [kind_match]; exact optional_nested
  · rw [kind_match]; exact optional_nested
  · rename_i h1 h2 h3
    rw [kind_match]
    have : unpack r = [r] := by
      unfold unpack; split
      · exact (h1 _ rfl).elim
      · rfl
    rw [← this]; exact main r

theorem quant_match {q : Quant} (hq : q ≠ .none) (h : q.Faithful) {r : Re} {s : List Ch} {σ τ : MState} :
    (quantTree q r).Match E s σ τ ↔ ∃ n, q.admits n ∧ Iterate (Step E s r) n σ τ := by
  cases q <;> simp only [quantTree, Quant.admits, Quant.Faithful] at h ⊢
  · exact (hq rfl).elim
  · exact optional_match
  · rw [kind_match, rep_step]; simp
  · rw [kind_match, rep_step]; simp
  · rw [rep_step, Nat.mod_eq_of_lt (by simp only [szMod]; omega)]
    refine exists_congr fun n => ?_
    rw [← and_assoc]
    refine and_congr_left fun _ => ?_
    omega
  · rw [kind_match, rep_step, Nat.mod_eq_of_lt (by simp only [szMod]; omega)]; simp
  · rw [kind_match, rep_step, Nat.mod_eq_of_lt (by simp only [szMod]; omega), Nat.mod_eq_of_lt (by simp only [szMod]; omega)]
    refine exists_congr fun n => ?_
    rw [← and_assoc]
    refine and_congr_left fun _ => ?_
    omega

/-! ### Leading repetitions -/

theorem LeadOK.mono {n m : Nat} {r : Re} (h : LeadOK n r) (hm : n ≤ m) : LeadOK m r := fun k a b hk => (h k a b hk).mono hm

theorem lead_none {r : Re} (h : leadRep r = none) {n : Nat} : LeadOK n r ∧ ¬ leadPoss r ∧ ¬ isPoss r := by
  refine ⟨fun k a b hk => by rw [h] at hk; simp at hk, fun ⟨a, b, hk⟩ => by rw [h] at hk; simp at hk, ?_⟩
  rintro ⟨a, b, l, rfl⟩
  simp [leadRep] at h

theorem combine_lead {k : RepKind} (hk : k ≠ .poss) {a b c d n m : Nat} (h1 : BoundOK n a b) (h2 : BoundOK m c d)
    (hnm : n + m < szMod) (l : List Re) : ∃ x y, combineRepeat k a b c d l = .rep k x y l ∧ BoundOK (n + m) x y := by
  obtain ⟨h1, h3, h4⟩ := h1
  obtain ⟨h2, h5, h6⟩ := h2
  have e1 : (a + c) % szMod = a + c := Nat.mod_eq_of_lt (by omega)
  have e2 : combineMax b d = if b ≠ 0 ∧ d ≠ 0 then b + d else 0 := by
    unfold combineMax
    rw [Nat.mod_eq_of_lt (by omega)]
  have h7 : BoundOK (n + m) (a + c) (if b ≠ 0 ∧ d ≠ 0 then b + d else 0) := by
    refine ⟨?_, by omega, ?_⟩
    · split
      · right; omega
      · left; rfl
    · split <;> omega
  cases k with
  | poss => exact (hk rfl).elim
  | greedy => exact ⟨_, _, by simp only [combineRepeat, e1, e2], h7⟩
  | lazy => exact ⟨_, _, by simp only [combineRepeat, e1, e2], h7⟩

theorem lead_seq {n : Nat} {a : Re} {l : List Re} (ha : LeadOK n a) :
    LeadOK n (.seq (a :: l)) ∧ (leadPoss (.seq (a :: l)) → isPoss a) ∧ ¬ isPoss (.seq (a :: l)) := by
  cases a with
  | rep k x y m =>
    refine ⟨fun k' a b hk => ha k' a b (by simpa [leadRep] using hk), ?_, ?_⟩
    · rintro ⟨a, b, hk⟩
      simp only [leadRep, Option.some.injEq, Prod.mk.injEq] at hk
      obtain ⟨rfl, rfl, rfl⟩ := hk
      exact ⟨_, _, _, rfl⟩
    · rintro ⟨_, _, _, h⟩; simp at h
  | _ =>
    refine ⟨(lead_none (by simp [leadRep])).1, fun h => ((lead_none (n := 0) (by simp [leadRep])).2.1 h).elim, ?_⟩
    rintro ⟨_, _, _, h⟩; simp at h

theorem lead_makeSequence {b a : Re} {n m : Nat} (ha : LeadOK n a) (hb : LeadOK m b) (hnm : n + m < szMod)
    (hp : ¬ (isPoss a ∧ leadPoss b)) :
    LeadOK (n + m) (makeSequence b a) ∧ (leadPoss (makeSequence b a) → isPoss a) ∧ ¬ isPoss (makeSequence b a) := by
  have hk : ∀ {k x y x' y' l l' t}, b = .rep k x y l ∨ b = .seq (.rep k x y l :: t) → a = .rep k x' y' l' → k ≠ .poss := by
    rintro k x y x' y' l l' t h1 h2 rfl
    exact hp ⟨⟨_, _, _, h2⟩, by rcases h1 with rfl | rfl <;> exact ⟨_, _, rfl⟩⟩
  unfold makeSequence
  split
  · rename_i y x
    have := lead_none (r := .str [x, y]) (n := n + m) rfl
    exact ⟨this.1, fun h => (this.2.1 h).elim, this.2.2⟩
  · rename_i y x
    have := lead_none (r := .str (x :: y)) (n := n + m) rfl
    exact ⟨this.1, fun h => (this.2.1 h).elim, this.2.2⟩
  · rename_i y l x
    have := lead_none (r := .seq (.str [x, y] :: l)) (n := n + m) rfl
    exact ⟨this.1, fun h => (this.2.1 h).elim, this.2.2⟩
  · rename_i y l x
    have := lead_none (r := .seq (.str (x :: y) :: l)) (n := n + m) rfl
    exact ⟨this.1, fun h => (this.2.1 h).elim, this.2.2⟩
  · rename_i k minB maxB l k' minA maxA l'
    split
    · rename_i h
      obtain ⟨rfl, _⟩ := h
      have hk := hk (t := []) (.inl rfl) rfl
      obtain ⟨x, y, h1, h2⟩ := combine_lead hk (ha _ _ _ rfl) (hb _ _ _ rfl) hnm l
      rw [h1]
      refine ⟨?_, ?_, ?_⟩
      · intro k a b h
        simp only [leadRep, Option.some.injEq, Prod.mk.injEq] at h
        obtain ⟨rfl, rfl, rfl⟩ := h
        exact h2
      · rintro ⟨a, b, h⟩
        simp only [leadRep, Option.some.injEq, Prod.mk.injEq] at h
        exact (hk h.1).elim
      · rintro ⟨a, b, t, h⟩
        simp only [Re.rep.injEq] at h
        exact hk h.1
    · have := lead_seq (l := [.rep k minB maxB l]) ha
      exact ⟨this.1.mono (by omega), this.2⟩
  · rename_i k minB maxB l t k' minA maxA l'
    split
    · rename_i h
      obtain ⟨rfl, _⟩ := h
      have hk := hk (t := t) (.inr rfl) rfl
      obtain ⟨x, y, h1, h2⟩ := combine_lead hk (hb _ _ _ rfl) (ha _ _ _ rfl) (by omega) l
      rw [h1]
      refine ⟨?_, ?_, ?_⟩
      · intro k a b h
        simp only [leadRep, Option.some.injEq, Prod.mk.injEq] at h
        obtain ⟨rfl, rfl, rfl⟩ := h
        rw [Nat.add_comm]
        exact h2
      · rintro ⟨a, b, h⟩
        simp only [leadRep, Option.some.injEq, Prod.mk.injEq] at h
        exact (hk h.1).elim
      · rintro ⟨a, b, t, h⟩
        simp at h
    · have := lead_seq (l := .rep k minB maxB l :: t) ha
      exact ⟨this.1.mono (by omega), this.2⟩
  · have := lead_seq (l := by assumption) ha
    exact ⟨this.1.mono (by omega), this.2⟩
  · have := lead_seq (l := [b]) ha
    exact ⟨this.1.mono (by omega), this.2⟩

theorem quant_lead {q : Quant} {r : Re} (hq : q ≠ .none) (h : q.Faithful) {n : Nat} :
    LeadOK (n + q.size) (quantTree q r) ∧ (leadPoss (quantTree q r) → q.kind = .poss) := by
  have main : ∀ (k : RepKind) {a b : Nat} {l : List Re}, BoundOK (n + q.size) a b →
      LeadOK (n + q.size) (kindTree k (.rep .greedy a b l)) ∧ (leadPoss (kindTree k (.rep .greedy a b l)) → k = .poss) := by
    intro k a b l hb
    cases k <;> simp only [kindTree]
    all_goals
      refine ⟨?_, ?_⟩
      · intro k a b h
        simp only [leadRep, Option.some.injEq, Prod.mk.injEq] at h
        obtain ⟨rfl, rfl, rfl⟩ := h
        exact hb
      · rintro ⟨a, b, h⟩
        simp [leadRep] at h
        try trivial
  have hm : ∀ x, x < 2 ^ 64 → x % szMod = x := fun x hx => Nat.mod_eq_of_lt (by simp only [szMod]; omega)
  cases q with
  | none => exact (hq rfl).elim
  | opt k =>
    simp only [quantTree, Quant.kind]
    unfold makeOptional
    split
    · exact main k ⟨by omega, by simp only [Quant.size]; omega, by simp only [Quant.size]; omega⟩
    · exact main k ⟨by omega, by simp only [Quant.size]; omega, by simp only [Quant.size]; omega⟩
    · cases k <;> simp only [kindTree]
      all_goals
        refine ⟨?_, ?_⟩
        · intro k a b h
          simp only [leadRep, Option.some.injEq, Prod.mk.injEq] at h
          obtain ⟨rfl, rfl, rfl⟩ := h
          exact ⟨by omega, by simp only [Quant.size]; omega, by simp only [Quant.size]; omega⟩
        · rintro ⟨a, b, h⟩
          simp [leadRep] at h
    · exact main k ⟨by omega, by simp only [Quant.size]; omega, by simp only [Quant.size]; omega⟩
  | star k => exact main k ⟨by omega, by simp only [Quant.size]; omega, by simp only [Quant.size]; omega⟩
  | plus k => exact main k ⟨by omega, by simp only [Quant.size]; omega, by simp only [Quant.size]; omega⟩
  | exactly ds =>
    simp only [Quant.Faithful] at h
    have := main .greedy (a := decimal ds) (b := decimal ds) (l := unpack r)
      ⟨by omega, by simp only [Quant.size]; omega, by simp only [Quant.size]; omega⟩
    simp only [quantTree, Quant.kind, hm _ h.2]
    exact this
  | atLeast ds k =>
    simp only [Quant.Faithful] at h
    simp only [quantTree, Quant.kind, hm _ h]
    exact main k ⟨by omega, by simp only [Quant.size]; omega, by simp only [Quant.size]; omega⟩
  | between ds es k =>
    simp only [Quant.Faithful] at h
    simp only [quantTree, Quant.kind, hm _ h.2.2, hm _ (Nat.lt_of_le_of_lt h.1 h.2.2)]
    exact main k ⟨by omega, by simp only [Quant.size]; omega, by simp only [Quant.size]; omega⟩

theorem isPoss.lead {r : Re} (h : isPoss r) : leadPoss r := by
  obtain ⟨a, b, l, rfl⟩ := h; exact ⟨a, b, rfl⟩

/-- What is known about the beginning of a tree. -/
def Lead (n : Nat) (lp p : Bool) (r : Re) : Prop := LeadOK n r ∧ (leadPoss r → lp = true) ∧ (isPoss r → p = true)

theorem Lead.none {n : Nat} {lp p : Bool} {r : Re} (h : leadRep r = none) : Lead n lp p r :=
  have := lead_none h (n := n)
  ⟨this.1, fun h => (this.2.1 h).elim, fun h => (this.2.2 h).elim⟩

theorem leadRep_alternate {b a : Re} : leadRep (makeAlternate b a) = Option.none := by
  unfold makeAlternate; split <;> rfl

theorem lead_item {a : Atom} {q : Quant} (ha : Lead a.size a.leadsPossessive a.possessive (atomTree a)) (hq : q.Faithful) :
    LeadOK (a.size + q.size) (quantTree q (atomTree a)) ∧
    (isPoss (quantTree q (atomTree a)) → possessiveItem a q = true) ∧
    (leadPoss (quantTree q (atomTree a)) → (Cat.one a q).leadsPossessive = true) := by
  by_cases h : q = .none
  · subst h
    exact ⟨ha.1.mono (by omega), ha.2.2, by simpa only [Cat.leadsPossessive, quantTree] using ha.2.1⟩
  · have := quant_lead (r := atomTree a) h hq (n := a.size)
    refine ⟨this.1, fun hp => ?_, fun hp => ?_⟩
    · have hk := this.2 hp.lead
      cases q <;> simp_all [possessiveItem]
    · have hk := this.2 hp
      cases q <;> simp_all [Cat.leadsPossessive]

mutual
theorem lead_atom : ∀ (a : Atom), a.Faithful → a.size < szMod → Lead a.size a.leadsPossessive a.possessive (atomTree a)
  | .group b, h, hs => by
    simp only [Atom.Faithful, Atom.size] at h hs
    simp only [Atom.size, Atom.leadsPossessive, Atom.possessive, atomTree]; exact lead_body b h hs
  | .ch _, _, _ | .cls _, _, _ | .set _ _, _, _ | .dot, _, _ | .bol, _, _ | .eol, _, _ | .subjectBegin, _, _
  | .subjectEnd, _, _ | .subjectEndLine, _, _ | .unknown _ _, _, _ | .wordBoundary, _, _ | .notWordBoundary, _, _ | .ref _, _, _
  | .refNumber _, _, _ | .refRelative _ _, _, _ | .refName _, _, _ | .cap _ _, _, _ | .named _ _ _, _, _
  | .ahead _ _, _, _ | .behind _ _, _, _ | .atomic _, _, _ | .mode _, _, _ => .none rfl

theorem lead_cat : ∀ (c : Cat), c.Faithful → c.size < szMod → Lead c.size c.leadsPossessive c.possessive (catTree c)
  | .one a q, h, hs => by
    simp only [Cat.Faithful, Cat.size] at h hs
    have := lead_item (lead_atom a h.1 (by omega)) h.2
    simp only [catTree, Cat.size]
    refine ⟨this.1, this.2.2, fun hp => ?_⟩
    have := this.2.1 hp
    cases q <;> simp_all [possessiveItem, Cat.possessive]
  | .cons a q l, h, hs => by
    simp only [Cat.Faithful, Cat.size] at h hs
    have h1 := lead_item (lead_atom a h.1 (by omega)) h.2.1
    have h2 := lead_cat l h.2.2.1 (by omega)
    have h3 := lead_makeSequence h1.1 h2.1 hs (fun hp => h.2.2.2 ⟨h1.2.1 hp.1, h2.2.1 hp.2⟩)
    simp only [catTree, Cat.size]
    refine ⟨h3.1, fun hp => ?_, fun hp => (h3.2.2 hp).elim⟩
    have := h1.2.2 (h3.2.1 hp).lead
    cases q <;> simp_all [Cat.leadsPossessive]

theorem lead_alt : ∀ (l : Alt), l.Faithful → l.size < szMod → Lead l.size l.leadsPossessive l.possessive (altTree l)
  | .empty, _, _ => .none rfl
  | .one c, h, hs => by
    simp only [Alt.Faithful, Alt.size] at h hs
    simp only [Alt.size, Alt.leadsPossessive, Alt.possessive, altTree]; exact lead_cat c h hs
  | .bar c l, _, _ => .none (by simp only [altTree, leadRep_alternate])

theorem lead_body : ∀ (b : Body), b.Faithful → b.size < szMod → Lead b.size b.leadsPossessive b.possessive (bodyTree b)
  | .alt l, h, hs => by
    simp only [Body.Faithful, Body.size] at h hs
    simp only [Body.size, Body.leadsPossessive, Body.possessive, bodyTree]; exact lead_alt l h hs
  | .lead l, _, _ => .none (by simp only [bodyTree, leadRep_alternate])
end

/-! ### The meaning -/

theorem cls_sem {c : CC} {p : Ch → Prop} {s : List Ch} {σ τ : MState} (h : ∀ v, c.matchChar E.uni σ.caseless v = true ↔ p v) :
    (Re.cc c).Match E s σ τ ↔ ∃ v, s[σ.pos]? = some v ∧ p v ∧ τ = { σ with pos := σ.pos + 1 } := by
  simp only [Re.Match, inClass, ← h]
  constructor
  · rintro ⟨⟨v, h1, h2⟩, h3⟩; exact ⟨v, h1, h2, h3⟩
  · rintro ⟨v, h1, h2, h3⟩; exact ⟨⟨v, h1, h2⟩, h3⟩

theorem Cat.one_match {a : Atom} {q : Quant} (hq : q ≠ .none) {s : List Ch} {σ τ : MState} :
    (Cat.one a q).Match E s σ τ ↔
      ∃ k, q.admits k ∧ Iterate (fun σ τ => ∃ ρ, a.Match E s σ ρ ∧ τ = withModes σ ρ) k σ τ := by
  cases q <;> first | exact (hq rfl).elim | simp only [Cat.Match]

theorem Cat.cons_match {a : Atom} {q : Quant} {l : Cat} {s : List Ch} {σ τ : MState} :
    (Cat.cons a q l).Match E s σ τ ↔ ∃ ρ, (Cat.one a q).Match E s σ ρ ∧ l.Match E s ρ τ := by
  cases q <;> simp only [Cat.Match]

theorem item_sem {a : Atom} {q : Quant} (hq : q.Faithful) {s : List Ch}
    (ha : ∀ σ τ : MState, σ.pos ≤ s.length → ((atomTree a).Match E s σ τ ↔ a.Match E s σ τ)) {σ τ : MState} (hp : σ.pos ≤ s.length) :
    (quantTree q (atomTree a)).Match E s σ τ ↔ (Cat.one a q).Match E s σ τ := by
  by_cases h : q = .none
  · subst h; simp only [quantTree, Cat.Match]; exact ha σ τ hp
  · rw [quant_match h hq, Cat.one_match h]
    refine exists_congr fun k => and_congr_right fun _ => ?_
    refine Iterate.congr (I := fun σ => σ.pos ≤ s.length) ?_ ?_ hp
    · intro x y hx
      exact exists_congr fun ρ => and_congr_left fun _ => ha x ρ hx
    · rintro x y hx ⟨ρ, h1, rfl⟩
      have := Re.match_le h1 hx
      exact this

mutual
theorem atom_sem {s : List Ch} : ∀ (a : Atom) {σ τ : MState}, a.Faithful → a.size < szMod → σ.pos ≤ s.length →
    ((atomTree a).Match E s σ τ ↔ a.Match E s σ τ)
  | .ch c, σ, τ, h, _, _ => by
    simp only [Atom.Faithful] at h
    simp only [atomTree, Atom.Match, Re.Match, charTree_eq h]
  | .cls c, σ, τ, _, _, _ => by simp only [atomTree, Atom.Match]; exact cls_sem fun v => clsTree_match
  | .set neg l, σ, τ, h, _, _ => by
    simp only [Atom.Faithful] at h
    simp only [atomTree, Atom.Match]; exact cls_sem fun v => setTree_match h
  | .dot, _, _, _, _, _ => by simp only [atomTree, Atom.Match, Re.Match]
  | .unknown _ _, _, _, _, _, _ => by simp only [atomTree, Atom.Match, Re.Match]
  | .bol, _, _, _, _, _ => by simp only [atomTree, Atom.Match, Re.Match, Holds]
  | .eol, _, _, _, _, _ => by simp only [atomTree, Atom.Match, Re.Match, Holds]
  | .subjectBegin, _, _, _, _, _ => by simp only [atomTree, Atom.Match, Re.Match, Holds]
  | .subjectEnd, _, _, _, _, _ => by simp only [atomTree, Atom.Match, Re.Match, Holds]
  | .subjectEndLine, _, _, _, _, _ => by simp only [atomTree, Atom.Match, Re.Match, Holds]
  | .wordBoundary, _, _, _, _, _ => by simp only [atomTree, Atom.Match, Re.Match, Holds]
  | .notWordBoundary, _, _, h, _, _ => by simp only [Atom.Faithful] at h
  | .ref d, _, _, _, _, _ => by simp only [atomTree, Atom.Match, Re.Match]
  | .refNumber ds, _, _, h, _, _ => by
    simp only [Atom.Faithful] at h
    simp only [atomTree, Atom.Match, Re.Match, Nat.mod_eq_of_lt (show decimal ds < szMod by simp only [szMod]; omega)]
  | .refRelative ds id, _, _, _, _, _ => by simp only [atomTree, Atom.Match, Re.Match]
  | .refName n, _, _, _, _, _ => by simp only [atomTree, Atom.Match, Re.Match]
  | .cap id b, σ, τ, h, hs, hp => by
    simp only [Atom.Faithful, Atom.size] at h hs
    simp only [atomTree, Atom.Match, Re.Match, MatchAll_unpack]
    exact exists_congr fun ρ => and_congr_left fun _ => body_sem b h hs hp
  | .named id n b, σ, τ, h, hs, hp => by
    simp only [Atom.Faithful, Atom.size] at h hs
    simp only [atomTree, Atom.Match, Re.Match, MatchAll_unpack]
    exact exists_congr fun ρ => and_congr_left fun _ => body_sem b h hs hp
  | .group b, σ, τ, h, hs, hp => by
    simp only [Atom.Faithful, Atom.size] at h hs
    simp only [atomTree, Atom.Match]
    exact body_sem b h hs hp
  | .ahead true b, σ, τ, h, hs, hp => by
    simp only [Atom.Faithful, Atom.size] at h hs
    simp only [atomTree, Atom.Match, Re.Match, MatchAll_unpack]
    exact exists_congr fun ρ => and_congr_left fun _ => body_sem b h hs hp
  | .ahead false b, σ, τ, h, hs, hp => by
    simp only [Atom.Faithful, Atom.size] at h hs
    simp only [atomTree, Atom.Match, Re.Match, MatchAll_unpack]
    exact and_congr_left fun _ => not_congr (exists_congr fun ρ => body_sem b h hs hp)
  | .behind pos b, σ, τ, h, hs, hp => by
    simp only [Atom.Faithful, Atom.size] at h hs
    obtain ⟨h1, h2⟩ := backward_body b h.2
    simp only [atomTree, Atom.Match]
    rw [behind_match h1 h2 hp]
    refine and_congr_left fun _ => iff_congr ?_ Iff.rfl
    refine exists_congr fun p => exists_congr fun ρ => and_congr_right fun hpp => and_congr_left fun _ => ?_
    exact body_sem b h.1 hs (by show p ≤ s.length; omega)
  | .atomic b, σ, τ, h, hs, hp => by
    simp only [Atom.Faithful, Atom.size] at h hs
    simp only [atomTree, Atom.Match, Re.Match, MatchAll_unpack]
    exact exists_congr fun ρ => and_congr (body_sem b h hs hp) Iff.rfl
  | .mode m, _, _, _, _, _ => by simp only [atomTree, Atom.Match, Re.Match]

theorem cat_sem {s : List Ch} : ∀ (c : Cat) {σ τ : MState}, c.Faithful → c.size < szMod → σ.pos ≤ s.length →
    ((catTree c).Match E s σ τ ↔ c.Match E s σ τ)
  | .one a q, σ, τ, h, hs, hp => by
    simp only [Cat.Faithful, Cat.size] at h hs
    simp only [catTree]
    exact item_sem h.2 (fun σ τ hp => atom_sem a h.1 (by omega) hp) hp
  | .cons a q l, σ, τ, h, hs, hp => by
    simp only [Cat.Faithful, Cat.size] at h hs
    have h1 := lead_item (lead_atom a h.1 (by omega)) h.2.1
    have h2 := lead_cat l h.2.2.1 (by omega)
    simp only [catTree]
    rw [makeSequence_match h1.1 h2.1 hs (fun hp => h.2.2.2 ⟨h1.2.1 hp.1, h2.2.1 hp.2⟩), Cat.cons_match]
    have hi : ∀ ρ, (quantTree q (atomTree a)).Match E s σ ρ ↔ (Cat.one a q).Match E s σ ρ :=
      fun ρ => item_sem h.2.1 (fun σ τ hp => atom_sem a h.1 (by omega) hp) hp
    refine exists_congr fun ρ => ?_
    rw [hi]
    refine and_congr_right fun h3 => ?_
    exact cat_sem l h.2.2.1 (by omega) (Re.match_le ((hi ρ).2 h3) hp)

theorem alt_sem {s : List Ch} : ∀ (l : Alt) {σ τ : MState}, l.Faithful → l.size < szMod → σ.pos ≤ s.length →
    ((altTree l).Match E s σ τ ↔ l.Match E s σ τ)
  | .empty, _, _, _, _, _ => by simp only [altTree, Alt.Match, Re.Match]
  | .one c, σ, τ, h, hs, hp => by
    simp only [Alt.Faithful, Alt.size] at h hs
    simp only [altTree, Alt.Match]; exact cat_sem c h hs hp
  | .bar c l, σ, τ, h, hs, hp => by
    simp only [Alt.Faithful, Alt.size] at h hs
    simp only [altTree, Alt.Match, makeAlternate_match]
    exact or_congr (cat_sem c h.1 (by omega) hp) (alt_sem l h.2 (by omega) hp)

theorem body_sem {s : List Ch} : ∀ (b : Body) {σ τ : MState}, b.Faithful → b.size < szMod → σ.pos ≤ s.length →
    ((bodyTree b).Match E s σ τ ↔ b.Match E s σ τ)
  | .alt l, σ, τ, h, hs, hp => by
    simp only [Body.Faithful, Body.size] at h hs
    simp only [bodyTree, Body.Match]; exact alt_sem l h hs hp
  | .lead l, σ, τ, h, hs, hp => by
    simp only [Body.Faithful, Body.size] at h hs
    simp only [bodyTree, Body.Match, makeAlternate_match]
    exact or_congr (by simp only [Re.Match]) (alt_sem l h hs hp)
end

end Parse
end Ctre
