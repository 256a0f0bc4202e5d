import Verif.Lemmas.WaysStack
import Verif.Lemmas.Refine
import Mathlib.Data.List.Forall2

/-
The ordered meaning on the state of the machine is the ordered meaning of the specification.
-/
namespace Ctre

/-- The two lists of ways correspond. -/
def LRel (E : Env) (s : List Ch) (G O : List Nat) (x : SSt) : List SSt → List MState → Prop :=
  List.Forall₂ fun y τ => Rel E s G O y τ ∧ Frame O x y

/-- Related states have corresponding ways. -/
def LSim (E : Env) (s : List Ch) (G O : List Nat) (A : SSt → List SSt) (B : MState → List MState) : Prop :=
  ∀ x σ, Rel E s G O x σ → LRel E s G O x (A x) (B σ)

section
variable {E : Env} {s : List Ch} {G O : List Nat}

theorem LRel.weaken {x y : SSt} {L : List SSt} {M : List MState} (h : LRel E s G O y L M) (hf : Frame O x y) : LRel E s G O x L M :=
  h.imp fun _ _ h => ⟨h.1, hf.trans h.2⟩

theorem LRel.append {x : SSt} {L L' : List SSt} {M M' : List MState} (h : LRel E s G O x L M) (h' : LRel E s G O x L' M') :
    LRel E s G O x (L ++ L') (M ++ M') := by
  induction h with
  | nil => exact h'
  | cons a _ ih => exact .cons a ih

theorem LRel.flatMap {x : SSt} {L : List SSt} {M : List MState} {A : SSt → List SSt} {B : MState → List MState}
    (h : LRel E s G O x L M) (h' : LSim E s G O A B) : LRel E s G O x (L.flatMap A) (M.flatMap B) := by
  induction h with
  | nil => exact .nil
  | cons a _ ih => exact LRel.append ((h' _ _ a.1).weaken a.2) ih

theorem LRel.take {x : SSt} {L : List SSt} {M : List MState} (h : LRel E s G O x L M) :
    LRel E s G O x (L.take 1) (M.take 1) := by
  cases h with
  | nil => exact .nil
  | cons a _ => exact .cons a .nil

theorem LRel.filter {x : SSt} {L : List SSt} {M : List MState} (h : LRel E s G O x L M) {p q : Nat} (hpq : p = q) :
    LRel E s G O x (L.filter fun z => decide (z.pos ≠ p)) (M.filter fun ρ => decide (ρ.pos ≠ q)) := by
  subst hpq
  induction h with
  | nil => exact .nil
  | @cons a b _ _ h1 _ ih =>
    have := h1.1.pos
    simp only [List.filter_cons, this]
    split
    · exact .cons h1 ih
    · exact ih

theorem LRel.one {x : SSt} {σ : MState} (h : Rel E s G O x σ) : LRel E s G O x [x] [σ] := .cons ⟨h, .rfl'⟩ .nil

variable {A : SSt → List SSt} {B : MState → List MState}

theorem LSim.times (h : LSim E s G O A B) (n : Nat) : LSim E s G O (times A n) (times B n) := by
  induction n with
  | zero => intro x σ hr; exact .one hr
  | succ n ih => intro x σ hr; exact (h x σ hr).flatMap ih

theorem LSim.most (h : LSim E s G O A B) (n : Nat) : LSim E s G O (most A n) (most B n) := by
  induction n with
  | zero => intro x σ hr; exact .one hr
  | succ n ih => intro x σ hr; exact ((h x σ hr).flatMap ih).append (.one hr)

theorem LSim.fewest (h : LSim E s G O A B) (n : Nat) : LSim E s G O (fewest A n) (fewest B n) := by
  induction n with
  | zero => intro x σ hr; exact .one hr
  | succ n ih => intro x σ hr; exact (LRel.one hr).append ((h x σ hr).flatMap ih)

theorem LSim.repeats (h : LSim E s G O A B) (k : RepKind) (a b room : Nat) :
    LSim E s G O (repeats A k a b room) (repeats B k a b room) := by
  intro x σ hr
  unfold Ctre.repeats
  simp only
  split
  · exact .nil
  · cases k with
    | lazy => exact (h.times a x σ hr).flatMap (h.fewest _)
    | greedy => exact (h.times a x σ hr).flatMap (h.most _)
    | poss => exact ((h.times a x σ hr).flatMap (h.most _)).take

theorem LSim.iteration (h : LSim E s G O A B) : LSim E s G O (siteration A) (iteration true B) := by
  intro x σ hr
  unfold siteration Ctre.iteration
  have := ((h x σ hr).filter hr.pos).take
  simp only [if_true]
  generalize ((A x).filter _).take 1 = L at *
  generalize ((B σ).filter _).take 1 = M at *
  induction this with
  | nil => exact .nil
  | cons a _ ih =>
    have h2 := a.1
    exact .cons ⟨⟨h2.pos, hr.ml, hr.ci, h2.le, h2.ids, h2.nodup, h2.nz, h2.num, h2.slots⟩, a.2⟩ ih

theorem Rel.moveTo {x : SSt} {σ : MState} (h : Rel E s G O x σ) {p q : Nat} (hpq : p = q) (hp : p ≤ s.length) :
    Rel E s G O { x with pos := p } { σ with pos := q } := by
  subst hpq
  exact ⟨rfl, h.ml, h.ci, hp, h.ids, h.nodup, h.nz, h.num, h.slots⟩

theorem LRel.move {x : SSt} {σ : MState} (h : Rel E s G O x σ) {p q : Nat} (hpq : p = q) (hp : p ≤ s.length) :
    LRel E s G O x [{ x with pos := p }] [{ σ with pos := q }] :=
  .cons ⟨h.moveTo hpq hp, .rfl'⟩ .nil

theorem LRel.to {x : SSt} {σ τ : MState} (h : Rel E s G O x σ) {p : Nat} (hp : p ≤ s.length) (h1 : τ.pos = p)
    (h2 : τ.multiline = x.ml) (h3 : τ.caseless = x.ci) (h4 : τ.cap = σ.cap) : LRel E s G O x [{ x with pos := p }] [τ] :=
  .cons ⟨⟨h1.symm, h2.symm, h3.symm, hp, h.ids, h.nodup, h.nz, h.num, by rw [h4]; exact h.slots⟩, .rfl'⟩ .nil

/-- Closing a group. -/
theorem Rel.closeCap {x z : SSt} {σ ρ : MState} {id : Nat} (hid0 : id ≠ 0) (hO : id ∉ O) (hr : Rel E s G O x σ)
    (hid : hasId id x.gs = true) (hz : Rel E s G (id :: O) z ρ)
    (hf : Frame (id :: O) { x with gs := modifyId id (fun sl => { sl with b := some x.pos }) x.gs } z) :
    Rel E s G O { z with gs := modifyId id (fun sl => { sl with e := some z.pos, matched := true }) z.gs }
        (ρ.setCap id σ.pos ρ.pos) ∧
      Frame O x { z with gs := modifyId id (fun sl => { sl with e := some z.pos, matched := true }) z.gs } := by
  refine ⟨⟨hz.pos, hz.ml, hz.ci, hz.le, ?_, hz.nodup, hz.nz, ?_, ?_⟩, ?_⟩
  · rw [groupIds_shape, shape_modifyId, ← groupIds_shape]; exact hz.ids
  · intro n; rw [hz.num, groupNumber_shape n (shape_modifyId _ _ _)]
  · intro id' hid'
    by_cases he : id' = id
    · subst he
      have h1 := hf id' (by simp)
      simp only [selectId_modifyId, if_true] at h1
      rw [← selectId_isSome] at hid
      obtain ⟨sl, hsl⟩ := Option.isSome_iff_exists.1 hid
      rw [hsl] at h1
      simp only [Option.map_some] at h1
      unfold refSlot
      rw [if_neg hid0, selectId_modifyId, if_pos rfl, h1]
      simp only [Option.map_some, SlotRel, MState.setCap, if_true]
      exact .inl ⟨trivial, _, _, rfl, rfl, by rw [hr.pos, hz.pos]⟩
    · have := hz.slots id' (by simp [he, hid'])
      unfold refSlot at this ⊢
      simpa [selectId_modifyId, he, MState.setCap] using this
  · intro id' hid'
    have he : id' ≠ id := by rintro rfl; exact hO hid'
    have := hf id' (by simp [hid'])
    simpa [selectId_modifyId, he] using this

theorem LSim.cap {id : Nat} (hid0 : id ≠ 0) (hO : id ∉ O) (hG : id ∈ G) (h : LSim E s G (id :: O) A B) :
    LSim E s G O
      (fun x => if hasId id x.gs = true then
        (A { x with gs := modifyId id (fun sl => { sl with b := some x.pos }) x.gs }).map fun z =>
          { z with gs := modifyId id (fun sl => { sl with e := some z.pos, matched := true }) z.gs } else [])
      (fun σ => (B σ).map fun ρ => ρ.setCap id σ.pos ρ.pos) := by
  intro x σ hr
  have hopen := hr.openCap (id := id) (fun sl => { sl with b := some x.pos })
  have hid : hasId id x.gs = true := by rw [hasId_iff, hr.ids]; exact hG
  have hl := h _ _ hopen
  simp only [hid, if_true]
  generalize A _ = L at *
  generalize B σ = M at *
  induction hl with
  | nil => exact .nil
  | cons a _ ih => exact .cons (Rel.closeCap hid0 hO hr hid a.1 a.2) ih

theorem LSim.again (sl : SSt → Option Slot) (v : MState → Option (Nat × Nat)) (hsl : ∀ x σ, Rel E s G O x σ → SlotRel (sl x) (v σ)) :
    LSim E s G O (fun x => brefWays x (brefCmp s x.pos (sl x))) (fun σ => match v σ with
      | none => []
      | some (b, e) => if b ≤ e ∧ σ.pos + (e - b) ≤ s.length ∧ text s b e = text s σ.pos (σ.pos + (e - b))
          then [{ σ with pos := σ.pos + (e - b) }] else []) := by
  intro x σ hr
  have key := fun p => brefCmp_iff (p := p) (hsl x σ hr) hr.le
  simp only
  have none_of : (∀ p, ¬ ∃ q, brefCmp s x.pos (sl x) = some (.yes p, q)) → brefWays x (brefCmp s x.pos (sl x)) = [] := by
    intro hn
    rcases hc : brefCmp s x.pos (sl x) with _ | ⟨_ | _ | p, q⟩
    · rfl
    · rfl
    · rfl
    · exact absurd ⟨q, hc⟩ (hn p)
  cases hv : v σ with
  | none =>
    rw [none_of (fun p h => by rw [key p, hv] at h; obtain ⟨b, e, h, _⟩ := h; cases h)]
    exact .nil
  | some be =>
    obtain ⟨b, e⟩ := be
    simp only
    split
    · rename_i hc
      obtain ⟨q, hq⟩ := (key (x.pos + (e - b))).2 ⟨b, e, hv, hc.1, by rw [hr.pos]; exact hc.2.1, by rw [hr.pos]; exact hc.2.2, rfl⟩
      rw [hq]
      exact LRel.move hr (by rw [hr.pos]) (by rw [hr.pos]; exact hc.2.1)
    · rename_i hc
      rw [none_of]
      · exact .nil
      · intro p h
        rw [key p, hv] at h
        obtain ⟨b', e', h1, h2, h3, h4, _⟩ := h
        cases h1
        rw [hr.pos] at h3 h4
        exact hc ⟨h2, h3, h4⟩

theorem LSim.look {s' : List Ch} (pos : Bool) (g : Nat → Nat) (hg : ∀ p, p ≤ s.length → g p ≤ s'.length) (h : LSim E s' G O A B) :
    LSim E s G O (fun x => match A { x with pos := g x.pos } with
        | [] => if pos then [] else [x]
        | z :: _ => if pos then [{ x with gs := z.gs }] else [])
      (fun σ => match B { σ with pos := g σ.pos } with
        | [] => if pos then [] else [σ]
        | ρ :: _ => if pos then [{ σ with cap := ρ.cap }] else []) := by
  intro x σ hr
  have hr' : Rel E s' G O { x with pos := g x.pos } { σ with pos := g σ.pos } :=
    ⟨by rw [hr.pos], hr.ml, hr.ci, hg _ hr.le, hr.ids, hr.nodup, hr.nz, hr.num, hr.slots⟩
  have hl := h _ _ hr'
  simp only
  generalize A _ = L at *
  generalize B _ = M at *
  cases hl with
  | nil =>
    simp only
    split
    · exact .nil
    · exact .one hr
  | cons a _ =>
    simp only
    split
    · have h2 := a.1
      exact .cons ⟨⟨hr.pos, hr.ml, hr.ci, hr.le, h2.ids, h2.nodup, h2.nz, h2.num, h2.slots⟩, a.2⟩ .nil
    · exact .nil

theorem LSim.test {P : SSt → Prop} {Q : MState → Prop} [DecidablePred P] [DecidablePred Q] (h : ∀ x σ, Rel E s G O x σ → (P x ↔ Q σ)) :
    LSim E s G O (fun x => if P x then [x] else []) (fun σ => if Q σ then [σ] else []) := by
  intro x σ hr
  simp only [h x σ hr]
  split
  · exact .one hr
  · exact .nil

theorem LSim.of {A' : SSt → List SSt} {B' : MState → List MState} (h : LSim E s G O A B) (hA : ∀ x, A' x = A x) (hB : ∀ σ, B' σ = B σ) :
    LSim E s G O A' B' := by
  intro x σ hr; rw [hA, hB]; exact h x σ hr

theorem LSim.tested {r : Re} (hr : r.isTest = true) (hw : ∀ σ, r.ways true E s σ = if Holds E.uni s σ r then [σ] else []) :
    LSim E s G O (r.sways E.uni s) (r.ways true E s) := by
  refine (LSim.test (P := fun x => testAt E.uni s x.pos x.flags r = .yes) (Q := fun σ => Holds E.uni s σ r) ?_).of
    (fun x => Re.sways_test hr) hw
  intro x σ h
  rw [h.pos]
  exact testAt_iff (by rw [← h.pos]; exact h.le) h.ml h.ci
end

mutual
theorem Re.lsim {E : Env} {G : List Nat} : ∀ {r : Re} {s : List Ch} {O : List Nat},
    r.noSelf E.number O = true → r.capsIn G = true → LSim E s G O (r.sways E.uni s) (r.ways true E s)
  | .cc cl, s, O, _, _ => by
    intro x σ hr
    simp only [Re.sways, Re.ways, inClass, ← hr.pos, ← hr.ci]
    cases hv : s[x.pos]? with
    | none => simp; exact .nil
    | some v =>
      simp only [Option.some.injEq, exists_eq_left']
      have hlt := (List.getElem?_eq_some_iff.1 hv).1
      split
      · exact LRel.to hr (p := x.pos + 1) (by omega) rfl (by first | rfl | exact hr.ml.symm) (by first | rfl | exact hr.ci.symm) rfl
      · exact .nil
  | .any, s, O, _, _ => by
    intro x σ hr
    simp only [Re.sways, Re.ways, newlineAt, ← hr.pos, ← hr.ml]
    cases hv : s[x.pos]? with
    | none =>
      have := List.getElem?_eq_none_iff.1 hv
      rw [if_neg (by omega)]
      exact .nil
    | some v =>
      have hlt := (List.getElem?_eq_some_iff.1 hv).1
      simp only [Option.some.injEq, hlt, true_and]
      by_cases hc : x.ml = true ∧ v = 10
      · rw [if_pos hc, if_neg (by simp [hc])]; exact .nil
      · rw [if_neg hc, if_pos hc]
        exact LRel.to hr (p := x.pos + 1) (by omega) rfl (by first | rfl | exact hr.ml.symm) (by first | rfl | exact hr.ci.symm) rfl
  | .str cs, s, O, _, _ => by
    intro x σ hr
    simp only [Re.sways, Re.ways, ← hr.pos, ← hr.ci]
    by_cases hc : ∀ (i : Nat) (h : i < cs.length), inClass E.uni x.ci s (x.pos + i) (.chr cs[i])
    · rw [if_pos hc]
      have h1 := (matchString_iff (U := E.uni)).2 ⟨rfl, hc⟩
      rw [h1]
      exact LRel.to hr ((matchString_yes h1).2 hr.le) rfl (by first | rfl | exact hr.ml.symm) (by first | rfl | exact hr.ci.symm) rfl
    · rw [if_neg hc]
      have : cmpWays x (matchString x.ci s cs x.pos) = [] := by
        cases hm : matchString x.ci s cs x.pos with
        | yes p => exact absurd ((matchString_iff (U := E.uni)).1 hm).2 hc
        | _ => rfl
      rw [this]
      exact .nil
  | .sel l, s, O, h, h' => by
    simp only [Re.noSelf] at h; simp only [Re.capsIn] at h'
    exact (lsimAny h h').of (by simp [Re.sways]) (by simp [Re.ways])
  | .seq l, s, O, h, h' => by
    simp only [Re.noSelf] at h; simp only [Re.capsIn] at h'
    exact (lsimAll h h').of (by simp [Re.sways]) (by simp [Re.ways])
  | .empty, s, O, _, _ => by
    intro x σ hr
    simp only [Re.sways, Re.ways]
    exact .one hr
  | .rep k a b l, s, O, h, h' => by
    simp only [Re.noSelf] at h; simp only [Re.capsIn] at h'
    exact ((lsimAll (s := s) h h').iteration.repeats k a b s.length).of (by simp [Re.sways]) (by simp [Re.ways])
  | .cap id n l, s, O, h, h' => by
    simp only [Re.noSelf, Bool.and_eq_true, bne_iff_ne, ne_eq, Bool.not_eq_true',
      List.contains_eq_mem, decide_eq_false_iff_not] at h
    simp only [Re.capsIn, Bool.and_eq_true, List.contains_eq_mem, decide_eq_true_eq] at h'
    exact (LSim.cap h.1.1 h.1.2 h'.1 (lsimAll h.2 h'.2)).of (by simp [Re.sways]) (by simp [Re.ways])
  | .bref id, s, O, h, h' => by
    simp only [Re.noSelf, Bool.not_eq_true', List.contains_eq_mem, decide_eq_false_iff_not] at h
    exact (LSim.again (fun x => refSlot x.gs id) (fun σ => σ.cap id) (fun x σ hr => hr.slots id h)).of
      (fun x => by simp only [Re.sways]) (fun σ => by simp only [Re.ways, waysAgain]; rfl)
  | .brefName n, s, O, h, h' => by
    have hO : ∀ id, E.number n = some id → id ∉ O := by
      intro id hid
      simpa [Re.noSelf, hid] using h
    refine (LSim.again (fun x => selectName n x.gs) (fun σ => (E.number n).bind σ.cap) (fun x σ hr => hr.slotName n hO)).of
      (fun x => by simp only [Re.sways]) (fun σ => ?_)
    simp only [Re.ways]
    cases hn : E.number n with
    | none => rfl
    | some id => simp only [Option.bind_some, waysAgain]; rfl
  | .ahead pos l, s, O, h, h' => by
    simp only [Re.noSelf] at h; simp only [Re.capsIn] at h'
    exact (LSim.look pos id (fun _ h => h) (lsimAll h h')).of (fun x => by simp only [Re.sways, id]; rfl) (fun σ => by simp only [Re.ways, id]; rfl)
  | .behind pos l, s, O, h, h' => by
    simp only [Re.noSelf] at h; simp only [Re.capsIn] at h'
    exact (LSim.look (s' := s.reverse) pos (fun p => s.length - p) (by simp) (lsimAll h h')).of
      (fun x => by simp only [Re.sways]; rfl) (fun σ => by simp only [Re.ways]; rfl)
  | .atomic l, s, O, h, h' => by
    simp only [Re.noSelf] at h; simp only [Re.capsIn] at h'
    have := (lsimAll (s := s) h h').iteration
    intro x σ hr
    simp only [Re.sways, Re.ways]
    exact (this x σ hr).take
  | .mode m, s, O, h, h' => by
    intro x σ hr
    have hrel : Rel E s G O { x with ml := (x.flags.add m).ml, ci := (x.flags.add m).ci } (σ.setMode m) := by
      cases m <;> exact ⟨hr.pos, by first | exact hr.ml | rfl, by first | exact hr.ci | rfl,
        hr.le, hr.ids, hr.nodup, hr.nz, hr.num, hr.slots⟩
    simp only [Re.sways, Re.ways]
    exact .cons ⟨hrel, .rfl'⟩ .nil
  | .reject _, s, O, h, h' => by
    intro x σ hr
    simp only [Re.sways, Re.ways]
    exact .nil
  | .boundary _, s, O, _, _ | .notBoundary _, s, O, _, _ | .sBegin, s, O, _, _ | .sEnd, s, O, _, _
  | .sEndLine, s, O, _, _ | .lBegin, s, O, _, _ | .lEnd, s, O, _, _ =>
    LSim.tested rfl (fun σ => by simp only [Re.ways])

theorem lsimAll {E : Env} {G : List Nat} : ∀ {l : List Re} {s : List Ch} {O : List Nat},
    noSelfList E.number O l = true → capsInList G l = true → LSim E s G O (fun x => swaysAll E.uni l s x) (fun σ => waysAll true E l s σ)
  | [], s, O, h, h' => by
    intro x σ hr
    simp only [swaysAll, waysAll]
    exact .one hr
  | r :: l, s, O, h, h' => by
    simp only [noSelfList, Bool.and_eq_true] at h
    simp only [capsInList, Bool.and_eq_true] at h'
    intro x σ hr
    simp only [swaysAll, waysAll]
    exact (Re.lsim h.1 h'.1 x σ hr).flatMap (lsimAll h.2 h'.2)

theorem lsimAny {E : Env} {G : List Nat} : ∀ {l : List Re} {s : List Ch} {O : List Nat},
    noSelfList E.number O l = true → capsInList G l = true → LSim E s G O (fun x => swaysAny E.uni l s x) (fun σ => waysAny true E l s σ)
  | [], s, O, h, h' => by
    intro x σ hr
    simp only [swaysAny, waysAny]
    exact .nil
  | r :: l, s, O, h, h' => by
    simp only [noSelfList, Bool.and_eq_true] at h
    simp only [capsInList, Bool.and_eq_true] at h'
    intro x σ hr
    simp only [swaysAny, waysAny]
    exact (Re.lsim h.1 h'.1 x σ hr).append (lsimAny h.2 h'.2 x σ hr)
end

end Ctre
