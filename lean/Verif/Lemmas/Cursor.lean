import Verif.Model.Cursor
import Verif.Spec.Cursor
import Verif.Lemmas.Swap

/-
Evaluation over an iterator that walks the positions of a sequence agrees with evaluation over the sequence.
-/
namespace Ctre

/-- The iterator `K` walks `s`: the position `i` of `s` is the offset `φ i`. -/
structure Walks (o : Needs) (K : Cursor) (s : List Ch) (lb : Bool) (φ : Nat → Nat) : Prop where
  inj : ∀ i j, i ≤ s.length → j ≤ s.length → φ i = φ j → i = j
  size : s.length ≤ K.size
  atBegin : o.start = true → ∀ i, i ≤ s.length → K.atBegin (φ i) = some (decide (i = 0))
  atEnd : ∀ i, i ≤ s.length → K.atEnd (φ i) = some (decide (i = s.length))
  deref : ∀ (i : Nat) v, s[i]? = some v → K.deref (φ i) = some v
  next : ∀ i, i < s.length → K.next (φ i) = some (φ (i + 1))
  prev : o.back = true → ∀ i, i < s.length → K.prev (φ (i + 1)) = some (φ i)
  narrow : o.behind = true → ∀ v ∈ s, K.narrow v = v
  store : K.store = !lb
  refs : o.refs = true → K.refs = !lb

theorem Walks.rev {o : Needs} {K : Cursor} {s : List Ch} {lb : Bool} {φ : Nat → Nat} (H : Walks o K s lb φ)
    (hb : o.back = true) (hl : o.behind = true)
    (hg : o.start = true) : Walks o K.rev s.reverse true (fun i => φ (s.length - i)) where
  inj := by
    intro i j hi hj h
    rw [List.length_reverse] at hi hj
    have := H.inj _ _ (by omega) (by omega) h
    omega
  size := by rw [List.length_reverse]; exact H.size
  atBegin := by
    intro _ i hi
    rw [List.length_reverse] at hi
    simp only [Cursor.rev, H.atEnd _ (show s.length - i ≤ s.length by omega)]
    congr 1
    exact decide_eq_decide.2 (by omega)
  atEnd := by
    intro i hi
    rw [List.length_reverse] at hi
    simp only [Cursor.rev, H.atBegin hg _ (show s.length - i ≤ s.length by omega), List.length_reverse]
    congr 1
    exact decide_eq_decide.2 (by omega)
  deref := by
    intro i v hv
    have hi : i < s.length := by
      have := (List.getElem?_eq_some_iff.1 hv).1
      rwa [List.length_reverse] at this
    rw [List.getElem?_reverse hi] at hv
    have h1 := H.prev hb (s.length - 1 - i) (by omega)
    rw [show s.length - 1 - i + 1 = s.length - i by omega] at h1
    simp only [Cursor.rev, h1, Option.bind_some, H.deref _ _ hv, Option.map_some]
    rw [H.narrow hl v (List.mem_of_getElem? hv)]
  next := by
    intro i hi
    rw [List.length_reverse] at hi
    have h1 := H.prev hb (s.length - 1 - i) (by omega)
    rw [show s.length - 1 - i + 1 = s.length - i by omega] at h1
    simp only [Cursor.rev, h1]
    rw [show s.length - 1 - i = s.length - (i + 1) by omega]
  prev := by
    intro _ i hi
    rw [List.length_reverse] at hi
    have h1 := H.next (s.length - (i + 1)) (by omega)
    rw [show s.length - (i + 1) + 1 = s.length - i by omega] at h1
    exact h1
  narrow := by
    intro h v hv
    exact H.narrow h v (by simpa using hv)
  store := rfl
  refs := by intro _; rfl

def Slot.le (L : Nat) (sl : Slot) : Prop := (∀ p, sl.b = some p → p ≤ L) ∧ (∀ p, sl.e = some p → p ≤ L)

def Caps.le (L : Nat) (c : Caps) : Prop := c.whole.le L ∧ ∀ g ∈ c.groups, g.slot.le L

def Out.mapPos (φ : Nat → Nat) : Out → Out
  | .ok c => .ok (c.mapPos φ)
  | o => o

section caps
variable {φ : Nat → Nat} {L : Nat}

theorem mapPos_setMatched (c : Caps) : (c.mapPos φ).setMatched = c.setMatched.mapPos φ := rfl
theorem mapPos_unmatch (c : Caps) : (c.mapPos φ).unmatch = c.unmatch.mapPos φ := rfl
theorem mapPos_setStart (c : Caps) (p : Nat) : (c.mapPos φ).setStart (φ p) = (c.setStart p).mapPos φ := rfl
theorem mapPos_setEnd (c : Caps) (p : Nat) : (c.mapPos φ).setEnd (φ p) = (c.setEnd p).mapPos φ := rfl
theorem le_setMatched {c : Caps} (h : c.le L) : c.setMatched.le L := h
theorem le_unmatch {c : Caps} (h : c.le L) : c.unmatch.le L := h
theorem le_setStart {c : Caps} (h : c.le L) {p : Nat} (hp : p ≤ L) : (c.setStart p).le L :=
  ⟨⟨fun q hq => by simp only [Caps.setStart, Option.some.injEq] at hq; omega, h.1.2⟩, h.2⟩
theorem le_setEnd {c : Caps} (h : c.le L) {p : Nat} (hp : p ≤ L) : (c.setEnd p).le L :=
  ⟨⟨h.1.1, fun q hq => by simp only [Caps.setEnd, Option.some.injEq] at hq; omega⟩, h.2⟩

theorem hasId_mapPos (id : Nat) : ∀ l : List Group, hasId id (l.map (Group.mapPos φ)) = hasId id l
  | [] => rfl
  | g :: l => by simp only [List.map_cons, hasId, hasId_mapPos id l]; rfl

theorem selectId_mapPos (id : Nat) : ∀ l : List Group,
    selectId id (l.map (Group.mapPos φ)) = (selectId id l).map (Slot.mapPos φ)
  | [] => rfl
  | g :: l => by
    simp only [List.map_cons, selectId, selectId_mapPos id l]
    by_cases h : g.id = id
    · have : (g.mapPos φ).id = id := h
      simp only [h, this, if_true, Option.map_some]; rfl
    · have : ¬ (g.mapPos φ).id = id := h
      simp only [h, this, if_false]

theorem selectName_mapPos (nm : List Nat) : ∀ l : List Group,
    selectName nm (l.map (Group.mapPos φ)) = (selectName nm l).map (Slot.mapPos φ)
  | [] => rfl
  | g :: l => by
    simp only [List.map_cons, selectName, selectName_mapPos nm l]
    by_cases h : g.name = some nm
    · have : (g.mapPos φ).name = some nm := h
      simp only [h, this, if_true, Option.map_some]; rfl
    · have : ¬ (g.mapPos φ).name = some nm := h
      simp only [h, this, if_false]

theorem modifyId_mapPos (id : Nat) (u u' : Slot → Slot) (h : ∀ sl, u' (sl.mapPos φ) = (u sl).mapPos φ) :
    ∀ l : List Group, modifyId id u' (l.map (Group.mapPos φ)) = (modifyId id u l).map (Group.mapPos φ)
  | [] => rfl
  | g :: l => by
    simp only [List.map_cons, modifyId, modifyId_mapPos id u u' h l]
    by_cases hg : g.id = id
    · have : (g.mapPos φ).id = id := hg
      simp only [hg, this, if_true, List.map_cons]
      have := h g.slot
      simp only [Group.mapPos, this]
    · have : ¬ (g.mapPos φ).id = id := hg
      simp only [hg, this, if_false, List.map_cons]

theorem mem_modifyId {id : Nat} {u : Slot → Slot} {g : Group} : ∀ {l : List Group}, g ∈ modifyId id u l →
    g ∈ l ∨ ∃ g' ∈ l, g = { g' with slot := u g'.slot }
  | [], h => by simp [modifyId] at h
  | g' :: l, h => by
    unfold modifyId at h
    split at h
    · rcases List.mem_cons.1 h with h | h
      · exact .inr ⟨g', by simp, h⟩
      · exact .inl (by simp [h])
    · rcases List.mem_cons.1 h with h | h
      · exact .inl (by simp [h])
      · rcases mem_modifyId h with h | ⟨g2, h2, h3⟩
        · exact .inl (by simp [h])
        · exact .inr ⟨g2, by simp [h2], h3⟩

theorem startCapture_mapPos (c : Caps) (id p : Nat) :
    (c.mapPos φ).startCapture id (φ p) = (c.startCapture id p).map (Caps.mapPos φ) := by
  unfold Caps.startCapture
  split
  · rfl
  · have : (c.mapPos φ).groups = c.groups.map (Group.mapPos φ) := rfl
    rw [this, hasId_mapPos]
    split
    · rw [modifyId_mapPos id (fun s => { s with b := some p }) (fun s => { s with b := some (φ p) }) (fun _ => rfl)]
      rfl
    · rfl

theorem endCapture_mapPos (c : Caps) (id p : Nat) :
    (c.mapPos φ).endCapture id (φ p) = (c.endCapture id p).map (Caps.mapPos φ) := by
  unfold Caps.endCapture
  split
  · rfl
  · have : (c.mapPos φ).groups = c.groups.map (Group.mapPos φ) := rfl
    rw [this, hasId_mapPos]
    split
    · rw [modifyId_mapPos id (fun s => { s with e := some p, matched := true })
        (fun s => { s with e := some (φ p), matched := true }) (fun _ => rfl)]
      rfl
    · rfl

theorem le_startCapture {c c' : Caps} {id p : Nat} (h : c.le L) (hp : p ≤ L) (hc : c.startCapture id p = some c') :
    c'.le L := by
  unfold Caps.startCapture at hc
  split at hc
  · simp only [Option.some.injEq] at hc; subst hc; exact le_setStart h hp
  · split at hc
    · simp only [Option.some.injEq] at hc; subst hc
      refine ⟨h.1, fun g hg => ?_⟩
      rcases mem_modifyId hg with hg | ⟨g', hg', rfl⟩
      · exact h.2 g hg
      · exact ⟨fun q hq => by simp only [Option.some.injEq] at hq; omega, (h.2 g' hg').2⟩
    · simp at hc

theorem le_endCapture {c c' : Caps} {id p : Nat} (h : c.le L) (hp : p ≤ L) (hc : c.endCapture id p = some c') :
    c'.le L := by
  unfold Caps.endCapture at hc
  split at hc
  · simp only [Option.some.injEq] at hc; subst hc
    exact ⟨⟨h.1.1, fun q hq => by simp only [Option.some.injEq] at hq; omega⟩, h.2⟩
  · split at hc
    · simp only [Option.some.injEq] at hc; subst hc
      refine ⟨h.1, fun g hg => ?_⟩
      rcases mem_modifyId hg with hg | ⟨g', hg', rfl⟩
      · exact h.2 g hg
      · exact ⟨(h.2 g' hg').1, fun q hq => by simp only [Option.some.injEq] at hq; omega⟩
    · simp at hc

theorem selectId_le {id : Nat} {sl : Slot} : ∀ {l : List Group}, (∀ g ∈ l, g.slot.le L) → selectId id l = some sl → sl.le L
  | [], _, h => by simp [selectId] at h
  | g :: l, hl, h => by
    unfold selectId at h
    split at h
    · simp only [Option.some.injEq] at h; subst h; exact hl g (by simp)
    · exact selectId_le (fun g hg => hl g (by simp [hg])) h

theorem selectName_le {nm : List Nat} {sl : Slot} : ∀ {l : List Group}, (∀ g ∈ l, g.slot.le L) →
    selectName nm l = some sl → sl.le L
  | [], _, h => by simp [selectName] at h
  | g :: l, hl, h => by
    unfold selectName at h
    split at h
    · simp only [Option.some.injEq] at h; subst h; exact hl g (by simp)
    · exact selectName_le (fun g hg => hl g (by simp [hg])) h

theorem get_mapPos (c : Caps) (id : Nat) : (c.mapPos φ).get id = (c.get id).map (Slot.mapPos φ) := by
  unfold Caps.get
  split
  · rfl
  · exact selectId_mapPos id _

theorem getName_mapPos (c : Caps) (nm : List Nat) : (c.mapPos φ).getName nm = (c.getName nm).map (Slot.mapPos φ) :=
  selectName_mapPos nm _

theorem get_le {c : Caps} {id : Nat} {sl : Slot} (h : c.le L) (hs : c.get id = some sl) : sl.le L := by
  unfold Caps.get at hs
  split at hs
  · simp only [Option.some.injEq] at hs; subst hs; exact h.1
  · exact selectId_le h.2 hs

end caps

/-- Outcomes over the sequence and over the iterator: the same, with positions moved by `φ`, unless the former is
undefined behaviour. -/
def Out.Sim (φ : Nat → Nat) (L : Nat) (o o' : Out) : Prop :=
  o = .ub ∨ (o' = o.mapPos φ ∧ ∀ c, o = .ok c → c.le L)

def Loop.Sim (φ : Nat → Nat) (L : Nat) : Loop → Loop → Prop
  | .go p c, l => l = .go (φ p) (c.mapPos φ) ∧ p ≤ L ∧ c.le L
  | .stop .ub, _ => True
  | .stop o, l => l = .stop (o.mapPos φ) ∧ ∀ c, o = .ok c → c.le L

def Cmp.Sim (φ : Nat → Nat) (L : Nat) : Cmp → Cmp → Prop
  | .ub, _ => True
  | .no, l => l = .no
  | .yes p, l => l = .yes (φ p) ∧ p ≤ L

section loops
variable {φ : Nat → Nat} {L : Nat}

theorem Out.Sim.same {o : Out} (h : ∀ c, o ≠ .ok c) : Out.Sim φ L o o := by
  refine .inr ⟨?_, fun c hc => absurd hc (h c)⟩
  cases o with
  | ok c => exact absurd rfl (h c)
  | _ => rfl

theorem Out.Sim.fail : Out.Sim φ L .fail .fail := .same (by simp)
theorem Out.Sim.ill : Out.Sim φ L .ill .ill := .same (by simp)
theorem Out.Sim.timeout : Out.Sim φ L .timeout .timeout := .same (by simp)
theorem Out.Sim.ub {o : Out} : Out.Sim φ L .ub o := .inl rfl

theorem Out.Sim.orElse {o o' x x' : Out} (h : Out.Sim φ L o o') (hx : Out.Sim φ L x x') :
    Out.Sim φ L (o.orElse x) (o'.orElse x') := by
  rcases h with rfl | ⟨rfl, hc⟩
  · exact .inl rfl
  · cases o with
    | fail => exact hx
    | ok c => exact .inr ⟨rfl, fun d hd => hc d hd⟩
    | ub => exact .inl rfl
    | _ => exact .same (by simp [Out.orElse])

/-- Simulated functions of position and captures. -/
def FunSim (φ : Nat → Nat) (L : Nat) (g g' : Nat → Caps → Out) : Prop :=
  ∀ p c, p ≤ L → c.le L → Out.Sim φ L (g p c) (g' (φ p) (c.mapPos φ))

variable {body body' tail tail' : Nat → Caps → Out}

theorem step_sim (hb : FunSim φ L body body') {p : Nat} {c : Caps} (hp : p ≤ L) (hc : c.le L) :
    Loop.Sim φ L (step body p c) (step body' (φ p) (c.mapPos φ)) := by
  unfold step
  rcases hb p c hp hc with h | ⟨h, hle⟩
  · rw [h]; trivial
  · rw [h]
    cases ho : body p c with
    | ok d =>
      have hd := hle d ho
      simp only [Out.mapPos]
      cases he : d.whole.e with
      | none => trivial
      | some q =>
        have : (d.mapPos φ).whole.e = some (φ q) := by simp [Caps.mapPos, Slot.mapPos, he]
        simp only [this]
        exact ⟨rfl, hd.1.2 q he, le_unmatch hd⟩
    | ub => trivial
    | _ => exact ⟨rfl, by simp⟩

theorem mandLoop_sim (hb : FunSim φ L body body') (a : Nat) : ∀ {p : Nat} {c : Caps}, p ≤ L → c.le L →
    Loop.Sim φ L (mandLoop body a p c) (mandLoop body' a (φ p) (c.mapPos φ)) := by
  induction a with
  | zero => intro p c hp hc; exact ⟨rfl, hp, hc⟩
  | succ a ih =>
    intro p c hp hc
    unfold mandLoop
    have h := step_sim hb hp hc
    cases hs : step body p c with
    | stop o =>
      rw [hs] at h
      cases o with
      | ub => trivial
      | _ => obtain ⟨h1, h2⟩ := h; rw [h1]; exact ⟨rfl, h2⟩
    | go q d =>
      rw [hs] at h
      obtain ⟨h1, h2, h3⟩ := h
      rw [h1]
      exact ih h2 h3

theorem possLoop_sim (hb : FunSim φ L body body') (a b m : Nat) : ∀ {i p : Nat} {c : Caps}, p ≤ L → c.le L →
    Loop.Sim φ L (possLoop body a b m i p c) (possLoop body' a b m i (φ p) (c.mapPos φ)) := by
  induction m with
  | zero => intro i p c hp hc; exact ⟨rfl, by simp⟩
  | succ m ih =>
    intro i p c hp hc
    unfold possLoop
    split
    · have h := step_sim hb hp hc
      cases hs : step body p c with
      | stop o =>
        rw [hs] at h
        cases o with
        | ub => trivial
        | fail =>
          obtain ⟨h1, h2⟩ := h; rw [h1]
          simp only [Out.mapPos]
          split
          · exact ⟨rfl, by simp⟩
          · exact ⟨rfl, hp, hc⟩
        | ok d => exact (step_not_ok hs).elim
        | _ => obtain ⟨h1, h2⟩ := h; rw [h1]; exact ⟨rfl, h2⟩
      | go q d =>
        rw [hs] at h
        obtain ⟨h1, h2, h3⟩ := h
        rw [h1]
        exact ih h2 h3
    · exact ⟨rfl, hp, hc⟩

theorem lazyLoop_sim (hb : FunSim φ L body body') (ht : FunSim φ L tail tail') (b m : Nat) :
    ∀ {i p : Nat} {c : Caps}, p ≤ L → c.le L →
    Out.Sim φ L (lazyLoop body tail b m i p c) (lazyLoop body' tail' b m i (φ p) (c.mapPos φ)) := by
  induction m with
  | zero => intro i p c hp hc; exact .timeout
  | succ m ih =>
    intro i p c hp hc
    rw [lazyLoop_succ, lazyLoop_succ]
    split
    · have h := step_sim hb hp hc
      cases hs : step body p c with
      | stop o =>
        rw [hs] at h
        cases o with
        | ub => exact .ub
        | _ => obtain ⟨h1, h2⟩ := h; rw [h1]; exact .inr ⟨rfl, h2⟩
      | go q d =>
        rw [hs] at h
        obtain ⟨h1, h2, h3⟩ := h
        rw [h1]
        exact (ht _ _ h2 h3).orElse (ih h2 h3)
    · exact ht _ _ hp hc

theorem greedyRec_sim (hb : FunSim φ L body body') (ht : FunSim φ L tail tail') (b m : Nat) :
    ∀ {i p : Nat} {c : Caps}, p ≤ L → c.le L →
    Out.Sim φ L (greedyRec body tail b m i p c) (greedyRec body' tail' b m i (φ p) (c.mapPos φ)) := by
  induction m with
  | zero => intro i p c hp hc; exact .timeout
  | succ m ih =>
    intro i p c hp hc
    rw [greedyRec_succ, greedyRec_succ]
    split
    · have h := step_sim hb hp hc
      cases hs : step body p c with
      | stop o =>
        rw [hs] at h
        cases o with
        | ub => exact .ub
        | fail => obtain ⟨h1, h2⟩ := h; rw [h1]; exact ht _ _ hp hc
        | ok d => exact (step_not_ok hs).elim
        | _ => obtain ⟨h1, h2⟩ := h; rw [h1]; exact .inr ⟨rfl, h2⟩
      | go q d =>
        rw [hs] at h
        obtain ⟨h1, h2, h3⟩ := h
        rw [h1]
        exact (ih h2 h3).orElse (ht _ _ hp hc)
    · exact ht _ _ hp hc

end loops

section tests
variable {o : Needs} {K : Cursor} {s : List Ch} {lb : Bool} {φ : Nat → Nat}

theorem getElem?_lt {s : List Ch} {i : Nat} (h : i < s.length) : ∃ v, s[i]? = some v :=
  ⟨s[i], List.getElem?_eq_getElem h⟩

theorem matchString_sim (H : Walks o K s lb φ) (ci : Bool) : ∀ (cs : List Nat) {cur : Nat}, cur ≤ s.length →
    Cmp.Sim φ s.length (matchString ci s cs cur) (matchStringC ci K cs (φ cur)) := by
  intro cs
  induction cs with
  | nil => intro cur h; exact ⟨rfl, h⟩
  | cons c cs ih =>
    intro cur h
    unfold matchString matchStringC
    rw [H.atEnd cur h]
    by_cases he : cur = s.length
    · simp only [he, decide_true, if_true]; rfl
    · simp only [he, decide_false, if_false]
      have hlt : cur < s.length := by omega
      obtain ⟨v, hv⟩ := getElem?_lt hlt
      rw [H.next cur hlt, H.deref cur v hv, hv]
      dsimp only
      split
      · exact ih (by omega)
      · rfl

theorem matchRange_sim (H : Walks o K s lb φ) : ∀ (n m cur rc re : Nat), cur ≤ s.length → rc ≤ s.length → re ≤ s.length →
    s.length - cur ≤ n → s.length - cur ≤ m →
    Cmp.Sim φ s.length (matchRangeBack s n cur rc re) (matchRangeC K m (φ cur) (φ rc) (φ re)) := by
  intro n
  induction n with
  | zero =>
    intro m cur rc re h1 h2 h3 h4 h5
    have : cur = s.length := by omega
    unfold matchRangeBack matchRangeC
    rw [H.atEnd cur h1]
    simp only [this, true_or, decide_true, if_true]
    by_cases he : rc = re
    · simp only [he, if_true]; exact ⟨rfl, Nat.le_refl _⟩
    · have : ¬ φ rc = φ re := fun h => he (H.inj _ _ h2 h3 h)
      simp only [he, this, if_false]; rfl
  | succ n ih =>
    intro m cur rc re h1 h2 h3 h4 h5
    unfold matchRangeBack matchRangeC
    rw [H.atEnd cur h1]
    have e1 : φ rc = φ re ↔ rc = re := ⟨H.inj _ _ h2 h3, fun h => by rw [h]⟩
    have e2 : φ re = φ rc ↔ re = rc := ⟨H.inj _ _ h3 h2, fun h => by rw [h]⟩
    simp only [e1, e2, decide_eq_true_eq]
    split
    · split
      · exact ⟨rfl, h1⟩
      · rfl
    · rename_i hne
      have hlt : cur < s.length := by omega
      obtain ⟨v, hv⟩ := getElem?_lt hlt
      rw [hv, H.deref cur v hv]
      cases hw : s[rc]? with
      | none => trivial
      | some w =>
        have hrc : rc < s.length := (List.getElem?_eq_some_iff.1 hw).1
        rw [H.deref rc w hw]
        dsimp only
        split
        · cases m with
          | zero => omega
          | succ m =>
            simp only [H.next cur hlt, H.next rc hrc]
            exact ih m _ _ _ (by omega) (by omega) h3 (by omega) (by omega)
        · rfl

theorem brefC_sim (H : Walks o K s lb φ) {cur : Nat} (hcur : cur ≤ s.length) {sl : Option Slot}
    (hsl : ∀ x, sl = some x → x.le s.length) :
    (brefCmp s cur sl = none ∧ brefC K (φ cur) (sl.map (Slot.mapPos φ)) = none) ∨
    ∃ x y b, brefCmp s cur sl = some (x, b) ∧ Cmp.Sim φ s.length x y ∧
      (x = .ub ∨ brefC K (φ cur) (sl.map (Slot.mapPos φ)) = some (y, b)) := by
  cases sl with
  | none => exact .inl ⟨rfl, rfl⟩
  | some x =>
    right
    have hx := hsl x rfl
    simp only [brefCmp, brefC, Option.map_some]
    have hm : (x.mapPos φ).matched = x.matched := rfl
    rw [hm]
    split
    · cases hb : x.b with
      | none => exact ⟨.ub, .ub, false, rfl, trivial, .inl rfl⟩
      | some b =>
        cases he : x.e with
        | none => exact ⟨.ub, .ub, false, rfl, trivial, .inl rfl⟩
        | some e =>
          have h1 : (x.mapPos φ).b = some (φ b) := by simp [Slot.mapPos, hb]
          have h2 : (x.mapPos φ).e = some (φ e) := by simp [Slot.mapPos, he]
          rw [h1, h2]
          refine ⟨_, _, _, rfl, matchRange_sim H _ K.size cur b e hcur (hx.1 b hb) (hx.2 e he) (Nat.le_refl _)
            (by have := H.size; omega), .inr ?_⟩
          have : (φ b ≠ φ e) ↔ (b ≠ e) :=
            ⟨fun h h' => h (by rw [h']), fun h h' => h (H.inj _ _ (hx.1 b hb) (hx.2 e he) h')⟩
          simp only [this]
    · exact ⟨.no, .no, false, rfl, rfl, .inr rfl⟩

theorem boundaryC_sim (H : Walks o K s lb φ) (hb : o.back = true) (hg : o.start = true) {U : Uni} {ci : Bool} {cur : Nat} (hcur : cur ≤ s.length)
    (cl : CC) : boundaryC U ci K (φ cur) cl = boundaryAt U ci s cur cl := by
  unfold boundaryC boundaryAt
  have h1 : ((K.atEnd (φ cur)).bind fun e => if e then some false else (K.deref (φ cur)).map (cl.matchChar U ci)) =
      (if s.length = cur then some false else (s[cur]?).map (cl.matchChar U ci)) := by
    rw [H.atEnd cur hcur]
    by_cases h : cur = s.length
    · subst h; simp
    · have h' : ¬ s.length = cur := fun e => h e.symm
      obtain ⟨v, hv⟩ := getElem?_lt (s := s) (i := cur) (by omega)
      simp [h, h', hv, H.deref cur v hv]
  rw [h1, H.atBegin hg cur hcur]
  cases cur with
  | zero => simp; rfl
  | succ p =>
    obtain ⟨v, hv⟩ := getElem?_lt (s := s) (i := p) (by omega)
    simp [H.prev hb p (by omega), hv, H.deref p v hv]
    rfl

/-- The assertions have the same value. -/
theorem testC_sim (H : Walks o K s lb φ) {U : Uni} {f : Flags} {cur : Nat} (hcur : cur ≤ s.length) {r : Re}
    (hr : r.fits o = true) (ht : r.isTest = true) : testC U K (φ cur) f r = testAt U s cur f r := by
  have hend : Tst.of (K.atEnd (φ cur)) = if s.length = cur then .yes else .no := by
    rw [H.atEnd cur hcur]
    by_cases h : cur = s.length
    · simp [h, Tst.of]
    · have h' : ¬ s.length = cur := fun e => h e.symm
      simp [h, h', Tst.of]
  have hbeg : o.start = true → Tst.of (K.atBegin (φ cur)) = if cur = 0 then .yes else .no := by
    intro hg
    rw [H.atBegin hg cur hcur]
    by_cases h : cur = 0 <;> simp [h, Tst.of]
  cases r with
  | sBegin => exact hbeg hr
  | sEnd => exact hend
  | sEndLine =>
    simp only [testC, testAt]
    split
    · rw [H.atEnd cur hcur]
      by_cases h : cur = s.length
      · subst h; simp [Tst.of]
      · have h' : ¬ s.length = cur := fun e => h e.symm
        obtain ⟨v, hv⟩ := getElem?_lt (s := s) (i := cur) (by omega)
        simp only [h, h', decide_false, Option.bind_some, H.deref cur v hv, hv, Bool.false_eq_true, if_false]
        by_cases hn : v = 10
        · simp only [hn, if_true, true_and, H.next cur (by omega), Option.bind_some, H.atEnd (cur + 1) (by omega)]
          by_cases h2 : cur + 1 = s.length <;> simp [h2, Tst.of]
        · simp [hn, Tst.of]
    · exact hend
  | lBegin =>
    simp only [Re.fits, Bool.and_eq_true] at hr
    simp only [testC, testAt]
    split
    · rw [H.atBegin hr.2 cur hcur]
      cases cur with
      | zero => simp [Tst.of]
      | succ p =>
        obtain ⟨v, hv⟩ := getElem?_lt (s := s) (i := p) (by omega)
        simp only [Nat.add_eq_zero_iff, Nat.one_ne_zero, and_false, decide_false, Option.bind_some, Bool.false_eq_true,
          if_false, H.prev hr.1 p (by omega), H.deref p v hv, hv, Option.map_some]
        by_cases hn : v = 10 <;> simp [hn, Tst.of]
    · exact hbeg hr.2
  | lEnd =>
    simp only [testC, testAt]
    split
    · rw [H.atEnd cur hcur]
      by_cases h : cur = s.length
      · subst h; simp [Tst.of]
      · have h' : ¬ s.length = cur := fun e => h e.symm
        obtain ⟨v, hv⟩ := getElem?_lt (s := s) (i := cur) (by omega)
        simp only [h, h', decide_false, Option.bind_some, H.deref cur v hv, hv, Bool.false_eq_true, if_false, Option.map_some]
        by_cases hn : v = 10 <;> simp [hn, Tst.of]
    · exact hend
  | boundary cl =>
    simp only [Re.fits, Bool.and_eq_true] at hr
    simp only [testC, testAt, boundaryC_sim H hr.1 hr.2 hcur]
    cases boundaryAt U f.ci s cur cl with
    | none => rfl
    | some x => by_cases h : x.1 = x.2 <;> simp [h, Tst.of]
  | notBoundary cl =>
    simp only [Re.fits, Bool.and_eq_true] at hr
    simp only [testC, testAt, boundaryC_sim H hr.1 hr.2 hcur]
    cases boundaryAt U f.ci s cur cl with
    | none => rfl
    | some x => by_cases h : x.1 = x.2 <;> simp [h, Tst.of]
  | _ => simp [Re.isTest] at ht

end tests

section eqs
variable (C : Cfg) (n : Nat) (K : Cursor) (cur : Nat) (f : Flags) (c : Caps) (t : Stack)

theorem evalC_startMark : evalC C (n+1) K cur f c (.startMark :: t) =
    if K.store then evalC C n K cur f (c.setStart cur) t else .ill := rfl
theorem evalC_endMark : evalC C (n+1) K cur f c (.endMark :: t) =
    if K.store then evalC C n K cur f (c.setEnd cur) t else .ill := rfl
theorem evalC_endCycle : evalC C (n+1) K cur f c [.endCycle] =
    if K.store then (if f.blk then .fail else .ok (c.setEnd cur).setMatched) else .ill := rfl
theorem evalC_numMark (id : Nat) : evalC C (n+1) K cur f c (.numMark id :: t) =
    if K.store then
      match c.endCapture id cur with
      | none => .ill
      | some c' => evalC C n K cur f c' t
    else .ill := rfl
theorem evalC_cc (cl : CC) : evalC C (n+1) K cur f c (.re (.cc cl) :: t) =
    match K.atEnd cur with
    | none => .ub
    | some true => .fail
    | some false =>
      match K.deref cur with
      | none => .ub
      | some v =>
        if cl.matchChar C.uni f.ci v then
          match K.next cur with
          | none => .ub
          | some p => evalC C n K p (f.consumed true) c t
        else .fail := rfl
theorem evalC_any : evalC C (n+1) K cur f c (.re .any :: t) =
    match K.atEnd cur with
    | none => .ub
    | some true => .fail
    | some false =>
      match (if f.ml then (K.deref cur).map fun v => decide (v = 10) else some false) with
      | none => .ub
      | some true => .fail
      | some false =>
        match K.next cur with
        | none => .ub
        | some p => evalC C n K p (f.consumed true) c t := rfl
theorem evalC_str (cs : List Nat) : evalC C (n+1) K cur f c (.re (.str cs) :: t) =
    match matchStringC f.ci K cs cur with
    | .ub => .ub
    | .no => .fail
    | .yes p => evalC C n K p (f.consumed (decide (0 < cs.length))) c t := rfl
theorem evalC_lazy (a b : Nat) (m : List Re) : evalC C (n+1) K cur f c (.re (.rep .lazy a b m) :: t) =
    if b ≠ 0 ∧ a > b then .fail else
    if K.store then
      match mandLoop (fun p c' => evalC C n K p f.notEmpty c' (items m [.endCycle])) a cur c with
      | .stop o => o
      | .go p c' =>
        (evalC C n K p (f.consumed (decide (cur ≠ p))) c' t).orElse
          (lazyLoop (fun p c' => evalC C n K p f.notEmpty c' (items m [.endCycle]))
            (fun p c' => evalC C n K p (f.consumed true) c' t) b n a p c')
    else .ill := rfl
theorem evalC_poss (a b : Nat) (m : List Re) : evalC C (n+1) K cur f c (.re (.rep .poss a b m) :: t) =
    if b ≠ 0 ∧ a > b then .fail else
    if K.store then
      match possLoop (fun p c' => evalC C n K p f.notEmpty c' (items m [.endCycle])) a b n 0 cur c with
      | .stop o => o
      | .go p c' => evalC C n K p (f.consumed (decide (cur ≠ p))) c' t
    else .ill := rfl
theorem evalC_greedy (a b : Nat) (m : List Re) : evalC C (n+1) K cur f c (.re (.rep .greedy a b m) :: t) =
    if b ≠ 0 ∧ a > b then .fail else
    if K.store then
      match (if C.greedyOpt then loopCollides m t else some true) with
      | none => .ill
      | some false => evalC C n K cur f c (.re (.rep .poss a b m) :: t)
      | some true =>
        match mandLoop (fun p c' => evalC C n K p f.notEmpty c' (items m [.endCycle])) a cur c with
        | .stop o => o
        | .go p c' =>
          if C.msvc then greedyRecRef (fun p c' => evalC C n K p f.notEmpty c' (items m [.endCycle]))
            (fun p c' => evalC C n K p (f.consumed true) c' t) b n a p c' .fail
          else greedyRec (fun p c' => evalC C n K p f.notEmpty c' (items m [.endCycle]))
            (fun p c' => evalC C n K p (f.consumed true) c' t) b n a p c'
    else .ill := rfl
theorem evalC_cap (id : Nat) (nm : Option (List Nat)) (m : List Re) : evalC C (n+1) K cur f c (.re (.cap id nm m) :: t) =
    if K.store then
      match c.startCapture id cur with
      | none => .ill
      | some c' => evalC C n K cur f c' (.re (.seq m) :: .numMark id :: t)
    else .ill := rfl
theorem evalC_bref (id : Nat) : evalC C (n+1) K cur f c (.re (.bref id) :: t) =
    if K.refs then
      match brefC K cur (c.get id) with
      | none => .ill
      | some (.ub, _) => .ub
      | some (.no, _) => .fail
      | some (.yes p, nonempty) => evalC C n K p (f.consumed nonempty) c t
    else .ill := rfl
theorem evalC_brefName (nm : List Nat) : evalC C (n+1) K cur f c (.re (.brefName nm) :: t) =
    if K.refs then
      match brefC K cur (c.getName nm) with
      | none => .ill
      | some (.ub, _) => .ub
      | some (.no, _) => .fail
      | some (.yes p, nonempty) => evalC C n K p (f.consumed nonempty) c t
    else .ill := rfl
theorem evalC_ahead (pos : Bool) (m : List Re) : evalC C (n+1) K cur f c (.re (.ahead pos m) :: t) =
    match evalC C n K cur f c [.re (.seq m), .endAhead] with
    | .ok c' => if pos then evalC C n K cur f c'.unmatch t else .fail
    | .fail => if pos then .fail else evalC C n K cur f c t
    | o => o := rfl
theorem evalC_behind (pos : Bool) (m : List Re) : evalC C (n+1) K cur f c (.re (.behind pos m) :: t) =
    match evalC C n K.rev cur f c [.re (.seq m), .endBehind] with
    | .ok c' => if pos then evalC C n K cur f c'.unmatch t else .fail
    | .fail => if pos then .fail else evalC C n K cur f c t
    | o => o := rfl
theorem evalC_test (r : Re) (h : r.isTest = true) : evalC C (n+1) K cur f c (.re r :: t) =
    match testC C.uni K cur f r with
    | .ub => .ub
    | .no => .fail
    | .yes => evalC C n K cur f c t := by
  cases r <;> first | rfl | simp [Re.isTest] at h

end eqs

def StkFits (o : Needs) (st : Stack) : Prop := ∀ r, Item.re r ∈ st → r.fits o = true

theorem stkFits_cons {o : Needs} {x : Item} {t : Stack} :
    StkFits o (x :: t) ↔ (∀ r, x = .re r → r.fits o = true) ∧ StkFits o t := by
  unfold StkFits
  constructor
  · intro h; exact ⟨fun r hr => h r (by simp [hr]), fun r hr => h r (by simp [hr])⟩
  · intro h r hr
    rcases List.mem_cons.1 hr with hr | hr
    · exact h.1 r hr.symm
    · exact h.2 r hr

theorem stkFits_re {o : Needs} {r : Re} {t : Stack} : StkFits o (.re r :: t) ↔ r.fits o = true ∧ StkFits o t := by
  rw [stkFits_cons]; simp

theorem stkFits_mark {o : Needs} {x : Item} {t : Stack} (hx : ∀ r, x ≠ .re r) (h : StkFits o t) : StkFits o (x :: t) := by
  rw [stkFits_cons]; exact ⟨fun r hr => absurd hr (hx r), h⟩

theorem stkFits_items {o : Needs} {l : List Re} {t : Stack} (h : fitsList o l = true) (ht : StkFits o t) :
    StkFits o (items l t) := by
  induction l with
  | nil => exact ht
  | cons r l ih =>
    simp only [fitsList, Bool.and_eq_true] at h
    have : items (r :: l) t = .re r :: items l t := rfl
    rw [this, stkFits_re]
    exact ⟨h.1, ih h.2⟩

/-- Evaluation over the iterator is evaluation over the sequence. `φ₀` is the position map of the iterators stored in
the results; inside lookbehinds the current position is mapped differently. -/
theorem evalC_sim (C : Cfg) (o : Needs) (φ₀ : Nat → Nat) : ∀ n (K : Cursor) (s : List Ch) lb φ cur f c st,
    Walks o K s lb φ → (lb = false → φ = φ₀) → cur ≤ s.length → c.le s.length → StkFits o st →
    Out.Sim φ₀ s.length (eval C n s lb cur f c st) (evalC C n K (φ cur) f (c.mapPos φ₀) st) := by
  intro n
  induction n with
  | zero => intros; exact .timeout
  | succ n ih =>
    intro K s lb φ cur f c st H hφ hcur hc hst
    rcases st with _ | ⟨it, t⟩
    · exact .fail
    · have ht := (stkFits_cons.1 hst).2
      have iht : ∀ p f c, p ≤ s.length → c.le s.length →
          Out.Sim φ₀ s.length (eval C n s lb p f c t) (evalC C n K (φ p) f (c.mapPos φ₀) t) :=
        fun p f c hp hc => ih K s lb φ p f c t H hφ hp hc ht
      have okm : Out.Sim φ₀ s.length (.ok c.setMatched) (.ok (c.mapPos φ₀).setMatched) :=
        .inr ⟨rfl, fun d hd => by simp only [Out.ok.injEq] at hd; subst hd; exact le_setMatched hc⟩
      cases it with
      | accept => cases t <;> first | exact okm | exact .fail
      | endAhead => cases t <;> first | exact okm | exact .fail
      | endBehind => cases t <;> first | exact okm | exact .fail
      | endCycle =>
        cases t with
        | nil =>
          rw [eval_endCycle, evalC_endCycle]
          rw [H.store]
          cases lb with
          | true => exact .ill
          | false =>
            have := hφ rfl; subst this
            simp only [Bool.not_false, if_true, Bool.false_eq_true, if_false]
            split
            · exact .fail
            · exact .inr ⟨rfl, fun d hd => by
                simp only [Out.ok.injEq] at hd; subst hd; exact le_setMatched (le_setEnd hc hcur)⟩
        | cons _ _ => exact .fail
      | startMark =>
        rw [eval_startMark, evalC_startMark]
        rw [H.store]
        cases lb with
        | true => exact .ill
        | false =>
          have := hφ rfl; subst this
          exact iht _ _ _ hcur (le_setStart hc hcur)
      | endMark =>
        rw [eval_endMark, evalC_endMark]
        rw [H.store]
        cases lb with
        | true => exact .ill
        | false =>
          have := hφ rfl; subst this
          exact iht _ _ _ hcur (le_setEnd hc hcur)
      | numMark id =>
        rw [eval_numMark, evalC_numMark]
        rw [H.store]
        cases lb with
        | true => exact .ill
        | false =>
          have := hφ rfl; subst this
          simp only [Bool.not_false, if_true, Bool.false_eq_true, if_false, endCapture_mapPos]
          cases hd : c.endCapture id cur with
          | none => exact .ill
          | some d => exact iht _ _ _ hcur (le_endCapture hc hcur hd)
      | re r =>
        have hr := (stkFits_re.1 hst).1
        have hbody : lb = false → ∀ m, fitsList o m = true → FunSim φ₀ s.length
            (fun p c' => eval C n s lb p f.notEmpty c' (items m [.endCycle]))
            (fun p c' => evalC C n K p f.notEmpty c' (items m [.endCycle])) := by
          intro hlb m hm p c' hp hc'
          have := hφ hlb; subst this
          exact ih K s lb φ p _ _ _ H hφ hp hc' (stkFits_items hm (stkFits_mark (by simp) (by simp [StkFits])))
        have htail : lb = false → FunSim φ₀ s.length (fun p c' => eval C n s lb p (f.consumed true) c' t)
            (fun p c' => evalC C n K p (f.consumed true) c' t) := by
          intro hlb p c' hp hc'
          have := hφ hlb; subst this
          exact iht _ _ _ hp hc'
        cases r with
        | cc cl =>
          rw [eval_cc, evalC_cc]
          rw [H.atEnd cur hcur]
          by_cases he : cur = s.length
          · simp only [he, if_true, decide_true]; exact .fail
          · have hlt : cur < s.length := by omega
            obtain ⟨v, hv⟩ := getElem?_lt hlt
            simp only [he, if_false, decide_false, hv, H.deref cur v hv, H.next cur hlt]
            split
            · exact iht _ _ _ hlt hc
            · exact .fail
        | any =>
          rw [eval_any, evalC_any]
          rw [H.atEnd cur hcur]
          by_cases he : cur = s.length
          · simp only [he, if_true, decide_true]; exact .fail
          · have hlt : cur < s.length := by omega
            obtain ⟨v, hv⟩ := getElem?_lt hlt
            simp only [he, if_false, decide_false, hv, H.deref cur v hv, H.next cur hlt]
            cases hml : f.ml with
            | true =>
              simp only [if_true, Option.map_some]
              by_cases hn : v = 10
              · simp only [hn, if_true, decide_true]; exact .fail
              · simp only [hn, if_false, decide_false]; exact iht _ _ _ hlt hc
            | false =>
              simp only [Bool.false_eq_true, if_false]
              exact iht _ _ _ hlt hc
        | str cs =>
          rw [eval_str, evalC_str]
          have h := matchString_sim H f.ci cs hcur
          cases hm : matchString f.ci s cs cur with
          | ub => exact .ub
          | no =>
            rw [hm] at h
            rw [show matchStringC f.ci K cs (φ cur) = .no from h]
            exact .fail
          | yes p =>
            rw [hm] at h
            rw [show matchStringC f.ci K cs (φ cur) = .yes (φ p) from h.1]
            exact iht _ _ _ h.2 hc
        | sel l =>
          cases l with
          | nil => exact .fail
          | cons r opts =>
            simp only [Re.fits, fitsList, Bool.and_eq_true] at hr
            exact (ih K s lb φ cur f c _ H hφ hcur hc (stkFits_re.2 ⟨hr.1, ht⟩)).orElse
              (ih K s lb φ cur f c (.re (.sel opts) :: t) H hφ hcur hc (stkFits_re.2 ⟨hr.2, ht⟩))
        | seq l =>
          rcases l with _ | ⟨r, _ | ⟨r', m⟩⟩
          · exact .fail
          · simp only [Re.fits, fitsList, Bool.and_eq_true] at hr
            exact ih K s lb φ cur f c (.re r :: t) H hφ hcur hc (stkFits_re.2 ⟨hr.1, ht⟩)
          · simp only [Re.fits, fitsList, Bool.and_eq_true] at hr
            refine ih K s lb φ cur f c (.re r :: .re (.seq (r' :: m)) :: t) H hφ hcur hc
              (stkFits_re.2 ⟨hr.1, stkFits_re.2 ⟨?_, ht⟩⟩)
            simp only [Re.fits, fitsList, Bool.and_eq_true]
            exact hr.2
        | empty => exact iht _ _ _ hcur hc
        | rep k a b m =>
          cases k with
          | lazy =>
            rw [eval_lazy, evalC_lazy]
            rw [H.store]
            split
            · exact .fail
            · cases lb with
              | true => exact .ill
              | false =>
                have hm := mandLoop_sim (hbody rfl m hr) a hcur hc
                have := hφ rfl; subst this
                simp only [Bool.not_false, if_true, Bool.false_eq_true, if_false]
                cases hl : mandLoop (fun p c' => eval C n s false p f.notEmpty c' (items m [.endCycle])) a cur c with
                | stop x =>
                  rw [hl] at hm
                  cases x with
                  | ub => exact .ub
                  | _ => obtain ⟨h1, h2⟩ := hm; rw [h1]; exact .inr ⟨rfl, h2⟩
                | go p d =>
                  rw [hl] at hm
                  obtain ⟨h1, h2, h3⟩ := hm
                  rw [h1]
                  have hne : (φ cur ≠ φ p) ↔ (cur ≠ p) :=
                    ⟨fun h h' => h (by rw [h']), fun h h' => h (H.inj _ _ hcur h2 h')⟩
                  simp only [hne]
                  exact (iht _ _ _ h2 h3).orElse (lazyLoop_sim (hbody rfl m hr) (htail rfl) b n h2 h3)
          | poss =>
            rw [eval_poss, evalC_poss]
            rw [H.store]
            split
            · exact .fail
            · cases lb with
              | true => exact .ill
              | false =>
                have hm := possLoop_sim (hbody rfl m hr) a b n (i := 0) hcur hc
                have := hφ rfl; subst this
                simp only [Bool.not_false, if_true, Bool.false_eq_true, if_false]
                cases hl : possLoop (fun p c' => eval C n s false p f.notEmpty c' (items m [.endCycle])) a b n 0 cur c with
                | stop x =>
                  rw [hl] at hm
                  cases x with
                  | ub => exact .ub
                  | _ => obtain ⟨h1, h2⟩ := hm; rw [h1]; exact .inr ⟨rfl, h2⟩
                | go p d =>
                  rw [hl] at hm
                  obtain ⟨h1, h2, h3⟩ := hm
                  rw [h1]
                  have hne : (φ cur ≠ φ p) ↔ (cur ≠ p) :=
                    ⟨fun h h' => h (by rw [h']), fun h h' => h (H.inj _ _ hcur h2 h')⟩
                  simp only [hne]
                  exact iht _ _ _ h2 h3
          | greedy =>
            rw [eval_greedy, evalC_greedy]
            rw [H.store]
            split
            · exact .fail
            · cases lb with
              | true => exact .ill
              | false =>
                have hm := mandLoop_sim (hbody rfl m hr) a hcur hc
                simp only [Bool.not_false, if_true, Bool.false_eq_true, if_false, greedyRecRef_eq, ite_self]
                generalize (if C.greedyOpt = true then loopCollides m t else some true) = g
                rcases g with _ | _ | _
                · exact .ill
                · exact ih K s false φ cur f c (.re (.rep .poss a b m) :: t) H hφ hcur hc (stkFits_re.2 ⟨hr, ht⟩)
                · have := hφ rfl; subst this
                  dsimp only
                  cases hl : mandLoop (fun p c' => eval C n s false p f.notEmpty c' (items m [.endCycle])) a cur c with
                  | stop x =>
                    rw [hl] at hm
                    cases x with
                    | ub => exact .ub
                    | _ => obtain ⟨h1, h2⟩ := hm; rw [h1]; exact .inr ⟨rfl, h2⟩
                  | go p d =>
                    rw [hl] at hm
                    obtain ⟨h1, h2, h3⟩ := hm
                    rw [h1]
                    exact greedyRec_sim (hbody rfl m hr) (htail rfl) b n h2 h3
        | cap id name m =>
          rw [eval_cap, evalC_cap]
          rw [H.store]
          cases lb with
          | true => exact .ill
          | false =>
            have := hφ rfl; subst this
            simp only [Bool.not_false, if_true, Bool.false_eq_true, if_false, startCapture_mapPos]
            cases hd : c.startCapture id cur with
            | none => exact .ill
            | some d =>
              exact ih K s false φ cur f d (.re (.seq m) :: .numMark id :: t) H hφ hcur (le_startCapture hc hcur hd)
                (stkFits_re.2 ⟨hr, stkFits_mark (by simp) ht⟩)
        | bref id =>
          rw [eval_bref, evalC_bref]
          rw [H.refs hr]
          cases lb with
          | true => exact .ill
          | false =>
            have := hφ rfl; subst this
            simp only [Bool.not_false, if_true, Bool.false_eq_true, if_false, get_mapPos]
            rcases brefC_sim H hcur (sl := c.get id) (fun x hx => get_le hc hx) with ⟨h1, h2⟩ | ⟨x, y, b, h1, h2, h3⟩
            · rw [h1, h2]; exact .ill
            · rw [h1]
              rcases h3 with rfl | h3
              · exact .ub
              · rw [h3]
                cases x with
                | ub => exact .ub
                | no => rw [show y = .no from h2]; exact .fail
                | yes p => obtain ⟨rfl, hp⟩ := h2; exact iht _ _ _ hp hc
        | brefName nm =>
          rw [eval_brefName, evalC_brefName]
          rw [H.refs hr]
          cases lb with
          | true => exact .ill
          | false =>
            have := hφ rfl; subst this
            simp only [Bool.not_false, if_true, Bool.false_eq_true, if_false, getName_mapPos]
            rcases brefC_sim H hcur (sl := c.getName nm) (fun x hx => selectName_le hc.2 hx) with
              ⟨h1, h2⟩ | ⟨x, y, b, h1, h2, h3⟩
            · rw [h1, h2]; exact .ill
            · rw [h1]
              rcases h3 with rfl | h3
              · exact .ub
              · rw [h3]
                cases x with
                | ub => exact .ub
                | no => rw [show y = .no from h2]; exact .fail
                | yes p => obtain ⟨rfl, hp⟩ := h2; exact iht _ _ _ hp hc
        | ahead pos m =>
          rw [eval_ahead, evalC_ahead]
          rcases ih K s lb φ cur f c [.re (.seq m), .endAhead] H hφ hcur hc
            (stkFits_re.2 ⟨hr, stkFits_mark (by simp) (by simp [StkFits])⟩) with h | ⟨h, hle⟩
          · rw [h]; exact .ub
          · rw [h]
            cases hx : eval C n s lb cur f c [.re (.seq m), .endAhead] with
            | ub => exact .ub
            | ok d =>
              simp only [Out.mapPos]
              split
              · exact iht _ _ _ hcur (le_unmatch (hle d hx))
              · exact .fail
            | fail =>
              simp only [Out.mapPos]
              split
              · exact .fail
              · exact iht _ _ _ hcur hc
            | timeout => exact .timeout
            | ill => exact .ill
        | behind pos m =>
          simp only [Re.fits, Bool.and_eq_true] at hr
          rw [eval_behind, evalC_behind]
          have := ih K.rev s.reverse true _ (s.length - cur) f c [.re (.seq m), .endBehind] (H.rev hr.1.1.1 hr.1.1.2 hr.1.2)
            (by simp) (by rw [List.length_reverse]; omega) (by rw [List.length_reverse]; exact hc)
            (stkFits_re.2 ⟨hr.2, stkFits_mark (by simp) (by simp [StkFits])⟩)
          rw [List.length_reverse, show s.length - (s.length - cur) = cur by omega] at this
          rcases this with h | ⟨h, hle⟩
          · rw [h]; exact .ub
          · rw [h]
            cases hx : eval C n s.reverse true (s.length - cur) f c [.re (.seq m), .endBehind] with
            | ub => exact .ub
            | ok d =>
              simp only [Out.mapPos]
              split
              · exact iht _ _ _ hcur (le_unmatch (hle d hx))
              · exact .fail
            | fail =>
              simp only [Out.mapPos]
              split
              · exact .fail
              · exact iht _ _ _ hcur hc
            | timeout => exact .timeout
            | ill => exact .ill
        | atomic m =>
          exact ih K s lb φ cur f c (.re (.rep .poss 1 1 m) :: t) H hφ hcur hc (stkFits_re.2 ⟨hr, ht⟩)
        | mode md => exact iht _ _ _ hcur hc
        | reject => exact .fail
        | boundary _ | notBoundary _ | sBegin | sEnd | sEndLine | lBegin | lEnd =>
          rw [eval_test (h := rfl), evalC_test (h := rfl)]
          rw [testC_sim H hcur hr rfl]
          generalize testAt C.uni s cur f _ = x
          cases x with
          | ub => exact .ub
          | no => exact .fail
          | yes => exact iht _ _ _ hcur hc

/-- Results over the sequence and over the iterator. -/
def Exec.Sim (φ : Nat → Nat) (e e' : Exec) : Prop := e = .ub ∨ e' = e.mapPos φ

theorem initCaps_le (r : Re) (L : Nat) : (initCaps r).le L := by
  have key : ∀ r : Re, ∀ g ∈ r.captures, g.slot.le L := by
    intro r
    induction r using Re.rec (motive_2 := fun l => ∀ g ∈ capturesList l, g.slot.le L) with
    | sel l ih => exact ih
    | seq l ih => exact ih
    | rep k a b l ih => exact ih
    | ahead p l ih => exact ih
    | cap id nm l ih =>
      intro g hg
      simp only [Re.captures, List.mem_cons] at hg
      rcases hg with rfl | hg
      · exact ⟨by simp, by simp⟩
      · exact ih g hg
    | nil => rename_i g hg; simp [capturesList] at hg
    | cons r l ih1 ih2 =>
      rename_i g hg
      simp only [capturesList, List.mem_append] at hg
      rcases hg with hg | hg
      · exact ih1 g hg
      · exact ih2 g hg
    | _ => intro g hg; simp [Re.captures] at hg
  exact ⟨⟨by simp [initCaps], by simp [initCaps]⟩, key r⟩

theorem initCaps_mapPos (r : Re) (φ : Nat → Nat) : (initCaps r).mapPos φ = initCaps r := by
  have key : ∀ r : Re, r.captures.map (Group.mapPos φ) = r.captures := by
    intro r
    induction r using Re.rec (motive_2 := fun l => (capturesList l).map (Group.mapPos φ) = capturesList l) with
    | sel l ih => exact ih
    | seq l ih => exact ih
    | rep k a b l ih => exact ih
    | ahead p l ih => exact ih
    | cap id nm l ih =>
      simp only [Re.captures, List.map_cons, ih]
      rfl
    | nil => rfl
    | cons r l ih1 ih2 => simp only [capturesList, List.map_append, ih1, ih2]
    | _ => rfl
  unfold initCaps Caps.mapPos
  simp only [key]
  rfl

theorem toExec_sim {φ : Nat → Nat} {L : Nat} {r : Re} {o o' : Out} (h : Out.Sim φ L o o') :
    Exec.Sim φ (o.toExec r) (o'.toExec r) := by
  rcases h with rfl | ⟨rfl, _⟩
  · exact .inl rfl
  · right
    cases o <;> simp [Out.toExec, Out.mapPos, Exec.mapPos, initCaps_mapPos]

section api
variable {o : Needs} {K : Cursor} {s : List Ch} {φ : Nat → Nat} {r : Re}

theorem attemptC_sim (C : Cfg) (n : Nat) (H : Walks o K s false φ) (hr : r.fits o = true) (f : Flags) {p : Nat}
    (hp : p ≤ s.length) : Out.Sim φ s.length (attempt C n s f r p)
      (evalC C n K (φ p) f (initCaps r) [.startMark, .re r, .endMark, .accept]) := by
  have := evalC_sim C o φ n K s false φ p f (initCaps r) [.startMark, .re r, .endMark, .accept] H (fun _ => rfl) hp
    (initCaps_le r _) (stkFits_mark (by simp) (stkFits_re.2 ⟨hr, by simp [StkFits]⟩))
  rw [initCaps_mapPos] at this
  exact this

/-- The entry points over the iterator give the results of the entry points over the sequence. -/
theorem matchC_sim (C : Cfg) (n : Nat) (H : Walks o K s false φ) (hr : r.fits o = true) (f : Flags) {p : Nat}
    (hp : p ≤ s.length) : Exec.Sim φ (matchAt C n s f r p) (matchC C n K f r (φ p)) := by
  have := evalC_sim C o φ n K s false φ p f (initCaps r) [.startMark, .re r, .re .sEnd, .endMark, .accept] H
    (fun _ => rfl) hp (initCaps_le r _)
    (stkFits_mark (by simp) (stkFits_re.2 ⟨hr, stkFits_re.2 ⟨rfl, by simp [StkFits]⟩⟩))
  rw [initCaps_mapPos] at this
  exact toExec_sim this

theorem startsWithC_sim (C : Cfg) (n : Nat) (H : Walks o K s false φ) (hr : r.fits o = true) (f : Flags) {p : Nat}
    (hp : p ≤ s.length) : Exec.Sim φ (startsWithAt C n s f r p) (startsWithC C n K f r (φ p)) :=
  toExec_sim (attemptC_sim C n H hr f hp)

theorem searchLoopC_sim (C : Cfg) (n : Nat) (H : Walks o K s false φ) (hr : r.fits o = true) (f : Flags) :
    ∀ k {p : Nat}, p + k = s.length → ∀ m, k ≤ m →
    Exec.Sim φ (searchLoop C n s f r k p) (searchLoopC C n K f r false m (φ p)) := by
  intro k
  induction k with
  | zero =>
    intro p hp m hm
    unfold searchLoop searchLoopC
    have h := attemptC_sim C n H hr f (p := p) (by omega)
    rw [H.atEnd p (by omega), show decide (p = s.length) = true from decide_eq_true (by omega)]
    simp only [true_or, if_true]
    cases ho : attempt C n s f r p with
    | ub => exact .inl rfl
    | fail =>
      rw [ho] at h
      rcases h with h | ⟨h, _⟩
      · simp at h
      · rw [h]
        right
        simp only [Out.mapPos, Exec.mapPos]
        rw [← mapPos_setEnd, initCaps_mapPos]
    | _ =>
      rw [ho] at h
      have h2 := toExec_sim (r := r) h
      rcases h with h | ⟨h, _⟩
      · simp at h
      · rw [h] at h2 ⊢; exact h2
  | succ k ih =>
    intro p hp m hm
    unfold searchLoop searchLoopC
    have h := attemptC_sim C n H hr f (p := p) (by omega)
    rw [H.atEnd p (by omega), show decide (p = s.length) = false from decide_eq_false (by omega)]
    simp only [Bool.false_eq_true, or_self, if_false]
    cases ho : attempt C n s f r p with
    | ub => exact .inl rfl
    | fail =>
      rw [ho] at h
      rcases h with h | ⟨h, _⟩
      · simp at h
      · rw [h]
        cases m with
        | zero => omega
        | succ m =>
          simp only [Out.mapPos, H.next p (by omega)]
          exact ih (by omega) m (by omega)
    | _ =>
      rw [ho] at h
      have h2 := toExec_sim (r := r) h
      rcases h with h | ⟨h, _⟩
      · simp at h
      · rw [h] at h2 ⊢; exact h2

theorem searchC_sim (C : Cfg) (n : Nat) (H : Walks o K s false φ) (hr : r.fits o = true) (f : Flags) {p : Nat}
    (hp : p ≤ s.length) : Exec.Sim φ (searchAt C n s f r p) (searchC C n K f r (φ p)) := by
  unfold searchAt searchC
  cases ha : startsWithAnchor f r with
  | false => exact searchLoopC_sim C n H hr f _ (by simp; omega) _ (by have := H.size; simp; omega)
  | true =>
    simp only [if_true]
    unfold searchLoop searchLoopC
    have h := attemptC_sim C n H hr f (p := p) (by omega)
    rw [H.atEnd p (by omega)]
    simp only [or_true, if_true]
    cases ho : attempt C n s f r p with
    | ub => exact .inl rfl
    | fail =>
      rw [ho] at h
      rcases h with h | ⟨h, _⟩
      · simp at h
      · rw [h]
        right
        simp only [Out.mapPos, Exec.mapPos]
        rw [← mapPos_setEnd, initCaps_mapPos]
    | _ =>
      rw [ho] at h
      have h2 := toExec_sim (r := r) h
      rcases h with h | ⟨h, _⟩
      · simp at h
      · rw [h] at h2 ⊢; exact h2

end api

end Ctre
