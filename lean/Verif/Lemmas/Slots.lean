import Verif.Lemmas.Mono
import Verif.Lemmas.Refine
import Verif.Spec.Numbers

/-
A run depends on the captures only through the slots that the pattern uses by number.
-/
namespace Ctre

/-- The same match and the same slots with the numbers in `I`; the other slots of the first are `K`. -/
structure SameSlots (I : List Nat) (K : Nat → Option Slot) (c c' : Caps) : Prop where
  whole : c.whole = c'.whole
  positive : 0 ∉ I
  slots : ∀ i ∈ I, ∃ sl, selectId i c.groups = some sl ∧ selectId i c'.groups = some sl
  others : ∀ i, i ∉ I → selectId i c.groups = K i

def Out.Same (I : List Nat) (K : Nat → Option Slot) : Out → Out → Prop
  | .ok c, .ok c' => SameSlots I K c c'
  | .fail, .fail => True
  | .ill, .ill => True
  | .ub, .ub => True
  | .timeout, .timeout => True
  | _, _ => False

def Loop.Same (I : List Nat) (K : Nat → Option Slot) : Loop → Loop → Prop
  | .stop o, .stop o' => o.Same I K o'
  | .go p c, .go p' c' => p = p' ∧ SameSlots I K c c'
  | _, _ => False

def Item.numbersIn (I : List Nat) : Item → Bool
  | .re r => r.numbersIn I
  | .numMark id => I.contains id
  | _ => true

def stackIn (I : List Nat) (t : Stack) : Bool := t.all (Item.numbersIn I)

variable {I : List Nat} {K : Nat → Option Slot} {c c' : Caps}

theorem SameSlots.with {w w' : Slot} (h : SameSlots I K c c') (hw : w = w') : SameSlots I K { c with whole := w } { c' with whole := w' } :=
  ⟨hw, h.positive, h.slots, h.others⟩

theorem SameSlots.setMatched (h : SameSlots I K c c') : SameSlots I K c.setMatched c'.setMatched := h.with (by rw [h.whole])
theorem SameSlots.unmatch (h : SameSlots I K c c') : SameSlots I K c.unmatch c'.unmatch := h.with (by rw [h.whole])
theorem SameSlots.setStart (h : SameSlots I K c c') (p : Nat) : SameSlots I K (c.setStart p) (c'.setStart p) := h.with (by rw [h.whole])
theorem SameSlots.setEnd (h : SameSlots I K c c') (p : Nat) : SameSlots I K (c.setEnd p) (c'.setEnd p) := h.with (by rw [h.whole])

theorem hasId_of_select {i : Nat} {sl : Slot} : ∀ {gs : List Group}, selectId i gs = some sl → hasId i gs = true
  | g :: gs, h => by
    simp only [selectId] at h
    simp only [hasId, Bool.or_eq_true, beq_iff_eq]
    split at h
    · exact .inl ‹_›
    · exact .inr (hasId_of_select h)

theorem SameSlots.modify (h : SameSlots I K c c') {j : Nat} (hj : j ∈ I) (f : Slot → Slot) :
    SameSlots I K { c with groups := modifyId j f c.groups } { c' with groups := modifyId j f c'.groups } := by
  refine ⟨h.whole, h.positive, fun i hi => ?_, fun i hi => ?_⟩
  rotate_left
  · rw [selectId_modifyId, if_neg (fun e : i = j => hi (e ▸ hj))]; exact h.others i hi
  obtain ⟨sl, h1, h2⟩ := h.slots i hi
  simp only [selectId_modifyId, h1, h2]
  split
  · exact ⟨_, rfl, rfl⟩
  · exact ⟨_, rfl, rfl⟩

theorem SameSlots.startCapture (h : SameSlots I K c c') {id : Nat} (hi : I.contains id = true) (p : Nat) :
    ∃ d d', c.startCapture id p = some d ∧ c'.startCapture id p = some d' ∧ SameSlots I K d d' := by
  have hm : id ∈ I := List.contains_iff_mem.1 hi
  have h0 : id ≠ 0 := fun e => h.positive (e ▸ hm)
  obtain ⟨sl, h1, h2⟩ := h.slots id hm
  exact ⟨_, _, by rw [Caps.startCapture, if_neg h0, if_pos (hasId_of_select h1)],
    by rw [Caps.startCapture, if_neg h0, if_pos (hasId_of_select h2)], h.modify hm _⟩

theorem SameSlots.endCapture (h : SameSlots I K c c') {id : Nat} (hi : I.contains id = true) (p : Nat) :
    ∃ d d', c.endCapture id p = some d ∧ c'.endCapture id p = some d' ∧ SameSlots I K d d' := by
  have hm : id ∈ I := List.contains_iff_mem.1 hi
  have h0 : id ≠ 0 := fun e => h.positive (e ▸ hm)
  obtain ⟨sl, h1, h2⟩ := h.slots id hm
  exact ⟨_, _, by rw [Caps.endCapture, if_neg h0, if_pos (hasId_of_select h1)],
    by rw [Caps.endCapture, if_neg h0, if_pos (hasId_of_select h2)], h.modify hm _⟩

theorem SameSlots.get (h : SameSlots I K c c') {id : Nat} (hi : id ∈ I) : c.get id = c'.get id := by
  have h0 : id ≠ 0 := fun e => h.positive (e ▸ hi)
  obtain ⟨sl, h1, h2⟩ := h.slots id hi
  rw [Caps.get, Caps.get, if_neg h0, if_neg h0, h1, h2]

theorem Out.Same.orElse {o o' x x' : Out} (h : o.Same I K o') (hx : x.Same I K x') : (o.orElse x).Same I K (o'.orElse x') := by
  cases o <;> cases o' <;> first | exact h.elim | exact hx | exact h

section
variable {body body' tail tail' : Nat → Caps → Out}

theorem step_slots (hb : ∀ p {c c'}, SameSlots I K c c' → (body p c).Same I K (body' p c')) (p : Nat) (h : SameSlots I K c c') :
    (step body p c).Same I K (step body' p c') := by
  have := hb p h
  unfold step
  cases h1 : body p c <;> cases h2 : body' p c' <;> rw [h1, h2] at this <;> first | exact this.elim | skip
  case ok.ok d d' =>
    have e : d.whole.e = d'.whole.e := by rw [SameSlots.whole this]
    simp only [e]
    cases d'.whole.e with
    | none => exact trivial
    | some q => exact ⟨rfl, SameSlots.unmatch this⟩
  all_goals exact trivial

theorem mandLoop_slots (hb : ∀ p {c c'}, SameSlots I K c c' → (body p c).Same I K (body' p c')) : ∀ (a p : Nat) {c c' : Caps},
    SameSlots I K c c' → (mandLoop body a p c).Same I K (mandLoop body' a p c')
  | 0, p, c, c', h => ⟨rfl, h⟩
  | a + 1, p, c, c', h => by
    have := step_slots hb p h
    unfold mandLoop
    cases h1 : step body p c <;> cases h2 : step body' p c' <;> rw [h1, h2] at this <;> first | exact this.elim | skip
    · exact this
    · obtain ⟨rfl, h3⟩ := this
      exact mandLoop_slots hb a _ h3

theorem lazyLoop_slots (hb : ∀ p {c c'}, SameSlots I K c c' → (body p c).Same I K (body' p c'))
    (ht : ∀ p {c c'}, SameSlots I K c c' → (tail p c).Same I K (tail' p c')) (b : Nat) : ∀ (m i p : Nat) {c c' : Caps},
    SameSlots I K c c' → (lazyLoop body tail b m i p c).Same I K (lazyLoop body' tail' b m i p c')
  | 0, i, p, c, c', h => trivial
  | m + 1, i, p, c, c', h => by
    unfold lazyLoop
    split
    · have := step_slots hb p h
      cases h1 : step body p c <;> cases h2 : step body' p c' <;> rw [h1, h2] at this <;> first | exact this.elim | skip
      · exact this
      · obtain ⟨rfl, h3⟩ := this
        exact Out.Same.orElse (ht _ h3) (lazyLoop_slots hb ht b m (i + 1) _ h3)
    · exact ht p h

theorem possLoop_slots (hb : ∀ p {c c'}, SameSlots I K c c' → (body p c).Same I K (body' p c')) (a b : Nat) : ∀ (m i p : Nat) {c c' : Caps},
    SameSlots I K c c' → (possLoop body a b m i p c).Same I K (possLoop body' a b m i p c')
  | 0, i, p, c, c', h => trivial
  | m + 1, i, p, c, c', h => by
    unfold possLoop
    split
    · have := step_slots hb p h
      cases h1 : step body p c <;> cases h2 : step body' p c' <;> rw [h1, h2] at this <;> first | exact this.elim | skip
      · rename_i o o'
        cases o <;> cases o' <;> first | exact (this : False).elim | skip
        case fail.fail =>
          simp only
          split
          · exact trivial
          · exact ⟨rfl, h⟩
        all_goals exact this
      · obtain ⟨rfl, h3⟩ := this
        exact possLoop_slots hb a b m (i + 1) _ h3
    · exact ⟨rfl, h⟩

theorem greedyRec_slots (hb : ∀ p {c c'}, SameSlots I K c c' → (body p c).Same I K (body' p c'))
    (ht : ∀ p {c c'}, SameSlots I K c c' → (tail p c).Same I K (tail' p c')) (b : Nat) : ∀ (m i p : Nat) {c c' : Caps},
    SameSlots I K c c' → (greedyRec body tail b m i p c).Same I K (greedyRec body' tail' b m i p c')
  | 0, i, p, c, c', h => trivial
  | m + 1, i, p, c, c', h => by
    unfold greedyRec
    split
    · have := step_slots hb p h
      cases h1 : step body p c <;> cases h2 : step body' p c' <;> rw [h1, h2] at this <;> first | exact this.elim | skip
      · rename_i o o'
        cases o <;> cases o' <;> first | exact (this : False).elim | skip
        case fail.fail => exact ht p h
        all_goals exact this
      · obtain ⟨rfl, h3⟩ := this
        exact Out.Same.orElse (greedyRec_slots hb ht b m (i + 1) _ h3) (ht p h)
    · exact ht p h
end

theorem stackIn_items {m : List Re} {t : Stack} (hm : numbersInAll I m = true) (ht : stackIn I t = true) : stackIn I (items m t) = true := by
  induction m with
  | nil => exact ht
  | cons r m ih =>
    simp only [numbersInAll, Bool.and_eq_true] at hm
    simp only [items, List.map_cons, List.cons_append, stackIn, List.all_cons, Item.numbersIn, hm.1, Bool.true_and]
    exact ih hm.2

theorem eval_slots (C : Cfg) : ∀ (n : Nat) (s : List Ch) (lb : Bool) (cur : Nat) (f : Flags) {c c' : Caps} (t : Stack), SameSlots I K c c' →
    stackIn I t = true → (eval C n s lb cur f c t).Same I K (eval C n s lb cur f c' t)
  | 0, s, lb, cur, f, c, c', t, h, ht => trivial
  | n + 1, s, lb, cur, f, c, c', st, h, hst => by
    have ih := fun s lb cur f {c c'} t => eval_slots C n s lb cur f (c := c) (c' := c') t
    have hb : ∀ (m : List Re), numbersInAll I m = true → ∀ p {d d'}, SameSlots I K d d' →
        (eval C n s lb p f.notEmpty d (items m [.endCycle])).Same I K (eval C n s lb p f.notEmpty d' (items m [.endCycle])) :=
      fun m hm p d d' hd => ih s lb p f.notEmpty _ hd (stackIn_items hm rfl)
    rcases st with _ | ⟨it, t⟩
    · exact trivial
    · simp only [stackIn, List.all_cons, Bool.and_eq_true] at hst
      obtain ⟨hi, hst⟩ := hst
      have hst : stackIn I t = true := hst
      have re2 : ∀ {r : Re} {t : Stack}, r.numbersIn I = true → stackIn I t = true → stackIn I (.re r :: t) = true := by
        intro r t h1 h2
        simp only [stackIn, List.all_cons, Item.numbersIn, h1, Bool.true_and]; exact h2
      cases it with
      | accept => cases t <;> first | exact h.setMatched | exact trivial
      | endCycle =>
        cases t with
        | nil =>
          simp only [eval_endCycle]
          split
          · exact trivial
          · split
            · exact trivial
            · exact (h.setEnd _).setMatched
        | cons => exact trivial
      | endAhead => cases t <;> first | exact h.setMatched | exact trivial
      | endBehind => cases t <;> first | exact h.setMatched | exact trivial
      | startMark =>
        simp only [eval_startMark]; split
        · exact trivial
        · exact ih _ _ _ _ _ (h.setStart _) hst
      | endMark =>
        simp only [eval_endMark]; split
        · exact trivial
        · exact ih _ _ _ _ _ (h.setEnd _) hst
      | numMark id =>
        obtain ⟨d, d', h1, h2, h3⟩ := h.endCapture hi cur
        simp only [eval_numMark, h1, h2]; split
        · exact trivial
        · exact ih _ _ _ _ _ h3 hst
      | re r =>
        have hr : r.numbersIn I = true := hi
        cases r with
        | cc cl =>
          simp only [eval_cc]
          split
          · exact trivial
          · split
            · exact trivial
            · split
              · exact ih _ _ _ _ _ h hst
              · exact trivial
        | any =>
          simp only [eval_any]
          split
          · exact trivial
          · split
            · split
              · exact trivial
              · split
                · exact trivial
                · exact ih _ _ _ _ _ h hst
            · exact ih _ _ _ _ _ h hst
        | str cs =>
          simp only [eval_str]
          split
          · exact trivial
          · exact trivial
          · exact ih _ _ _ _ _ h hst
        | sel l =>
          cases l with
          | nil => exact trivial
          | cons r opts =>
            simp only [Re.numbersIn, numbersInAll, Bool.and_eq_true] at hr
            simp only [eval_sel_cons]
            exact Out.Same.orElse (ih _ _ _ _ _ h (re2 hr.1 hst)) (ih _ _ _ _ _ h (re2 (r := .sel opts) hr.2 hst))
        | seq l =>
          rcases l with _ | ⟨r, _ | ⟨r', m⟩⟩
          · exact trivial
          · simp only [Re.numbersIn, numbersInAll, Bool.and_eq_true] at hr
            exact ih _ _ _ _ _ h (re2 hr.1 hst)
          · simp only [Re.numbersIn, numbersInAll] at hr
            rw [Bool.and_eq_true] at hr
            exact ih _ _ _ _ _ h (re2 hr.1 (re2 (r := .seq (r' :: m)) hr.2 hst))
        | empty => exact ih _ _ _ _ _ h hst
        | rep k a b m =>
          have hm : numbersInAll I m = true := hr
          cases k with
          | lazy =>
            simp only [eval_lazy]
            split
            · exact trivial
            · split
              · exact trivial
              · have := mandLoop_slots (hb m hm) a cur h
                revert this
                generalize mandLoop _ a cur c = x
                generalize mandLoop _ a cur c' = x'
                intro this
                cases x <;> cases x' <;> first | exact this.elim | skip
                · exact this
                · obtain ⟨rfl, h3⟩ := this
                  exact Out.Same.orElse (ih _ _ _ _ _ h3 hst)
                    (lazyLoop_slots (hb m hm) (fun p d d' hd => ih s lb p (f.consumed true) t hd hst) b n _ _ h3)
          | poss =>
            simp only [eval_poss]
            split
            · exact trivial
            · split
              · exact trivial
              · have := possLoop_slots (hb m hm) a b n 0 cur h
                revert this
                generalize possLoop _ a b n 0 cur c = x
                generalize possLoop _ a b n 0 cur c' = x'
                intro this
                cases x <;> cases x' <;> first | exact this.elim | skip
                · exact this
                · obtain ⟨rfl, h3⟩ := this
                  exact ih _ _ _ _ _ h3 hst
          | greedy =>
            simp only [eval_greedy, greedyRecRef_eq, ite_self]
            split
            · exact trivial
            · split
              · exact trivial
              · generalize (if C.greedyOpt = true then loopCollides m t else some true) = g
                rcases g with _ | _ | _
                · exact trivial
                · exact ih _ _ _ _ _ h (re2 (r := .rep .poss a b m) hm hst)
                · have := mandLoop_slots (hb m hm) a cur h
                  revert this
                  simp only
                  generalize mandLoop _ a cur c = x
                  generalize mandLoop _ a cur c' = x'
                  intro this
                  cases x <;> cases x' <;> first | exact this.elim | skip
                  · exact this
                  · obtain ⟨rfl, h3⟩ := this
                    exact greedyRec_slots (hb m hm) (fun p d d' hd => ih s lb p (f.consumed true) t hd hst) b n _ _ h3
        | cap id name m =>
          simp only [Re.numbersIn, Bool.and_eq_true] at hr
          obtain ⟨d, d', h1, h2, h3⟩ := h.startCapture hr.1 cur
          simp only [eval_cap, h1, h2]; split
          · exact trivial
          · refine ih _ _ _ _ _ h3 (re2 (r := .seq m) hr.2 ?_)
            simp only [stackIn, List.all_cons, Item.numbersIn, hr.1, Bool.true_and]; exact hst
        | bref id =>
          have := h.get (List.contains_iff_mem.1 hr)
          simp only [eval_bref, this]; split
          · exact trivial
          · split <;> first | exact trivial | exact ih _ _ _ _ _ h hst
        | brefName id => cases hr
        | ahead pos m =>
          have hm : numbersInAll I m = true := hr
          have := ih s lb cur f [.re (.seq m), .endAhead] h (re2 (r := .seq m) hm rfl)
          simp only [eval_ahead]
          revert this
          generalize eval C n s lb cur f c [.re (.seq m), .endAhead] = x
          generalize eval C n s lb cur f c' [.re (.seq m), .endAhead] = x'
          intro this
          cases x <;> cases x' <;> first | exact this.elim | skip
          case ok.ok =>
            simp only
            split
            · exact ih _ _ _ _ _ (SameSlots.unmatch this) hst
            · exact trivial
          case fail.fail =>
            simp only
            split
            · exact trivial
            · exact ih _ _ _ _ _ h hst
          all_goals exact trivial
        | behind pos m =>
          have hm : numbersInAll I m = true := hr
          have := ih s.reverse true (s.length - cur) f [.re (.seq m), .endBehind] h (re2 (r := .seq m) hm rfl)
          simp only [eval_behind]
          revert this
          generalize eval C n s.reverse true (s.length - cur) f c [.re (.seq m), .endBehind] = x
          generalize eval C n s.reverse true (s.length - cur) f c' [.re (.seq m), .endBehind] = x'
          intro this
          cases x <;> cases x' <;> first | exact this.elim | skip
          case ok.ok =>
            simp only
            split
            · exact ih _ _ _ _ _ (SameSlots.unmatch this) hst
            · exact trivial
          case fail.fail =>
            simp only
            split
            · exact trivial
            · exact ih _ _ _ _ _ h hst
          all_goals exact trivial
        | atomic m => exact ih _ _ _ _ _ h (re2 (r := .rep .poss 1 1 m) hr hst)
        | mode md => exact ih _ _ _ _ _ h hst
        | reject => exact trivial
        | boundary _ | notBoundary _ | sBegin | sEnd | sEndLine | lBegin | lEnd =>
          rw [eval_test (h := rfl), eval_test (h := rfl)]
          split
          · exact trivial
          · exact trivial
          · exact ih _ _ _ _ _ h hst

end Ctre
