import Verif.Lemmas.Slots
import Verif.Model.First
import Verif.Spec.Numbers

/-
Without back references the numbers of the groups have no influence on the run.
-/
namespace Ctre

/-- The same match; the groups with numbers in `I` exist in the first, the one with number 1 in the second. -/
structure SameWhole (I : List Nat) (c c' : Caps) : Prop where
  whole : c.whole = c'.whole
  positive : 0 ∉ I
  left : ∀ i ∈ I, hasId i c.groups = true
  right : hasId 1 c'.groups = true

def Out.SameW (I : List Nat) : Out → Out → Prop
  | .ok c, .ok c' => SameWhole I c c'
  | .fail, .fail => True
  | .ill, .ill => True
  | .ub, .ub => True
  | .timeout, .timeout => True
  | _, _ => False

def Loop.SameW (I : List Nat) : Loop → Loop → Prop
  | .stop o, .stop o' => o.SameW I o'
  | .go p c, .go p' c' => p = p' ∧ SameWhole I c c'
  | _, _ => False

def Item.bare : Item → Item
  | .re r => .re r.bare
  | .numMark _ => .numMark 1
  | i => i

mutual
/-- All groups have numbers in `I`, there are no references. -/
def Re.plainIn (I : List Nat) : Re → Bool
  | .sel l | .seq l | .rep _ _ _ l | .ahead _ l | .behind _ l | .atomic l => plainInAll I l
  | .cap id _ l => I.contains id && plainInAll I l
  | .bref _ | .brefName _ => false
  | _ => true

def plainInAll (I : List Nat) : List Re → Bool
  | [] => true
  | r :: l => r.plainIn I && plainInAll I l
end

mutual
theorem plainIn_of {I : List Nat} : ∀ {r : Re}, r.numbersIn I = true → r.refers = false → r.plainIn I = true
  | .sel _, h, h' | .seq _, h, h' | .rep _ _ _ _, h, h' | .ahead _ _, h, h' | .behind _ _, h, h' | .atomic _, h, h' =>
    plainInAll_of (by simpa [Re.numbersIn] using h) (by simpa [Re.refers] using h')
  | .cap id _ l, h, h' => by
    simp only [Re.numbersIn, Bool.and_eq_true] at h
    simp only [Re.plainIn, Bool.and_eq_true]
    exact ⟨h.1, plainInAll_of h.2 (by simpa [Re.refers] using h')⟩
  | .bref _, _, h' | .brefName _, _, h' => by simp [Re.refers] at h'
  | .cc _, _, _ | .any, _, _ | .str _, _, _ | .empty, _, _ | .mode _, _, _ | .reject _, _, _ | .boundary _, _, _ | .notBoundary _, _, _
  | .sBegin, _, _ | .sEnd, _, _ | .sEndLine, _, _ | .lBegin, _, _ | .lEnd, _, _ => rfl

theorem plainInAll_of {I : List Nat} : ∀ {l : List Re}, numbersInAll I l = true → refersAny l = false → plainInAll I l = true
  | [], _, _ => rfl
  | r :: l, h, h' => by
    simp only [numbersInAll, Bool.and_eq_true] at h
    simp only [refersAny, Bool.or_eq_false_iff] at h'
    simp only [plainInAll, Bool.and_eq_true]
    exact ⟨plainIn_of h.1 h'.1, plainInAll_of h.2 h'.2⟩
end

def Item.plainIn (I : List Nat) : Item → Bool
  | .re r => r.plainIn I
  | .numMark id => I.contains id
  | _ => true

def bareStack (t : Stack) : Stack := t.map Item.bare

/-- The numbers are in `I`, there are no references. -/
def stackPlain (I : List Nat) (t : Stack) : Bool := t.all (Item.plainIn I)

variable {I : List Nat} {c c' : Caps}

theorem bare_cons (i : Item) (t : Stack) : bareStack (i :: t) = i.bare :: bareStack t := rfl
theorem bare_nil : bareStack [] = [] := rfl

theorem bareAll_eq (l : List Re) : bareAll l = l.map Re.bare := by
  induction l with
  | nil => rfl
  | cons r l ih => rw [bareAll, ih]; rfl

theorem bareStack_items (m : List Re) (t : Stack) : bareStack (items m t) = items (bareAll m) (bareStack t) := by
  simp [bareStack, items, bareAll_eq, Item.bare, Function.comp_def]

mutual
theorem firstRe_bare {k k' : List FC → Option (List FC)} (hk : ∀ l, k' l = k l) (l : List FC) :
    ∀ r : Re, firstRe k' l r.bare = firstRe k l r
  | .cc _ | .any | .bref _ | .brefName _ | .notBoundary _ | .sEnd | .sEndLine | .lEnd | .mode _ | .reject _ => rfl
  | .str [] | .empty | .boundary _ | .sBegin | .lBegin => hk l
  | .str (_ :: _) => rfl
  | .sel opts => firstSel_bare hk l opts
  | .seq m | .cap _ _ m | .atomic m => firstSeq_bare hk l m
  | .ahead _ _ | .behind _ _ => rfl
  | .rep kd a b m => by
    simp only [Re.bare, firstRe, hk, firstSeq_bare hk _ m]

theorem firstSeq_bare {k k' : List FC → Option (List FC)} (hk : ∀ l, k' l = k l) (l : List FC) :
    ∀ m : List Re, firstSeq k' l (bareAll m) = firstSeq k l m
  | [] => hk l
  | r :: m => firstRe_bare (fun l' => firstSeq_bare hk l' m) l r

theorem firstSel_bare {k k' : List FC → Option (List FC)} (hk : ∀ l, k' l = k l) (l : List FC) :
    ∀ m : List Re, firstSel k' l (bareAll m) = firstSel k l m
  | [] => rfl
  | r :: m => by
    simp only [bareAll, firstSel, firstRe_bare hk l r]
    cases firstRe k l r with
    | none => rfl
    | some l' => exact firstSel_bare hk l' m
end

theorem first_bare : ∀ (t : Stack) (l : List FC), first (bareStack t) l = first t l
  | [], _ | .accept :: _, _ | .endMark :: _, _ | .endCycle :: _, _ | .endAhead :: _, _ | .startMark :: _, _ | .endBehind :: _, _ => rfl
  | .numMark _ :: t, l => first_bare t l
  | .re r :: t, l => firstRe_bare (first_bare t) l r

theorem loopCollides_bare (m : List Re) (t : Stack) : loopCollides (bareAll m) (bareStack t) = loopCollides m t := by
  have h1 := first_bare (items m []) []
  rw [bareStack_items] at h1
  unfold loopCollides
  rw [show items (bareAll m) [] = items (bareAll m) (bareStack []) from rfl, h1, first_bare]

theorem SameWhole.with {w w' : Slot} (h : SameWhole I c c') (hw : w = w') : SameWhole I { c with whole := w } { c' with whole := w' } :=
  ⟨hw, h.positive, h.left, h.right⟩

theorem SameWhole.setMatched (h : SameWhole I c c') : SameWhole I c.setMatched c'.setMatched := h.with (by rw [h.whole])
theorem SameWhole.unmatch (h : SameWhole I c c') : SameWhole I c.unmatch c'.unmatch := h.with (by rw [h.whole])
theorem SameWhole.setStart (h : SameWhole I c c') (p : Nat) : SameWhole I (c.setStart p) (c'.setStart p) := h.with (by rw [h.whole])
theorem SameWhole.setEnd (h : SameWhole I c c') (p : Nat) : SameWhole I (c.setEnd p) (c'.setEnd p) := h.with (by rw [h.whole])

theorem hasId_modifyId (i j : Nat) (f : Slot → Slot) : ∀ gs : List Group, hasId i (modifyId j f gs) = hasId i gs
  | [] => rfl
  | g :: gs => by
    simp only [modifyId]
    split
    · rfl
    · simp only [hasId, hasId_modifyId i j f gs]

theorem SameWhole.modify (h : SameWhole I c c') (j k : Nat) (f : Slot → Slot) :
    SameWhole I { c with groups := modifyId j f c.groups } { c' with groups := modifyId k f c'.groups } :=
  ⟨h.whole, h.positive, fun i hi => by rw [hasId_modifyId]; exact h.left i hi, by rw [hasId_modifyId]; exact h.right⟩

theorem SameWhole.startCapture (h : SameWhole I c c') {id : Nat} (hi : I.contains id = true) (p : Nat) :
    ∃ d d', c.startCapture id p = some d ∧ c'.startCapture 1 p = some d' ∧ SameWhole I d d' := by
  have hm : id ∈ I := List.contains_iff_mem.1 hi
  have h0 : id ≠ 0 := fun e => h.positive (e ▸ hm)
  exact ⟨_, _, by rw [Caps.startCapture, if_neg h0, if_pos (h.left _ hm)],
    by rw [Caps.startCapture, if_neg (by decide), if_pos h.right], h.modify _ _ _⟩

theorem SameWhole.endCapture (h : SameWhole I c c') {id : Nat} (hi : I.contains id = true) (p : Nat) :
    ∃ d d', c.endCapture id p = some d ∧ c'.endCapture 1 p = some d' ∧ SameWhole I d d' := by
  have hm : id ∈ I := List.contains_iff_mem.1 hi
  have h0 : id ≠ 0 := fun e => h.positive (e ▸ hm)
  exact ⟨_, _, by rw [Caps.endCapture, if_neg h0, if_pos (h.left _ hm)],
    by rw [Caps.endCapture, if_neg (by decide), if_pos h.right], h.modify _ _ _⟩

theorem Out.SameW.orElse {o o' x x' : Out} (h : o.SameW I o') (hx : x.SameW I x') : (o.orElse x).SameW I (o'.orElse x') := by
  cases o <;> cases o' <;> first | exact h.elim | exact hx | exact h

section
variable {body body' tail tail' : Nat → Caps → Out}

theorem step_bare (hb : ∀ p {c c'}, SameWhole I c c' → (body p c).SameW I (body' p c')) (p : Nat) (h : SameWhole I c c') :
    (step body p c).SameW I (step body' p c') := by
  have := hb p h
  unfold step
  cases h1 : body p c <;> cases h2 : body' p c' <;> rw [h1, h2] at this <;> first | exact this.elim | skip
  case ok.ok d d' =>
    have e : d.whole.e = d'.whole.e := by rw [SameWhole.whole this]
    simp only [e]
    cases d'.whole.e with
    | none => exact trivial
    | some q => exact ⟨rfl, SameWhole.unmatch this⟩
  all_goals exact trivial

theorem mandLoop_bare (hb : ∀ p {c c'}, SameWhole I c c' → (body p c).SameW I (body' p c')) : ∀ (a p : Nat) {c c' : Caps},
    SameWhole I c c' → (mandLoop body a p c).SameW I (mandLoop body' a p c')
  | 0, p, c, c', h => ⟨rfl, h⟩
  | a + 1, p, c, c', h => by
    have := step_bare hb p h
    unfold mandLoop
    cases h1 : step body p c <;> cases h2 : step body' p c' <;> rw [h1, h2] at this <;> first | exact this.elim | skip
    · exact this
    · obtain ⟨rfl, h3⟩ := this
      exact mandLoop_bare hb a _ h3

theorem lazyLoop_bare (hb : ∀ p {c c'}, SameWhole I c c' → (body p c).SameW I (body' p c'))
    (ht : ∀ p {c c'}, SameWhole I c c' → (tail p c).SameW I (tail' p c')) (b : Nat) : ∀ (m i p : Nat) {c c' : Caps},
    SameWhole I c c' → (lazyLoop body tail b m i p c).SameW I (lazyLoop body' tail' b m i p c')
  | 0, i, p, c, c', h => trivial
  | m + 1, i, p, c, c', h => by
    unfold lazyLoop
    split
    · have := step_bare hb p h
      cases h1 : step body p c <;> cases h2 : step body' p c' <;> rw [h1, h2] at this <;> first | exact this.elim | skip
      · exact this
      · obtain ⟨rfl, h3⟩ := this
        exact Out.SameW.orElse (ht _ h3) (lazyLoop_bare hb ht b m (i + 1) _ h3)
    · exact ht p h

theorem possLoop_bare (hb : ∀ p {c c'}, SameWhole I c c' → (body p c).SameW I (body' p c')) (a b : Nat) : ∀ (m i p : Nat) {c c' : Caps},
    SameWhole I c c' → (possLoop body a b m i p c).SameW I (possLoop body' a b m i p c')
  | 0, i, p, c, c', h => trivial
  | m + 1, i, p, c, c', h => by
    unfold possLoop
    split
    · have := step_bare hb p h
      cases h1 : step body p c <;> cases h2 : step body' p c' <;> rw [h1, h2] at this <;> first | exact this.elim | skip
      · rename_i o o'
        cases o <;> cases o' <;> first | exact (this : False).elim | skip
        case fail.fail =>
          simp only
          split
          · exact trivial
          · exact ⟨rfl, h⟩
        all_goals exact this
      · obtain ⟨rfl, h3⟩ := this
        exact possLoop_bare hb a b m (i + 1) _ h3
    · exact ⟨rfl, h⟩

theorem greedyRec_bare (hb : ∀ p {c c'}, SameWhole I c c' → (body p c).SameW I (body' p c'))
    (ht : ∀ p {c c'}, SameWhole I c c' → (tail p c).SameW I (tail' p c')) (b : Nat) : ∀ (m i p : Nat) {c c' : Caps},
    SameWhole I c c' → (greedyRec body tail b m i p c).SameW I (greedyRec body' tail' b m i p c')
  | 0, i, p, c, c', h => trivial
  | m + 1, i, p, c, c', h => by
    unfold greedyRec
    split
    · have := step_bare hb p h
      cases h1 : step body p c <;> cases h2 : step body' p c' <;> rw [h1, h2] at this <;> first | exact this.elim | skip
      · rename_i o o'
        cases o <;> cases o' <;> first | exact (this : False).elim | skip
        case fail.fail => exact ht p h
        all_goals exact this
      · obtain ⟨rfl, h3⟩ := this
        exact Out.SameW.orElse (greedyRec_bare hb ht b m (i + 1) _ h3) (ht p h)
    · exact ht p h
end

theorem stackPlain_items {m : List Re} {t : Stack} (hm : plainInAll I m = true) (ht : stackPlain I t = true) :
    stackPlain I (items m t) = true := by
  induction m with
  | nil => exact ht
  | cons r m ih =>
    simp only [plainInAll, Bool.and_eq_true] at hm
    simp only [items, List.map_cons, List.cons_append, stackPlain, List.all_cons, Item.plainIn, hm.1, Bool.true_and]
    exact ih hm.2

theorem eval_bare (C : Cfg) : ∀ (n : Nat) (s : List Ch) (lb : Bool) (cur : Nat) (f : Flags) {c c' : Caps} (t : Stack), SameWhole I c c' →
    stackPlain I t = true → (eval C n s lb cur f c t).SameW I (eval C n s lb cur f c' (bareStack t))
  | 0, s, lb, cur, f, c, c', t, h, ht => trivial
  | n + 1, s, lb, cur, f, c, c', st, h, hst => by
    have ih := fun s lb cur f {c c'} t => eval_bare C n s lb cur f (c := c) (c' := c') t
    have hb : ∀ (m : List Re), plainInAll I m = true → ∀ p {d d'}, SameWhole I d d' →
        (eval C n s lb p f.notEmpty d (items m [.endCycle])).SameW I (eval C n s lb p f.notEmpty d' (items (bareAll m) [.endCycle])) := by
      intro m hm p d d' hd
      have := ih s lb p f.notEmpty (items m [.endCycle]) hd (stackPlain_items hm rfl)
      rwa [bareStack_items] at this
    rcases st with _ | ⟨it, t⟩
    · exact trivial
    · simp only [stackPlain, List.all_cons, Bool.and_eq_true] at hst
      obtain ⟨hi, hst⟩ := hst
      have hst : stackPlain I t = true := hst
      have re2 : ∀ {r : Re} {t : Stack}, r.plainIn I = true → stackPlain I t = true → stackPlain I (.re r :: t) = true := by
        intro r t h1 h2
        simp only [stackPlain, List.all_cons, Item.plainIn, h1, Bool.true_and]; exact h2
      cases it with
      | accept => cases t <;> first | exact h.setMatched | exact trivial
      | endCycle =>
        cases t with
        | nil =>
          simp only [bare_cons, bare_nil, Item.bare, Re.bare, bareAll, eval_endCycle]
          split
          · exact trivial
          · split
            · exact trivial
            · exact (h.setEnd _).setMatched
        | cons => exact trivial
      | endAhead => cases t <;> first | exact h.setMatched | exact trivial
      | endBehind => cases t <;> first | exact h.setMatched | exact trivial
      | startMark =>
        simp only [bare_cons, bare_nil, Item.bare, Re.bare, bareAll, eval_startMark]; split
        · exact trivial
        · exact ih _ _ _ _ _ (h.setStart _) hst
      | endMark =>
        simp only [bare_cons, bare_nil, Item.bare, Re.bare, bareAll, eval_endMark]; split
        · exact trivial
        · exact ih _ _ _ _ _ (h.setEnd _) hst
      | numMark id =>
        obtain ⟨d, d', h1, h2, h3⟩ := h.endCapture hi cur
        simp only [bare_cons, bare_nil, Item.bare, Re.bare, bareAll, eval_numMark, h1, h2]; split
        · exact trivial
        · exact ih _ _ _ _ _ h3 hst
      | re r =>
        have hr : r.plainIn I = true := hi
        cases r with
        | cc cl =>
          simp only [bare_cons, bare_nil, Item.bare, Re.bare, bareAll, eval_cc]
          split
          · exact trivial
          · split
            · exact trivial
            · split
              · exact ih _ _ _ _ _ h hst
              · exact trivial
        | any =>
          simp only [bare_cons, bare_nil, Item.bare, Re.bare, bareAll, eval_any]
          split
          · exact trivial
          · split
            · split
              · exact trivial
              · split
                · exact trivial
                · exact ih _ _ _ _ _ h hst
            · exact ih _ _ _ _ _ h hst
        | str cs =>
          simp only [bare_cons, bare_nil, Item.bare, Re.bare, bareAll, eval_str]
          split
          · exact trivial
          · exact trivial
          · exact ih _ _ _ _ _ h hst
        | sel l =>
          cases l with
          | nil => exact trivial
          | cons r opts =>
            simp only [Re.plainIn, plainInAll, Bool.and_eq_true] at hr
            simp only [bare_cons, bare_nil, Item.bare, Re.bare, bareAll, eval_sel_cons]
            exact Out.SameW.orElse (ih _ _ _ _ _ h (re2 hr.1 hst)) (ih _ _ _ _ _ h (re2 (r := .sel opts) hr.2 hst))
        | seq l =>
          rcases l with _ | ⟨r, _ | ⟨r', m⟩⟩
          · exact trivial
          · simp only [Re.plainIn, plainInAll, Bool.and_eq_true] at hr
            exact ih _ _ _ _ _ h (re2 hr.1 hst)
          · simp only [Re.plainIn, plainInAll] at hr
            rw [Bool.and_eq_true] at hr
            exact ih _ _ _ _ _ h (re2 hr.1 (re2 (r := .seq (r' :: m)) hr.2 hst))
        | empty => exact ih _ _ _ _ _ h hst
        | rep k a b m =>
          have hm : plainInAll I m = true := hr
          cases k with
          | lazy =>
            simp only [bare_cons, bare_nil, Item.bare, Re.bare, bareAll, eval_lazy]
            split
            · exact trivial
            · split
              · exact trivial
              · have := mandLoop_bare (hb m hm) a cur h
                revert this
                generalize mandLoop _ a cur c = x
                generalize mandLoop _ a cur c' = x'
                intro this
                cases x <;> cases x' <;> first | exact this.elim | skip
                · exact this
                · obtain ⟨rfl, h3⟩ := this
                  exact Out.SameW.orElse (ih _ _ _ _ _ h3 hst)
                    (lazyLoop_bare (hb m hm) (fun p d d' hd => ih s lb p (f.consumed true) t hd hst) b n _ _ h3)
          | poss =>
            simp only [bare_cons, bare_nil, Item.bare, Re.bare, bareAll, eval_poss]
            split
            · exact trivial
            · split
              · exact trivial
              · have := possLoop_bare (hb m hm) a b n 0 cur h
                revert this
                generalize possLoop _ a b n 0 cur c = x
                generalize possLoop _ a b n 0 cur c' = x'
                intro this
                cases x <;> cases x' <;> first | exact this.elim | skip
                · exact this
                · obtain ⟨rfl, h3⟩ := this
                  exact ih _ _ _ _ _ h3 hst
          | greedy =>
            simp only [bare_cons, bare_nil, Item.bare, Re.bare, bareAll, eval_greedy, greedyRecRef_eq, ite_self]
            split
            · exact trivial
            · split
              · exact trivial
              · rw [loopCollides_bare]
                generalize (if C.greedyOpt = true then loopCollides m t else some true) = g
                rcases g with _ | _ | _
                · exact trivial
                · exact ih _ _ _ _ _ h (re2 (r := .rep .poss a b m) hm hst)
                · have := mandLoop_bare (hb m hm) a cur h
                  revert this
                  simp only
                  generalize mandLoop _ a cur c = x
                  generalize mandLoop _ a cur c' = x'
                  intro this
                  cases x <;> cases x' <;> first | exact this.elim | skip
                  · exact this
                  · obtain ⟨rfl, h3⟩ := this
                    exact greedyRec_bare (hb m hm) (fun p d d' hd => ih s lb p (f.consumed true) t hd hst) b n _ _ h3
        | cap id name m =>
          simp only [Re.plainIn, Bool.and_eq_true] at hr
          obtain ⟨d, d', h1, h2, h3⟩ := h.startCapture hr.1 cur
          simp only [bare_cons, bare_nil, Item.bare, Re.bare, bareAll, eval_cap, h1, h2]; split
          · exact trivial
          · refine ih _ _ _ _ _ h3 (re2 (r := .seq m) hr.2 ?_)
            simp only [stackPlain, List.all_cons, Item.plainIn, hr.1, Bool.true_and]; exact hst
        | bref id => cases hr
        | brefName id => cases hr
        | ahead pos m =>
          have hm : plainInAll I m = true := hr
          have : Out.SameW I (eval C n s lb cur f c [.re (.seq m), .endAhead]) (eval C n s lb cur f c' [.re (.seq (bareAll m)), .endAhead]) :=
            ih s lb cur f [.re (.seq m), .endAhead] h (re2 (r := .seq m) hm rfl)
          simp only [bare_cons, bare_nil, Item.bare, Re.bare, bareAll, eval_ahead]
          revert this
          generalize eval C n s lb cur f c [.re (.seq m), .endAhead] = x
          generalize eval C n s lb cur f c' [.re (.seq (bareAll m)), .endAhead] = x'
          intro this
          cases x <;> cases x' <;> first | exact this.elim | skip
          case ok.ok =>
            simp only
            split
            · exact ih _ _ _ _ _ (SameWhole.unmatch this) hst
            · exact trivial
          case fail.fail =>
            simp only
            split
            · exact trivial
            · exact ih _ _ _ _ _ h hst
          all_goals exact trivial
        | behind pos m =>
          have hm : plainInAll I m = true := hr
          have : Out.SameW I (eval C n s.reverse true (s.length - cur) f c [.re (.seq m), .endBehind]) (eval C n s.reverse true (s.length - cur) f c' [.re (.seq (bareAll m)), .endBehind]) :=
            ih s.reverse true (s.length - cur) f [.re (.seq m), .endBehind] h (re2 (r := .seq m) hm rfl)
          simp only [bare_cons, bare_nil, Item.bare, Re.bare, bareAll, eval_behind]
          revert this
          generalize eval C n s.reverse true (s.length - cur) f c [.re (.seq m), .endBehind] = x
          generalize eval C n s.reverse true (s.length - cur) f c' [.re (.seq (bareAll m)), .endBehind] = x'
          intro this
          cases x <;> cases x' <;> first | exact this.elim | skip
          case ok.ok =>
            simp only
            split
            · exact ih _ _ _ _ _ (SameWhole.unmatch this) hst
            · exact trivial
          case fail.fail =>
            simp only
            split
            · exact trivial
            · exact ih _ _ _ _ _ h hst
          all_goals exact trivial
        | atomic m => exact ih _ _ _ _ _ h (re2 (r := .rep .poss 1 1 m) hr hst)
        | mode md => exact ih _ _ _ _ _ h hst
        | reject => exact trivial
        | boundary _ | notBoundary _ | sBegin | sEnd | sEndLine | lBegin | lEnd =>
          simp only [bare_cons, Item.bare, Re.bare]
          rw [eval_test (h := rfl), eval_test (h := rfl)]
          split
          · exact trivial
          · exact trivial
          · exact ih _ _ _ _ _ h hst

end Ctre
