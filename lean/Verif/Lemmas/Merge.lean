import Verif.Lemmas.Renumber

/-
A pattern followed by one whose groups have the same numbers, compared with the one in which they have other numbers.
-/
namespace Ctre

/-! ### Loops -/

def Out.Rel (R : Caps → Caps → Prop) : Out → Out → Prop
  | .ok c, .ok c' => R c c'
  | .fail, .fail => True
  | .ill, .ill => True
  | .ub, .ub => True
  | .timeout, .timeout => True
  | _, _ => False

def Loop.Rel (R : Caps → Caps → Prop) : Loop → Loop → Prop
  | .stop o, .stop o' => o = o' ∧ ∀ c, o ≠ .ok c
  | .go p c, .go p' c' => p = p' ∧ R c c'
  | _, _ => False

/-- The relation determines the match, and does not depend on whether it is complete. -/
structure Stable (R : Caps → Caps → Prop) : Prop where
  whole : ∀ {c c'}, R c c' → c.whole = c'.whole
  unmatch : ∀ {c c'}, R c c' → R c.unmatch c'.unmatch

section
variable {R Q : Caps → Caps → Prop} {c c' : Caps} {body body' tail tail' : Nat → Caps → Out}

theorem Out.Rel.refl_of {o : Out} (h : ∀ c, o ≠ .ok c) : o.Rel Q o := by
  cases o <;> first | exact (h _ rfl).elim | exact trivial

theorem Out.Rel.orElse {o o' x x' : Out} (h : o.Rel Q o') (hx : x.Rel Q x') : (o.orElse x).Rel Q (o'.orElse x') := by
  cases o <;> cases o' <;> first | exact h.elim | exact hx | exact h

theorem step_rel (hR : Stable R) (hb : ∀ p {c c'}, R c c' → (body p c).Rel R (body' p c')) (p : Nat) (h : R c c') :
    (step body p c).Rel R (step body' p c') := by
  have := hb p h
  unfold step
  cases h1 : body p c <;> cases h2 : body' p c' <;> rw [h1, h2] at this <;> first | exact this.elim | skip
  case ok.ok d d' =>
    have e : d.whole.e = d'.whole.e := by rw [hR.whole this]
    simp only [e]
    cases d'.whole.e with
    | none => exact ⟨rfl, by simp⟩
    | some q => exact ⟨rfl, hR.unmatch this⟩
  all_goals exact ⟨rfl, by simp⟩

theorem mandLoop_rel (hR : Stable R) (hb : ∀ p {c c'}, R c c' → (body p c).Rel R (body' p c')) : ∀ (a p : Nat) {c c' : Caps},
    R c c' → (mandLoop body a p c).Rel R (mandLoop body' a p c')
  | 0, p, c, c', h => ⟨rfl, h⟩
  | a + 1, p, c, c', h => by
    have := step_rel hR hb p h
    unfold mandLoop
    cases h1 : step body p c <;> cases h2 : step body' p c' <;> rw [h1, h2] at this <;> first | exact this.elim | skip
    · exact this
    · obtain ⟨rfl, h3⟩ := this
      exact mandLoop_rel hR hb a _ h3

theorem lazyLoop_rel (hR : Stable R) (hb : ∀ p {c c'}, R c c' → (body p c).Rel R (body' p c'))
    (ht : ∀ p {c c'}, R c c' → (tail p c).Rel Q (tail' p c')) (b : Nat) : ∀ (m i p : Nat) {c c' : Caps},
    R c c' → (lazyLoop body tail b m i p c).Rel Q (lazyLoop body' tail' b m i p c')
  | 0, i, p, c, c', h => trivial
  | m + 1, i, p, c, c', h => by
    unfold lazyLoop
    split
    · have := step_rel hR hb p h
      cases h1 : step body p c <;> cases h2 : step body' p c' <;> rw [h1, h2] at this <;> first | exact this.elim | skip
      · obtain ⟨rfl, h3⟩ := this
        exact Out.Rel.refl_of h3
      · obtain ⟨rfl, h3⟩ := this
        exact Out.Rel.orElse (ht _ h3) (lazyLoop_rel hR hb ht b m (i + 1) _ h3)
    · exact ht p h

theorem possLoop_rel (hR : Stable R) (hb : ∀ p {c c'}, R c c' → (body p c).Rel R (body' p c')) (a b : Nat) : ∀ (m i p : Nat) {c c' : Caps},
    R c c' → (possLoop body a b m i p c).Rel R (possLoop body' a b m i p c')
  | 0, i, p, c, c', h => ⟨rfl, by simp⟩
  | m + 1, i, p, c, c', h => by
    unfold possLoop
    split
    · have := step_rel hR hb p h
      cases h1 : step body p c <;> cases h2 : step body' p c' <;> rw [h1, h2] at this <;> first | exact this.elim | skip
      · obtain ⟨rfl, h3⟩ := this
        rename_i o
        cases o
        case fail =>
          simp only
          split
          · exact ⟨rfl, by simp⟩
          · exact ⟨rfl, h⟩
        case ok => exact (h3 _ rfl).elim
        all_goals exact ⟨rfl, by simp⟩
      · obtain ⟨rfl, h3⟩ := this
        exact possLoop_rel hR hb a b m (i + 1) _ h3
    · exact ⟨rfl, h⟩

theorem greedyRec_rel (hR : Stable R) (hb : ∀ p {c c'}, R c c' → (body p c).Rel R (body' p c'))
    (ht : ∀ p {c c'}, R c c' → (tail p c).Rel Q (tail' p c')) (b : Nat) : ∀ (m i p : Nat) {c c' : Caps},
    R c c' → (greedyRec body tail b m i p c).Rel Q (greedyRec body' tail' b m i p c')
  | 0, i, p, c, c', h => trivial
  | m + 1, i, p, c, c', h => by
    unfold greedyRec
    split
    · have := step_rel hR hb p h
      cases h1 : step body p c <;> cases h2 : step body' p c' <;> rw [h1, h2] at this <;> first | exact this.elim | skip
      · obtain ⟨rfl, h3⟩ := this
        rename_i o
        cases o
        case fail => exact ht p h
        case ok => exact (h3 _ rfl).elim
        all_goals exact trivial
      · obtain ⟨rfl, h3⟩ := this
        exact Out.Rel.orElse (greedyRec_rel hR hb ht b m (i + 1) _ h3) (ht p h)
    · exact ht p h
end

/-! ### The second pattern -/

/-- The groups `i` of the first are the groups `i + k` of the second, if these have been entered, and have the slots `K i` otherwise; in the
groups `O`, which are entered and not left yet, only the begin is set. -/
structure Merge (k : Nat) (B : List Nat) (K : Nat → Slot) (N L : Nat → Option Slot) (O : List Nat) (c c' : Caps) : Prop where
  whole : c.whole = c'.whole
  positive : 0 ∉ B
  slots : ∀ i ∈ B, ∃ sl own, selectId i c.groups = some sl ∧ selectId (i + k) c'.groups = some own ∧
    ((own = {} ∧ sl = K i ∧ i ∉ O) ∨ (own.b = sl.b ∧ (i ∉ O → own = sl ∧ own.matched = true)))
  others : ∀ i, i ∉ B → selectId i c.groups = N i
  others' : ∀ j, (∀ i ∈ B, j ≠ i + k) → selectId j c'.groups = L j

section
variable {k : Nat} {B O : List Nat} {K : Nat → Slot} {N L : Nat → Option Slot} {c c' : Caps}

theorem Merge.with {w w' : Slot} (h : Merge k B K N L O c c') (hw : w = w') :
    Merge k B K N L O { c with whole := w } { c' with whole := w' } :=
  ⟨hw, h.positive, h.slots, h.others, h.others'⟩

theorem Merge.setMatched (h : Merge k B K N L O c c') : Merge k B K N L O c.setMatched c'.setMatched := h.with (by rw [h.whole])
theorem Merge.unmatch (h : Merge k B K N L O c c') : Merge k B K N L O c.unmatch c'.unmatch := h.with (by rw [h.whole])
theorem Merge.setStart (h : Merge k B K N L O c c') (p : Nat) : Merge k B K N L O (c.setStart p) (c'.setStart p) := h.with (by rw [h.whole])
theorem Merge.setEnd (h : Merge k B K N L O c c') (p : Nat) : Merge k B K N L O (c.setEnd p) (c'.setEnd p) := h.with (by rw [h.whole])

theorem Merge.stable : Stable (Merge k B K N L O) := ⟨fun h => h.whole, fun h => h.unmatch⟩

theorem Merge.startCapture (h : Merge k B K N L O c c') {id : Nat} (hi : B.contains id = true) (p : Nat) :
    ∃ d d', c.startCapture id p = some d ∧ c'.startCapture (id + k) p = some d' ∧ Merge k B K N L (id :: O) d d' := by
  have hm : id ∈ B := List.contains_iff_mem.1 hi
  have h0 : id ≠ 0 := fun e => h.positive (e ▸ hm)
  obtain ⟨sl, own, h1, h2, h3⟩ := h.slots id hm
  refine ⟨{ c with groups := modifyId id (fun s => { s with b := some p }) c.groups }, { c' with groups := modifyId (id + k) (fun s => { s with b := some p }) c'.groups },
    by rw [Caps.startCapture, if_neg h0, if_pos (hasId_of_select h1)],
    by rw [Caps.startCapture, if_neg (by omega), if_pos (hasId_of_select h2)], h.whole, h.positive, fun i hi => ?_, fun i hi => ?_, fun j hj => ?_⟩
  · simp only [selectId_modifyId]
    by_cases e : i = id
    · subst e
      simp only [if_true, h1, h2, Option.map_some]
      exact ⟨_, _, rfl, rfl, .inr ⟨rfl, fun hn => (hn (by simp)).elim⟩⟩
    · rw [if_neg e, if_neg (by omega)]
      obtain ⟨sl, own, g1, g2, g3⟩ := h.slots i hi
      refine ⟨sl, own, g1, g2, ?_⟩
      rcases g3 with ⟨g3, g4, g5⟩ | ⟨g3, g4⟩
      · exact .inl ⟨g3, g4, by simp [e, g5]⟩
      · exact .inr ⟨g3, fun hn => g4 fun hO => hn (by simp [hO])⟩
  · rw [selectId_modifyId, if_neg (fun e : i = id => hi (e ▸ hm))]
    exact h.others i hi
  · rw [selectId_modifyId, if_neg (hj id hm)]
    exact h.others' j hj

theorem Merge.endCapture {id : Nat} (h : Merge k B K N L (id :: O) c c') (hi : B.contains id = true) (p : Nat) :
    ∃ d d', c.endCapture id p = some d ∧ c'.endCapture (id + k) p = some d' ∧ Merge k B K N L O d d' := by
  have hm : id ∈ B := List.contains_iff_mem.1 hi
  have h0 : id ≠ 0 := fun e => h.positive (e ▸ hm)
  obtain ⟨sl, own, h1, h2, h3⟩ := h.slots id hm
  refine ⟨{ c with groups := modifyId id (fun s => { s with e := some p, matched := true }) c.groups }, { c' with groups := modifyId (id + k) (fun s => { s with e := some p, matched := true }) c'.groups },
    by rw [Caps.endCapture, if_neg h0, if_pos (hasId_of_select h1)],
    by rw [Caps.endCapture, if_neg (by omega), if_pos (hasId_of_select h2)], h.whole, h.positive, fun i hi => ?_, fun i hi => ?_, fun j hj => ?_⟩
  · simp only [selectId_modifyId]
    by_cases e : i = id
    · subst e
      simp only [if_true, h1, h2, Option.map_some]
      rcases h3 with ⟨_, _, g⟩ | ⟨g, _⟩
      · exact (g (by simp)).elim
      · exact ⟨_, _, rfl, rfl, .inr ⟨g, fun _ => ⟨by rw [g], rfl⟩⟩⟩
    · rw [if_neg e, if_neg (by omega)]
      obtain ⟨sl, own, g1, g2, g3⟩ := h.slots i hi
      refine ⟨sl, own, g1, g2, ?_⟩
      rcases g3 with ⟨g3, g4, g5⟩ | ⟨g3, g4⟩
      · exact .inl ⟨g3, g4, fun hO => g5 (by simp [hO])⟩
      · exact .inr ⟨g3, fun hn => g4 (by simp [e, hn])⟩
  · rw [selectId_modifyId, if_neg (fun e : i = id => hi (e ▸ hm))]
    exact h.others i hi
  · rw [selectId_modifyId, if_neg (hj id hm)]
    exact h.others' j hj
end

def Item.shift (k : Nat) : Item → Item
  | .re r => .re (r.shift k)
  | .numMark id => .numMark (id + k)
  | i => i

def shiftStack (k : Nat) (t : Stack) : Stack := t.map (Item.shift k)

/-- The groups that are left on the stack. -/
def openMarks : Stack → List Nat
  | [] => []
  | .numMark id :: t => id :: openMarks t
  | _ :: t => openMarks t

theorem shift_cons (k : Nat) (i : Item) (t : Stack) : shiftStack k (i :: t) = i.shift k :: shiftStack k t := rfl
theorem shift_nil (k : Nat) : shiftStack k [] = [] := rfl

theorem shiftAll_eq (k : Nat) (l : List Re) : shiftAll k l = l.map (Re.shift k) := by
  induction l with
  | nil => rfl
  | cons r l ih => rw [shiftAll, ih]; rfl

theorem shiftStack_items (k : Nat) (m : List Re) (t : Stack) : shiftStack k (items m t) = items (shiftAll k m) (shiftStack k t) := by
  simp [shiftStack, items, shiftAll_eq, Item.shift, Function.comp_def]

theorem openMarks_items (m : List Re) (t : Stack) : openMarks (items m t) = openMarks t := by
  induction m with
  | nil => rfl
  | cons r m ih => exact ih

mutual
theorem bare_shift (k : Nat) : ∀ r : Re, (r.shift k).bare = r.bare
  | .sBegin | .lBegin | .boundary _ | .cc _ | .any | .str _ | .empty | .bref _ | .brefName _ | .notBoundary _
  | .sEnd | .sEndLine | .lEnd | .mode _ | .reject _ => rfl
  | .ahead _ l | .behind _ l | .atomic l | .sel l | .seq l | .rep _ _ _ l | .cap _ _ l => by
    simp only [Re.shift, Re.bare, bareAll_shift k l]

theorem bareAll_shift (k : Nat) : ∀ l : List Re, bareAll (shiftAll k l) = bareAll l
  | [] => rfl
  | r :: l => by simp only [shiftAll, bareAll, bare_shift k r, bareAll_shift k l]
end

theorem bareStack_shift (k : Nat) (t : Stack) : bareStack (shiftStack k t) = bareStack t := by
  induction t with
  | nil => rfl
  | cons i t ih =>
    rw [shift_cons, bare_cons, bare_cons, ih]
    cases i <;> simp only [Item.shift, Item.bare, bare_shift]

theorem loopCollides_shift (k : Nat) (m : List Re) (t : Stack) : loopCollides (shiftAll k m) (shiftStack k t) = loopCollides m t := by
  rw [← loopCollides_bare (shiftAll k m), bareAll_shift, bareStack_shift, loopCollides_bare]

variable {k : Nat} {B : List Nat} {K : Nat → Slot} {N L : Nat → Option Slot}

theorem eval_merge (C : Cfg) : ∀ (n : Nat) (s : List Ch) (lb : Bool) (cur : Nat) (f : Flags) {c c' : Caps} (t : Stack) (P : List Nat),
    Merge k B K N L (openMarks t ++ P) c c' → stackPlain B t = true →
    (eval C n s lb cur f c t).Rel (Merge k B K N L P) (eval C n s lb cur f c' (shiftStack k t))
  | 0, s, lb, cur, f, c, c', t, P, h, ht => trivial
  | n + 1, s, lb, cur, f, c, c', st, P, h, hst => by
    have ih := fun s lb cur f {c c'} t P => eval_merge C n s lb cur f (c := c) (c' := c') t P
    have hb : ∀ (P' : List Nat) (m : List Re), plainInAll B m = true → ∀ p {d d'}, Merge k B K N L P' d d' →
        (eval C n s lb p f.notEmpty d (items m [.endCycle])).Rel (Merge k B K N L P')
          (eval C n s lb p f.notEmpty d' (items (shiftAll k m) [.endCycle])) := by
      intro P' m hm p d d' hd
      have := ih s lb p f.notEmpty (items m [.endCycle]) P' (by rw [openMarks_items]; exact hd) (stackPlain_items hm rfl)
      rwa [shiftStack_items] at this
    rcases st with _ | ⟨it, t⟩
    · exact trivial
    · simp only [stackPlain, List.all_cons, Bool.and_eq_true] at hst
      obtain ⟨hi, hst⟩ := hst
      have hst : stackPlain B t = true := hst
      have re2 : ∀ {r : Re} {t : Stack}, r.plainIn B = true → stackPlain B t = true → stackPlain B (.re r :: t) = true := by
        intro r t h1 h2
        simp only [stackPlain, List.all_cons, Item.plainIn, h1, Bool.true_and]; exact h2
      cases it with
      | accept => cases t <;> first | exact h.setMatched | exact trivial
      | endCycle =>
        cases t with
        | nil =>
          simp only [shift_cons, shift_nil, Item.shift, Re.shift, shiftAll, eval_endCycle]
          split
          · exact trivial
          · split
            · exact trivial
            · exact (h.setEnd _).setMatched
        | cons => exact trivial
      | endAhead => cases t <;> first | exact h.setMatched | exact trivial
      | endBehind => cases t <;> first | exact h.setMatched | exact trivial
      | startMark =>
        simp only [shift_cons, shift_nil, Item.shift, Re.shift, shiftAll, eval_startMark]; split
        · exact trivial
        · exact ih _ _ _ _ _ _ (h.setStart _) hst
      | endMark =>
        simp only [shift_cons, shift_nil, Item.shift, Re.shift, shiftAll, eval_endMark]; split
        · exact trivial
        · exact ih _ _ _ _ _ _ (h.setEnd _) hst
      | numMark id =>
        obtain ⟨d, d', h1, h2, h3⟩ := h.endCapture hi cur
        simp only [shift_cons, shift_nil, Item.shift, Re.shift, shiftAll, eval_numMark, h1, h2]; split
        · exact trivial
        · exact ih _ _ _ _ _ _ h3 hst
      | re r =>
        have hr : r.plainIn B = true := hi
        cases r with
        | cc cl =>
          simp only [shift_cons, shift_nil, Item.shift, Re.shift, shiftAll, eval_cc]
          split
          · exact trivial
          · split
            · exact trivial
            · split
              · exact ih _ _ _ _ _ _ h hst
              · exact trivial
        | any =>
          simp only [shift_cons, shift_nil, Item.shift, Re.shift, shiftAll, eval_any]
          split
          · exact trivial
          · split
            · split
              · exact trivial
              · split
                · exact trivial
                · exact ih _ _ _ _ _ _ h hst
            · exact ih _ _ _ _ _ _ h hst
        | str cs =>
          simp only [shift_cons, shift_nil, Item.shift, Re.shift, shiftAll, eval_str]
          split
          · exact trivial
          · exact trivial
          · exact ih _ _ _ _ _ _ h hst
        | sel l =>
          cases l with
          | nil => exact trivial
          | cons r opts =>
            simp only [Re.plainIn, plainInAll, Bool.and_eq_true] at hr
            simp only [shift_cons, shift_nil, Item.shift, Re.shift, shiftAll, eval_sel_cons]
            exact Out.Rel.orElse (ih _ _ _ _ _ _ h (re2 hr.1 hst)) (ih _ _ _ _ _ _ h (re2 (r := .sel opts) hr.2 hst))
        | seq l =>
          rcases l with _ | ⟨r, _ | ⟨r', m⟩⟩
          · exact trivial
          · simp only [Re.plainIn, plainInAll, Bool.and_eq_true] at hr
            exact ih _ _ _ _ _ _ h (re2 hr.1 hst)
          · simp only [Re.plainIn, plainInAll] at hr
            rw [Bool.and_eq_true] at hr
            exact ih _ _ _ _ _ _ h (re2 hr.1 (re2 (r := .seq (r' :: m)) hr.2 hst))
        | empty => exact ih _ _ _ _ _ _ h hst
        | rep k a b m =>
          have hm : plainInAll B m = true := hr
          cases k with
          | lazy =>
            simp only [shift_cons, shift_nil, Item.shift, Re.shift, shiftAll, eval_lazy]
            split
            · exact trivial
            · split
              · exact trivial
              · have := mandLoop_rel Merge.stable (hb _ m hm) a cur h
                revert this
                generalize mandLoop _ a cur c = x
                generalize mandLoop _ a cur c' = x'
                intro this
                cases x <;> cases x' <;> first | exact this.elim | skip
                · obtain ⟨rfl, h3⟩ := this
                  exact Out.Rel.refl_of h3
                · obtain ⟨rfl, h3⟩ := this
                  exact Out.Rel.orElse (ih _ _ _ _ _ _ h3 hst)
                    (lazyLoop_rel Merge.stable (hb _ m hm) (fun p d d' hd => ih s lb p (f.consumed true) t P hd hst) b n _ _ h3)
          | poss =>
            simp only [shift_cons, shift_nil, Item.shift, Re.shift, shiftAll, eval_poss]
            split
            · exact trivial
            · split
              · exact trivial
              · have := possLoop_rel Merge.stable (hb _ m hm) a b n 0 cur h
                revert this
                generalize possLoop _ a b n 0 cur c = x
                generalize possLoop _ a b n 0 cur c' = x'
                intro this
                cases x <;> cases x' <;> first | exact this.elim | skip
                · obtain ⟨rfl, h3⟩ := this
                  exact Out.Rel.refl_of h3
                · obtain ⟨rfl, h3⟩ := this
                  exact ih _ _ _ _ _ _ h3 hst
          | greedy =>
            simp only [shift_cons, shift_nil, Item.shift, Re.shift, shiftAll, eval_greedy, greedyRecRef_eq, ite_self]
            split
            · exact trivial
            · split
              · exact trivial
              · rw [loopCollides_shift]
                generalize (if C.greedyOpt = true then loopCollides m t else some true) = g
                rcases g with _ | _ | _
                · exact trivial
                · exact ih _ _ _ _ _ _ h (re2 (r := .rep .poss a b m) hm hst)
                · have := mandLoop_rel Merge.stable (hb _ m hm) a cur h
                  revert this
                  simp only
                  generalize mandLoop _ a cur c = x
                  generalize mandLoop _ a cur c' = x'
                  intro this
                  cases x <;> cases x' <;> first | exact this.elim | skip
                  · obtain ⟨rfl, h3⟩ := this
                    exact Out.Rel.refl_of h3
                  · obtain ⟨rfl, h3⟩ := this
                    exact greedyRec_rel Merge.stable (hb _ m hm) (fun p d d' hd => ih s lb p (f.consumed true) t P hd hst) b n _ _ h3
        | cap id name m =>
          simp only [Re.plainIn, Bool.and_eq_true] at hr
          obtain ⟨d, d', h1, h2, h3⟩ := h.startCapture hr.1 cur
          simp only [shift_cons, shift_nil, Item.shift, Re.shift, shiftAll, eval_cap, h1, h2]; split
          · exact trivial
          · refine ih _ _ _ _ _ _ h3 (re2 (r := .seq m) hr.2 ?_)
            simp only [stackPlain, List.all_cons, Item.plainIn, hr.1, Bool.true_and]; exact hst
        | bref id => cases hr
        | brefName id => cases hr
        | ahead pos m =>
          have hm : plainInAll B m = true := hr
          have : Out.Rel (Merge k B K N L (openMarks t ++ P)) (eval C n s lb cur f c [.re (.seq m), .endAhead]) (eval C n s lb cur f c' [.re (.seq (shiftAll k m)), .endAhead]) :=
            ih s lb cur f [.re (.seq m), .endAhead] (openMarks t ++ P) h (re2 (r := .seq m) hm rfl)
          simp only [shift_cons, shift_nil, Item.shift, Re.shift, shiftAll, eval_ahead]
          revert this
          generalize eval C n s lb cur f c [.re (.seq m), .endAhead] = x
          generalize eval C n s lb cur f c' [.re (.seq (shiftAll k m)), .endAhead] = x'
          intro this
          cases x <;> cases x' <;> first | exact this.elim | skip
          case ok.ok =>
            simp only
            split
            · exact ih _ _ _ _ _ _ (Merge.unmatch this) hst
            · exact trivial
          case fail.fail =>
            simp only
            split
            · exact trivial
            · exact ih _ _ _ _ _ _ h hst
          all_goals exact trivial
        | behind pos m =>
          have hm : plainInAll B m = true := hr
          have : Out.Rel (Merge k B K N L (openMarks t ++ P)) (eval C n s.reverse true (s.length - cur) f c [.re (.seq m), .endBehind]) (eval C n s.reverse true (s.length - cur) f c' [.re (.seq (shiftAll k m)), .endBehind]) :=
            ih s.reverse true (s.length - cur) f [.re (.seq m), .endBehind] (openMarks t ++ P) h (re2 (r := .seq m) hm rfl)
          simp only [shift_cons, shift_nil, Item.shift, Re.shift, shiftAll, eval_behind]
          revert this
          generalize eval C n s.reverse true (s.length - cur) f c [.re (.seq m), .endBehind] = x
          generalize eval C n s.reverse true (s.length - cur) f c' [.re (.seq (shiftAll k m)), .endBehind] = x'
          intro this
          cases x <;> cases x' <;> first | exact this.elim | skip
          case ok.ok =>
            simp only
            split
            · exact ih _ _ _ _ _ _ (Merge.unmatch this) hst
            · exact trivial
          case fail.fail =>
            simp only
            split
            · exact trivial
            · exact ih _ _ _ _ _ _ h hst
          all_goals exact trivial
        | atomic m => exact ih _ _ _ _ _ _ h (re2 (r := .rep .poss 1 1 m) hr hst)
        | mode md => exact ih _ _ _ _ _ _ h hst
        | reject => exact trivial
        | boundary _ | notBoundary _ | sBegin | sEnd | sEndLine | lBegin | lEnd =>
          simp only [shift_cons, Item.shift, Re.shift]
          rw [eval_test (h := rfl), eval_test (h := rfl)]
          split
          · exact trivial
          · exact trivial
          · exact ih _ _ _ _ _ _ h hst

end Ctre
