import Verif.Lemmas.Merge

/-
The first of two patterns in a row: what follows may be different.
-/
namespace Ctre

/-- The same match and the same slots with numbers in `A`; the other slots are `N` and `L`. -/
def SameBoth (A : List Nat) (N L : Nat → Option Slot) (c c' : Caps) : Prop := SameSlots A N c c' ∧ SameSlots A L c' c

section
variable {A : List Nat} {N L : Nat → Option Slot} {c c' : Caps}

theorem SameBoth.unmatch (h : SameBoth A N L c c') : SameBoth A N L c.unmatch c'.unmatch := ⟨h.1.unmatch, h.2.unmatch⟩
theorem SameBoth.stable : Stable (SameBoth A N L) := ⟨fun h => h.1.whole, fun h => h.unmatch⟩

theorem SameBoth.startCapture (h : SameBoth A N L c c') {id : Nat} (hi : A.contains id = true) (p : Nat) :
    ∃ d d', c.startCapture id p = some d ∧ c'.startCapture id p = some d' ∧ SameBoth A N L d d' := by
  obtain ⟨d, d', h1, h2, h3⟩ := h.1.startCapture hi p
  obtain ⟨e, e', g1, g2, g3⟩ := h.2.startCapture hi p
  rw [h2] at g1; rw [h1] at g2; cases g1; cases g2
  exact ⟨d, d', h1, h2, h3, g3⟩

theorem SameBoth.endCapture (h : SameBoth A N L c c') {id : Nat} (hi : A.contains id = true) (p : Nat) :
    ∃ d d', c.endCapture id p = some d ∧ c'.endCapture id p = some d' ∧ SameBoth A N L d d' := by
  obtain ⟨d, d', h1, h2, h3⟩ := h.1.endCapture hi p
  obtain ⟨e, e', g1, g2, g3⟩ := h.2.endCapture hi p
  rw [h2] at g1; rw [h1] at g2; cases g1; cases g2
  exact ⟨d, d', h1, h2, h3, g3⟩

theorem eval_both (C : Cfg) (n : Nat) (s : List Ch) (lb : Bool) (cur : Nat) (f : Flags) (t : Stack) (h : SameBoth A N L c c')
    (ht : stackIn A t = true) : (eval C n s lb cur f c t).Rel (SameBoth A N L) (eval C n s lb cur f c' t) := by
  have h1 := eval_slots C n s lb cur f t h.1 ht
  have h2 := eval_slots C n s lb cur f t h.2 ht
  revert h1 h2
  generalize eval C n s lb cur f c t = x
  generalize eval C n s lb cur f c' t = x'
  intro h1 h2
  cases x <;> cases x' <;> first | exact h1.elim | exact trivial | exact ⟨h1, h2⟩

def Item.inner (A : List Nat) : Item → Bool
  | .re r => r.numbersIn A
  | .numMark id => A.contains id
  | _ => false

def stackInner (A : List Nat) (t : Stack) : Bool := t.all (Item.inner A)

theorem loopCollides_tail {tB tB' : Stack} (h : bareStack tB = bareStack tB') (m : List Re) (t : Stack) :
    loopCollides m (t ++ tB') = loopCollides m (t ++ tB) := by
  rw [← loopCollides_bare m (t ++ tB'), ← loopCollides_bare m (t ++ tB)]
  simp only [bareStack, List.map_append] at h ⊢
  rw [h]
end

theorem eval_prefix (C : Cfg) {A : List Nat} {N L : Nat → Option Slot} {Q : Caps → Caps → Prop} {tB tB' : Stack} (s : List Ch) (lb : Bool)
    (hbare : bareStack tB = bareStack tB')
    (cont : ∀ (n cur : Nat) (f : Flags) {c c' : Caps}, SameBoth A N L c c' →
      (eval C n s lb cur f c tB).Rel Q (eval C n s lb cur f c' tB')) :
    ∀ (n : Nat) (cur : Nat) (f : Flags) {c c' : Caps} (t : Stack), SameBoth A N L c c' → stackInner A t = true →
    (eval C n s lb cur f c (t ++ tB)).Rel Q (eval C n s lb cur f c' (t ++ tB'))
  | 0, cur, f, c, c', t, h, ht => trivial
  | n + 1, cur, f, c, c', st, h, hst => by
    have ih := fun cur f {c c'} t => eval_prefix C s lb hbare cont n cur f (c := c) (c' := c') t
    have hb : ∀ (m : List Re), numbersInAll A m = true → ∀ p {d d'}, SameBoth A N L d d' →
        (eval C n s lb p f.notEmpty d (items m [.endCycle])).Rel (SameBoth A N L)
          (eval C n s lb p f.notEmpty d' (items m [.endCycle])) :=
      fun m hm p d d' hd => eval_both C n s lb p f.notEmpty _ hd (stackIn_items hm rfl)
    rcases st with _ | ⟨it, t⟩
    · exact cont (n + 1) cur f h
    · rw [List.cons_append, List.cons_append]
      simp only [stackInner, List.all_cons, Bool.and_eq_true] at hst
      obtain ⟨hi, hst⟩ := hst
      have hst : stackInner A t = true := hst
      have re2 : ∀ {r : Re} {t : Stack}, r.numbersIn A = true → stackInner A t = true → stackInner A (.re r :: t) = true := by
        intro r t h1 h2
        simp only [stackInner, List.all_cons, Item.inner, h1, Bool.true_and]; exact h2
      cases it with
      | accept | endCycle | endAhead | endBehind | startMark | endMark => cases hi
      | numMark id =>
        obtain ⟨d, d', h1, h2, h3⟩ := h.endCapture hi cur
        simp only [eval_numMark, h1, h2]; split
        · exact trivial
        · exact ih _ _ _ h3 hst
      | re r =>
        have hr : r.numbersIn A = true := hi
        cases r with
        | cc cl =>
          simp only [eval_cc]
          split
          · exact trivial
          · split
            · exact trivial
            · split
              · exact ih _ _ _ h hst
              · exact trivial
        | any =>
          simp only [eval_any]
          split
          · exact trivial
          · split
            · split
              · exact trivial
              · split
                · exact trivial
                · exact ih _ _ _ h hst
            · exact ih _ _ _ h hst
        | str cs =>
          simp only [eval_str]
          split
          · exact trivial
          · exact trivial
          · exact ih _ _ _ h hst
        | sel l =>
          cases l with
          | nil => exact trivial
          | cons r opts =>
            simp only [Re.numbersIn, numbersInAll, Bool.and_eq_true] at hr
            simp only [eval_sel_cons]
            exact Out.Rel.orElse (ih _ _ _ h (re2 hr.1 hst)) (ih _ _ _ h (re2 (r := .sel opts) hr.2 hst))
        | seq l =>
          rcases l with _ | ⟨r, _ | ⟨r', m⟩⟩
          · exact trivial
          · simp only [Re.numbersIn, numbersInAll, Bool.and_eq_true] at hr
            exact ih _ _ _ h (re2 hr.1 hst)
          · simp only [Re.numbersIn, numbersInAll] at hr
            rw [Bool.and_eq_true] at hr
            exact ih _ _ _ h (re2 hr.1 (re2 (r := .seq (r' :: m)) hr.2 hst))
        | empty => exact ih _ _ _ h hst
        | rep k a b m =>
          have hm : numbersInAll A m = true := hr
          cases k with
          | lazy =>
            simp only [eval_lazy]
            split
            · exact trivial
            · split
              · exact trivial
              · have := mandLoop_rel SameBoth.stable (hb m hm) a cur h
                revert this
                generalize mandLoop _ a cur c = x
                generalize mandLoop _ a cur c' = x'
                intro this
                cases x <;> cases x' <;> first | exact this.elim | skip
                · obtain ⟨rfl, h3⟩ := this
                  exact Out.Rel.refl_of h3
                · obtain ⟨rfl, h3⟩ := this
                  exact Out.Rel.orElse (ih _ _ _ h3 hst)
                    (lazyLoop_rel SameBoth.stable (hb m hm) (fun p d d' hd => ih p (f.consumed true) t hd hst) b n _ _ h3)
          | poss =>
            simp only [eval_poss]
            split
            · exact trivial
            · split
              · exact trivial
              · have := possLoop_rel SameBoth.stable (hb m hm) a b n 0 cur h
                revert this
                generalize possLoop _ a b n 0 cur c = x
                generalize possLoop _ a b n 0 cur c' = x'
                intro this
                cases x <;> cases x' <;> first | exact this.elim | skip
                · obtain ⟨rfl, h3⟩ := this
                  exact Out.Rel.refl_of h3
                · obtain ⟨rfl, h3⟩ := this
                  exact ih _ _ _ h3 hst
          | greedy =>
            simp only [eval_greedy, greedyRecRef_eq, ite_self]
            split
            · exact trivial
            · split
              · exact trivial
              · rw [loopCollides_tail hbare]
                generalize (if C.greedyOpt = true then loopCollides m (t ++ tB) else some true) = g
                rcases g with _ | _ | _
                · exact trivial
                · exact ih _ _ _ h (re2 (r := .rep .poss a b m) hm hst)
                · have := mandLoop_rel SameBoth.stable (hb m hm) a cur h
                  revert this
                  simp only
                  generalize mandLoop _ a cur c = x
                  generalize mandLoop _ a cur c' = x'
                  intro this
                  cases x <;> cases x' <;> first | exact this.elim | skip
                  · obtain ⟨rfl, h3⟩ := this
                    exact Out.Rel.refl_of h3
                  · obtain ⟨rfl, h3⟩ := this
                    exact greedyRec_rel SameBoth.stable (hb m hm) (fun p d d' hd => ih p (f.consumed true) t hd hst) b n _ _ h3
        | cap id name m =>
          simp only [Re.numbersIn, Bool.and_eq_true] at hr
          obtain ⟨d, d', h1, h2, h3⟩ := h.startCapture hr.1 cur
          simp only [eval_cap, h1, h2]; split
          · exact trivial
          · refine ih _ _ (.re (.seq m) :: .numMark id :: t) h3 (re2 (r := .seq m) hr.2 ?_)
            simp only [stackInner, List.all_cons, Item.inner, hr.1, Bool.true_and]; exact hst
        | bref id =>
          have := h.1.get (List.contains_iff_mem.1 hr)
          simp only [eval_bref, this]; split
          · exact trivial
          · split <;> first | exact trivial | exact ih _ _ _ h hst
        | brefName id => cases hr
        | ahead pos m =>
          have hm : numbersInAll A m = true := hr
          have := eval_both C n s lb cur f [.re (.seq m), .endAhead] h (by simp only [stackIn, List.all_cons, Item.numbersIn, Re.numbersIn, hm]; rfl)
          simp only [eval_ahead]
          revert this
          generalize eval C n s lb cur f c [.re (.seq m), .endAhead] = x
          generalize eval C n s lb cur f c' [.re (.seq m), .endAhead] = x'
          intro this
          cases x <;> cases x' <;> first | exact this.elim | skip
          case ok.ok =>
            simp only
            split
            · exact ih _ _ _ (SameBoth.unmatch this) hst
            · exact trivial
          case fail.fail =>
            simp only
            split
            · exact trivial
            · exact ih _ _ _ h hst
          all_goals exact trivial
        | behind pos m =>
          have hm : numbersInAll A m = true := hr
          have := eval_both C n s.reverse true (s.length - cur) f [.re (.seq m), .endBehind] h
            (by simp only [stackIn, List.all_cons, Item.numbersIn, Re.numbersIn, hm]; rfl)
          simp only [eval_behind]
          revert this
          generalize eval C n s.reverse true (s.length - cur) f c [.re (.seq m), .endBehind] = x
          generalize eval C n s.reverse true (s.length - cur) f c' [.re (.seq m), .endBehind] = x'
          intro this
          cases x <;> cases x' <;> first | exact this.elim | skip
          case ok.ok =>
            simp only
            split
            · exact ih _ _ _ (SameBoth.unmatch this) hst
            · exact trivial
          case fail.fail =>
            simp only
            split
            · exact trivial
            · exact ih _ _ _ h hst
          all_goals exact trivial
        | atomic m => exact ih _ _ _ h (re2 (r := .rep .poss 1 1 m) hr hst)
        | mode md => exact ih _ _ _ h hst
        | reject => exact trivial
        | boundary _ | notBoundary _ | sBegin | sEnd | sEndLine | lBegin | lEnd =>
          rw [eval_test (h := rfl), eval_test (h := rfl)]
          split
          · exact trivial
          · exact trivial
          · exact ih _ _ _ h hst

end Ctre
