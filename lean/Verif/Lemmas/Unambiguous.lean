import Verif.Lemmas.Refine
import Verif.Spec.Unambiguous

/-
From unambiguity of the declarative semantics to determinism of the machine relation.
-/
namespace Ctre

/-- A slot is as before, or set with both ends. -/
def Touched (x y : SSt) : Prop :=
  ∀ id, selectId id y.gs = selectId id x.gs ∨ ∃ b e, selectId id y.gs = some ⟨some b, some e, true⟩

theorem Touched.rfl' {x : SSt} : Touched x x := fun _ => .inl rfl

theorem Touched.trans {x y z : SSt} (h : Touched x y) (h' : Touched y z) : Touched x z := by
  intro id
  rcases h' id with h1 | h1
  · rw [h1]; exact h id
  · exact .inr h1

theorem touched_same {x y : SSt} (h : y.gs = x.gs) : Touched x y := fun id => .inl (by rw [h])

theorem frame_same {O : List Nat} {x y : SSt} (h : y.gs = x.gs) : Frame O x y := fun id _ => by rw [h]

mutual
theorem Re.Sem.touch {U : Uni} {num : List Nat → Option Nat} : ∀ {r : Re} {O : List Nat} {s : List Ch} {x y : SSt},
    r.noSelf num O = true → r.Sem U s x y → Frame O x y ∧ Touched x y
  | .sel l, O, s, x, y, hn, h => by
    simp only [Re.Sem] at h; simp only [Re.noSelf] at hn; exact SemSel.touch hn h
  | .seq l, O, s, x, y, hn, h => by
    simp only [Re.Sem] at h; simp only [Re.noSelf] at hn; exact SemSeq.touch hn h
  | .rep _ _ _ l, O, s, x, y, hn, h => by
    simp only [Re.Sem] at h
    simp only [Re.noSelf] at hn
    obtain ⟨k, _, _, h⟩ := h
    refine Iterate.inv (P := fun z => Frame O x z ∧ Touched x z) ?_ h ⟨.rfl', .rfl'⟩
    rintro u v ⟨z, hz, rfl⟩ hu
    obtain ⟨h1, h2⟩ := SemSeq.touch hn hz
    exact ⟨hu.1.trans h1, hu.2.trans h2⟩
  | .cap id _ l, O, s, x, y, hn, h => by
    simp only [Re.Sem] at h
    simp only [Re.noSelf, Bool.and_eq_true, bne_iff_ne, ne_eq, Bool.not_eq_true',
      List.contains_eq_mem, decide_eq_false_iff_not] at hn
    obtain ⟨hid, z, hz, rfl⟩ := h
    obtain ⟨h1, h2⟩ := SemSeq.touch hn.2 hz
    refine ⟨?_, ?_⟩
    · intro id' hid'
      have he : id' ≠ id := by rintro rfl; exact hn.1.2 hid'
      have := h1 id' (by simp [hid'])
      simpa [selectId_modifyId, he] using this
    · intro id'
      by_cases he : id' = id
      · subst he
        right
        have h3 := h1 id' (by simp)
        simp only [selectId_modifyId, if_true] at h3
        rw [← selectId_isSome] at hid
        obtain ⟨sl, hsl⟩ := Option.isSome_iff_exists.1 hid
        rw [hsl] at h3
        simp only [selectId_modifyId, if_true, h3]
        exact ⟨_, _, rfl⟩
      · have := h2 id'
        simpa [selectId_modifyId, he] using this
  | .ahead true l, O, s, x, y, hn, h => by
    simp only [Re.Sem] at h; simp only [Re.noSelf] at hn
    obtain ⟨z, hz, rfl⟩ := h
    have h1 := SemSeq.touch hn hz
    exact ⟨h1.1, h1.2⟩
  | .behind true l, O, s, x, y, hn, h => by
    simp only [Re.Sem] at h; simp only [Re.noSelf] at hn
    obtain ⟨z, hz, rfl⟩ := h
    have h1 := SemSeq.touch hn hz
    exact ⟨h1.1, h1.2⟩
  | .ahead false l, O, s, x, y, hn, h => by
    simp only [Re.Sem] at h; rw [h.2]; exact ⟨.rfl', .rfl'⟩
  | .behind false l, O, s, x, y, hn, h => by
    simp only [Re.Sem] at h; rw [h.2]; exact ⟨.rfl', .rfl'⟩
  | .atomic l, O, s, x, y, hn, h => by
    simp only [Re.Sem] at h; simp only [Re.noSelf] at hn
    obtain ⟨z, hz, rfl⟩ := h
    have h1 := SemSeq.touch hn hz
    exact ⟨h1.1, h1.2⟩
  | .cc _, O, s, x, y, hn, h | .any, O, s, x, y, hn, h => by
    simp only [Re.Sem] at h; obtain ⟨_, _, _, rfl⟩ := h; exact ⟨.rfl', .rfl'⟩
  | .str _, O, s, x, y, hn, h => by
    simp only [Re.Sem] at h; obtain ⟨_, _, rfl⟩ := h; exact ⟨.rfl', .rfl'⟩
  | .bref _, O, s, x, y, hn, h | .brefName _, O, s, x, y, hn, h => by
    simp only [Re.Sem] at h; obtain ⟨_, _, _, rfl⟩ := h; exact ⟨.rfl', .rfl'⟩
  | .empty, O, s, x, y, hn, h | .mode _, O, s, x, y, hn, h => by
    simp only [Re.Sem] at h; rw [h]; exact ⟨.rfl', .rfl'⟩
  | .reject _, O, s, x, y, hn, h => by simp [Re.Sem] at h
  | .boundary _, O, s, x, y, hn, h | .notBoundary _, O, s, x, y, hn, h | .sBegin, O, s, x, y, hn, h
  | .sEnd, O, s, x, y, hn, h | .sEndLine, O, s, x, y, hn, h | .lBegin, O, s, x, y, hn, h
  | .lEnd, O, s, x, y, hn, h => by
    simp only [Re.Sem] at h; rw [h.2]; exact ⟨.rfl', .rfl'⟩

theorem SemSeq.touch {U : Uni} {num : List Nat → Option Nat} : ∀ {l : List Re} {O : List Nat} {s : List Ch} {x y : SSt},
    noSelfList num O l = true → SemSeq U l s x y → Frame O x y ∧ Touched x y
  | [], O, s, x, y, hn, h => by simp only [SemSeq] at h; rw [h]; exact ⟨.rfl', .rfl'⟩
  | r :: l, O, s, x, y, hn, h => by
    simp only [SemSeq] at h
    simp only [noSelfList, Bool.and_eq_true] at hn
    obtain ⟨z, h1, h2⟩ := h
    obtain ⟨h3, h4⟩ := Re.Sem.touch hn.1 h1
    obtain ⟨h5, h6⟩ := SemSeq.touch hn.2 h2
    exact ⟨h3.trans h5, h4.trans h6⟩

theorem SemSel.touch {U : Uni} {num : List Nat → Option Nat} : ∀ {l : List Re} {O : List Nat} {s : List Ch} {x y : SSt},
    noSelfList num O l = true → SemSel U l s x y → Frame O x y ∧ Touched x y
  | [], O, s, x, y, hn, h => by simp [SemSel] at h
  | r :: l, O, s, x, y, hn, h => by
    simp only [SemSel] at h
    simp only [noSelfList, Bool.and_eq_true] at hn
    rcases h with h | h
    · exact Re.Sem.touch hn.1 h
    · exact SemSel.touch hn.2 h
end

theorem gs_ext : ∀ {gs gs' : List Group}, shape gs = shape gs' → (groupIds gs).Nodup →
    (∀ id, selectId id gs = selectId id gs') → gs = gs'
  | [], [], _, _, _ => rfl
  | [], _ :: _, h, _, _ => by simp [shape] at h
  | _ :: _, [], h, _, _ => by simp [shape] at h
  | g :: gs, g' :: gs', h, hn, hs => by
    simp only [shape, List.map_cons, List.cons.injEq, Prod.mk.injEq] at h
    simp only [groupIds, List.map_cons, List.nodup_cons] at hn
    have h1 : g = g' := by
      have := hs g.id
      simp only [selectId, if_true, h.1.1, Option.some.injEq] at this
      cases g; cases g'; simp_all
    subst h1
    congr 1
    refine gs_ext h.2 hn.2 ?_
    intro id
    have := hs id
    simp only [selectId] at this
    split at this
    · rename_i he
      subst he
      have hn1 : hasId g.id gs = false := by
        rw [Bool.eq_false_iff, ne_eq, hasId_iff]; exact hn.1
      have hn2 : hasId g.id gs' = false := by rw [← hasId_shape (gs := gs) h.2]; exact hn1
      rw [← selectId_isSome] at hn1 hn2
      simp only [Option.isSome_eq_false_iff, Option.isNone_iff_eq_none] at hn1 hn2
      rw [hn1, hn2]
    · exact this

open Classical in
/-- The specification state of a machine state. -/
noncomputable def toM (x : SSt) : MState where
  pos := x.pos
  multiline := x.ml
  caseless := x.ci
  cap id := match refSlot x.gs id with
    | some ⟨some b, some e, true⟩ => some (b, e)
    | _ => none

theorem SlotRel_toM (sl : Option Slot) : SlotRel sl (match sl with
    | some ⟨some b, some e, true⟩ => some (b, e)
    | _ => none) := by
  rcases sl with _ | ⟨_ | b, _ | e, _ | _⟩ <;> simp [SlotRel, Slot.complete]

/-- The numbers and names a shape declares, and that they are fit for use. -/
structure ShapeOK (E : Env) (sh : Shape) : Prop where
  nodup : (sh.map (·.1)).Nodup
  nz : 0 ∉ sh.map (·.1)
  num : ∀ gs, shape gs = sh → ∀ n, E.number n = groupNumber gs n

theorem rel_toM {E : Env} {sh : Shape} (hE : ShapeOK E sh) {s : List Ch} {O : List Nat} {x : SSt}
    (hx : shape x.gs = sh) (hp : x.pos ≤ s.length) : Rel E s (sh.map (·.1)) O x (toM x) := by
  refine ⟨rfl, rfl, rfl, hp, ?_, hE.nodup, hE.nz, hE.num _ hx, fun id _ => SlotRel_toM _⟩
  rw [← hx]; simp [groupIds, shape]

theorem SlotRel.eq_of_touched {a b b' : Option Slot} {v : Option (Nat × Nat)}
    (h : SlotRel b v) (h' : SlotRel b' v)
    (t : b = a ∨ ∃ p q, b = some ⟨some p, some q, true⟩)
    (t' : b' = a ∨ ∃ p q, b' = some ⟨some p, some q, true⟩) : b = b' := by
  rcases t with rfl | ⟨p, q, rfl⟩
  · rcases t' with rfl | ⟨p, q, rfl⟩
    · rfl
    · simp only [SlotRel] at h'
      rcases h' with ⟨_, b1, e1, hb, he, rfl⟩ | ⟨hc, _⟩
      · simp only [Option.some.injEq] at hb he
        subst hb he
        rcases b with _ | ⟨b, e, m⟩
        · simp [SlotRel] at h
        · simp only [SlotRel, reduceCtorEq, and_false, or_false, Option.some.injEq, Prod.mk.injEq] at h
          obtain ⟨rfl, b2, e2, rfl, rfl, rfl, rfl⟩ := h
          rfl
      · exact absurd ⟨rfl, p, q, rfl, rfl⟩ hc
  · simp only [SlotRel] at h
    rcases h with ⟨_, b1, e1, hb, he, rfl⟩ | ⟨hc, _⟩
    · simp only [Option.some.injEq] at hb he
      subst hb he
      rcases b' with _ | ⟨b, e, m⟩
      · simp [SlotRel] at h'
      · simp only [SlotRel, reduceCtorEq, and_false, or_false, Option.some.injEq, Prod.mk.injEq] at h'
        obtain ⟨rfl, b2, e2, rfl, rfl, rfl, rfl⟩ := h'
        rfl
    · exact absurd ⟨rfl, p, q, rfl, rfl⟩ hc

/-- Two runs from the same state whose specification states have the same captures end with the same
slots. -/
theorem gs_eq_of_cap {E : Env} {sh : Shape} (hE : ShapeOK E sh) {s : List Ch} {G O : List Nat} {x y y' : SSt}
    {τ τ' : MState}
    (h1 : shape y.gs = sh) (h2 : shape y'.gs = sh)
    (hr : Rel E s G O y τ) (hr' : Rel E s G O y' τ') (hc : τ.cap = τ'.cap)
    (f1 : Frame O x y) (f2 : Frame O x y') (t1 : Touched x y) (t2 : Touched x y') : y.gs = y'.gs := by
  refine gs_ext (h1.trans h2.symm) ?_ ?_
  · have := hE.nodup; rw [← h1] at this; simpa [groupIds, shape, Function.comp_def] using this
  · intro id
    by_cases hO : id ∈ O
    · rw [f1 id hO, f2 id hO]
    · have hs := hr.slots id hO
      have hs' := hr'.slots id hO
      rw [← hc] at hs'
      unfold refSlot at hs hs'
      by_cases h0 : id = 0
      · subst h0
        have hn : ∀ gs, shape gs = sh → selectId 0 gs = none := by
          intro gs hg
          have h3 := hE.nz
          have : sh.map (·.1) = groupIds gs := by rw [← hg]; simp [groupIds, shape]
          rw [this, ← hasId_iff, ← selectId_isSome] at h3
          cases h : selectId 0 gs <;> simp [h] at h3 ⊢
        rw [hn _ h1, hn _ h2]
      · rw [if_neg h0] at hs hs'
        exact hs.eq_of_touched hs' (t1 id) (t2 id)

theorem detProg_of {E : Env} {sh : Shape} (hE : ShapeOK E sh) {l : List Re} {O : List Nat}
    (hn : noSelfList E.number O l = true) (hg : negCapsList (sh.map (·.1)) l = true)
    (hu : Unambiguous E l) (hc : Consuming E l) : DetProg E.uni sh l := by
  intro s x y y' hp hx hy hy'
  have hr := rel_toM hE (O := O) hx hp
  obtain ⟨τ, m1, r1, f1⟩ := (refineAll (s := s) hn hg x _ hr).1 y hy
  obtain ⟨τ', m2, r2, f2⟩ := (refineAll (s := s) hn hg x _ hr).1 y' hy'
  have he := hu _ _ _ _ (by exact hp) m1 m2
  subst he
  have h1 := gs_eq_of_cap hE (hy.shape.trans hx) (hy'.shape.trans hx) r1 r2 rfl
    f1 f2 (hy.touch hn).2 (hy'.touch hn).2
  refine ⟨?_, ?_⟩
  · cases y; cases y'
    simp only [SSt.mk.injEq]
    exact ⟨r1.pos.trans r2.pos.symm, r1.ml.trans r2.ml.symm, r1.ci.trans r2.ci.symm, h1⟩
  · rw [r1.pos]; exact hc _ _ _ (by exact hp) m1

theorem detCaps_of {E : Env} {sh : Shape} (hE : ShapeOK E sh) {l : List Re} {O : List Nat}
    (hn : noSelfList E.number O l = true) (hg : negCapsList (sh.map (·.1)) l = true)
    (hu : SameCaptures E l) : DetCaps E.uni sh l := by
  intro s x y y' hp hx hy hy'
  have hr := rel_toM hE (O := O) hx hp
  obtain ⟨τ, m1, r1, f1⟩ := (refineAll (s := s) hn hg x _ hr).1 y hy
  obtain ⟨τ', m2, r2, f2⟩ := (refineAll (s := s) hn hg x _ hr).1 y' hy'
  have he := hu _ _ _ _ (by exact hp) m1 m2
  exact gs_eq_of_cap hE (hy.shape.trans hx) (hy'.shape.trans hx) r1 r2 he
    f1 f2 (hy.touch hn).2 (hy'.touch hn).2

mutual
theorem Re.Plain.cplOK {E : Env} {C : Cfg} {sh : Shape} (hE : ShapeOK E sh) (hU : E.uni = C.uni)
    (hC : C.greedyOpt = false) : ∀ {r : Re} {O : List Nat}, r.noSelf E.number O = true →
      r.negCaps (sh.map (·.1)) = true → r.Plain E → r.CplOK C sh
  | .sel l, O, hn, hg, h => by
    simp only [Re.noSelf] at hn; simp only [Re.negCaps] at hg; simp only [Re.Plain] at h
    simp only [Re.CplOK]; exact PlainList.cplOK hE hU hC hn hg h
  | .seq l, O, hn, hg, h => by
    simp only [Re.noSelf] at hn; simp only [Re.negCaps] at hg; simp only [Re.Plain] at h
    simp only [Re.CplOK]; exact ⟨h.1, PlainList.cplOK hE hU hC hn hg h.2⟩
  | .rep k a b l, O, hn, hg, h => by
    simp only [Re.noSelf] at hn; simp only [Re.negCaps] at hg; simp only [Re.Plain] at h
    simp only [Re.CplOK]
    exact ⟨h.1, fun _ => hC, hU ▸ detProg_of hE hn hg h.2.1 h.2.2.1, PlainList.cplOK hE hU hC hn hg h.2.2.2⟩
  | .cap id n l, O, hn, hg, h => by
    simp only [Re.noSelf, Bool.and_eq_true, bne_iff_ne, ne_eq] at hn
    simp only [Re.negCaps] at hg; simp only [Re.Plain] at h
    simp only [Re.CplOK]; exact ⟨hn.1.1, h.1, PlainList.cplOK hE hU hC hn.2 hg h.2⟩
  | .ahead pos l, O, hn, hg, h => by
    simp only [Re.noSelf] at hn; simp only [Re.negCaps, Bool.and_eq_true] at hg; simp only [Re.Plain] at h
    simp only [Re.CplOK]
    exact ⟨fun hp => hU ▸ detCaps_of hE hn hg.1 (h.1 hp), h.2.1, PlainList.cplOK hE hU hC hn hg.1 h.2.2⟩
  | .behind pos l, O, hn, hg, h => by
    simp only [Re.noSelf] at hn; simp only [Re.negCaps, Bool.and_eq_true] at hg; simp only [Re.Plain] at h
    simp only [Re.CplOK]
    exact ⟨fun hp => hU ▸ detCaps_of hE hn hg.1 (h.1 hp), h.2.1, PlainList.cplOK hE hU hC hn hg.1 h.2.2⟩
  | .atomic l, O, hn, hg, h => by
    simp only [Re.noSelf] at hn; simp only [Re.negCaps] at hg; simp only [Re.Plain] at h
    simp only [Re.CplOK]
    exact ⟨hU ▸ detProg_of hE hn hg h.1 h.2.1, PlainList.cplOK hE hU hC hn hg h.2.2⟩
  | .cc _, _, _, _, _ | .any, _, _, _, _ | .str _, _, _, _, _ | .empty, _, _, _, _ | .bref _, _, _, _, _
  | .brefName _, _, _, _, _ | .boundary _, _, _, _, _ | .notBoundary _, _, _, _, _ | .sBegin, _, _, _, _
  | .sEnd, _, _, _, _ | .sEndLine, _, _, _, _ | .lBegin, _, _, _, _ | .lEnd, _, _, _, _ | .mode _, _, _, _, _
  | .reject _, _, _, _, _ => by simp [Re.CplOK]

theorem PlainList.cplOK {E : Env} {C : Cfg} {sh : Shape} (hE : ShapeOK E sh) (hU : E.uni = C.uni)
    (hC : C.greedyOpt = false) : ∀ {l : List Re} {O : List Nat}, noSelfList E.number O l = true →
      negCapsList (sh.map (·.1)) l = true → PlainList E l → CplOKList C sh l
  | [], _, _, _, _ => by simp [CplOKList]
  | r :: l, O, hn, hg, h => by
    simp only [noSelfList, Bool.and_eq_true] at hn; simp only [negCapsList, Bool.and_eq_true] at hg
    simp only [PlainList] at h
    simp only [CplOKList]
    exact ⟨Re.Plain.cplOK hE hU hC hn.1 hg.1 h.1, PlainList.cplOK hE hU hC hn.2 hg.2 h.2⟩
end

mutual
theorem Re.NegPlain.sndOK {E : Env} {C : Cfg} {sh : Shape} (hE : ShapeOK E sh) (hU : E.uni = C.uni)
    (hC : C.greedyOpt = false) : ∀ {r : Re} {O : List Nat}, r.noSelf E.number O = true →
      r.negCaps (sh.map (·.1)) = true → r.NegPlain E → r.SndOK C sh
  | .sel l, O, hn, hg, h => by
    simp only [Re.noSelf] at hn; simp only [Re.negCaps] at hg; simp only [Re.NegPlain] at h
    simp only [Re.SndOK]; exact NegPlainList.sndOK hE hU hC hn hg h
  | .seq l, O, hn, hg, h => by
    simp only [Re.noSelf] at hn; simp only [Re.negCaps] at hg; simp only [Re.NegPlain] at h
    simp only [Re.SndOK]; exact NegPlainList.sndOK hE hU hC hn hg h
  | .rep k a b l, O, hn, hg, h => by
    simp only [Re.noSelf] at hn; simp only [Re.negCaps] at hg; simp only [Re.NegPlain] at h
    simp only [Re.SndOK]; exact NegPlainList.sndOK hE hU hC hn hg h
  | .cap id n l, O, hn, hg, h => by
    simp only [Re.noSelf, Bool.and_eq_true, bne_iff_ne, ne_eq] at hn
    simp only [Re.negCaps] at hg; simp only [Re.NegPlain] at h
    simp only [Re.SndOK]; exact ⟨hn.1.1, NegPlainList.sndOK hE hU hC hn.2 hg h⟩
  | .ahead pos l, O, hn, hg, h => by
    simp only [Re.noSelf] at hn; simp only [Re.negCaps, Bool.and_eq_true] at hg; simp only [Re.NegPlain] at h
    simp only [Re.SndOK]
    exact ⟨NegPlainList.sndOK hE hU hC hn hg.1 h.1,
      fun hp => ⟨(h.2 hp).1, PlainList.cplOK hE hU hC hn hg.1 (h.2 hp).2⟩⟩
  | .behind pos l, O, hn, hg, h => by
    simp only [Re.noSelf] at hn; simp only [Re.negCaps, Bool.and_eq_true] at hg; simp only [Re.NegPlain] at h
    simp only [Re.SndOK]
    exact ⟨NegPlainList.sndOK hE hU hC hn hg.1 h.1,
      fun hp => ⟨(h.2 hp).1, PlainList.cplOK hE hU hC hn hg.1 (h.2 hp).2⟩⟩
  | .atomic l, O, hn, hg, h => by
    simp only [Re.noSelf] at hn; simp only [Re.negCaps] at hg; simp only [Re.NegPlain] at h
    simp only [Re.SndOK]; exact NegPlainList.sndOK hE hU hC hn hg h
  | .cc _, _, _, _, _ | .any, _, _, _, _ | .str _, _, _, _, _ | .empty, _, _, _, _ | .bref _, _, _, _, _
  | .brefName _, _, _, _, _ | .boundary _, _, _, _, _ | .notBoundary _, _, _, _, _ | .sBegin, _, _, _, _
  | .sEnd, _, _, _, _ | .sEndLine, _, _, _, _ | .lBegin, _, _, _, _ | .lEnd, _, _, _, _ | .mode _, _, _, _, _
  | .reject _, _, _, _, _ => by simp [Re.SndOK]

theorem NegPlainList.sndOK {E : Env} {C : Cfg} {sh : Shape} (hE : ShapeOK E sh) (hU : E.uni = C.uni)
    (hC : C.greedyOpt = false) : ∀ {l : List Re} {O : List Nat}, noSelfList E.number O l = true →
      negCapsList (sh.map (·.1)) l = true → NegPlainList E l → SndOKList C sh l
  | [], _, _, _, _ => by simp [SndOKList]
  | r :: l, O, hn, hg, h => by
    simp only [noSelfList, Bool.and_eq_true] at hn; simp only [negCapsList, Bool.and_eq_true] at hg
    simp only [NegPlainList] at h
    simp only [SndOKList]
    exact ⟨Re.NegPlain.sndOK hE hU hC hn.1 hg.1 h.1, NegPlainList.sndOK hE hU hC hn.2 hg.2 h.2⟩
end

mutual
theorem Re.noNegLook.sndOK {num : List Nat → Option Nat} {C : Cfg} {sh : Shape} :
    ∀ {r : Re} {O : List Nat}, r.noSelf num O = true → r.noNegLook = true → r.SndOK C sh
  | .sel l, O, hn, h => by
    simp only [Re.noSelf] at hn; simp only [Re.noNegLook] at h
    simp only [Re.SndOK]; exact noNegLookList.sndOK hn h
  | .seq l, O, hn, h => by
    simp only [Re.noSelf] at hn; simp only [Re.noNegLook] at h
    simp only [Re.SndOK]; exact noNegLookList.sndOK hn h
  | .rep k a b l, O, hn, h => by
    simp only [Re.noSelf] at hn; simp only [Re.noNegLook] at h
    simp only [Re.SndOK]; exact noNegLookList.sndOK hn h
  | .cap id n l, O, hn, h => by
    simp only [Re.noSelf, Bool.and_eq_true, bne_iff_ne, ne_eq] at hn
    simp only [Re.noNegLook] at h
    simp only [Re.SndOK]; exact ⟨hn.1.1, noNegLookList.sndOK hn.2 h⟩
  | .ahead pos l, O, hn, h => by
    simp only [Re.noSelf] at hn; simp only [Re.noNegLook, Bool.and_eq_true] at h
    simp only [Re.SndOK]; exact ⟨noNegLookList.sndOK hn h.2, by simp [h.1]⟩
  | .behind pos l, O, hn, h => by
    simp only [Re.noSelf] at hn; simp only [Re.noNegLook, Bool.and_eq_true] at h
    simp only [Re.SndOK]; exact ⟨noNegLookList.sndOK hn h.2, by simp [h.1]⟩
  | .atomic l, O, hn, h => by
    simp only [Re.noSelf] at hn; simp only [Re.noNegLook] at h
    simp only [Re.SndOK]; exact noNegLookList.sndOK hn h
  | .cc _, _, _, _ | .any, _, _, _ | .str _, _, _, _ | .empty, _, _, _ | .bref _, _, _, _
  | .brefName _, _, _, _ | .boundary _, _, _, _ | .notBoundary _, _, _, _ | .sBegin, _, _, _
  | .sEnd, _, _, _ | .sEndLine, _, _, _ | .lBegin, _, _, _ | .lEnd, _, _, _ | .mode _, _, _, _
  | .reject _, _, _, _ => by simp [Re.SndOK]

theorem noNegLookList.sndOK {num : List Nat → Option Nat} {C : Cfg} {sh : Shape} :
    ∀ {l : List Re} {O : List Nat}, noSelfList num O l = true → noNegLookList l = true → SndOKList C sh l
  | [], _, _, _ => by simp [SndOKList]
  | r :: l, O, hn, h => by
    simp only [noSelfList, Bool.and_eq_true] at hn
    simp only [noNegLookList, Bool.and_eq_true] at h
    simp only [SndOKList]
    exact ⟨Re.noNegLook.sndOK hn.1 h.1, noNegLookList.sndOK hn.2 h.2⟩
end

mutual
theorem Re.noNegLook.negCaps {G : List Nat} : ∀ {r : Re}, r.noNegLook = true → r.negCaps G = true
  | .sel l, h | .seq l, h | .rep _ _ _ l, h | .cap _ _ l, h | .atomic l, h => by
    simp only [Re.noNegLook] at h; simp only [Re.negCaps]; exact noNegLookList.negCaps h
  | .ahead pos l, h | .behind pos l, h => by
    simp only [Re.noNegLook, Bool.and_eq_true] at h
    simp only [Re.negCaps, Bool.and_eq_true]
    exact ⟨noNegLookList.negCaps h.2, by simp [h.1]⟩
  | .cc _, _ | .any, _ | .str _, _ | .empty, _ | .bref _, _
  | .brefName _, _ | .boundary _, _ | .notBoundary _, _ | .sBegin, _
  | .sEnd, _ | .sEndLine, _ | .lBegin, _ | .lEnd, _ | .mode _, _
  | .reject _, _ => by simp [Re.negCaps]

theorem noNegLookList.negCaps {G : List Nat} : ∀ {l : List Re}, noNegLookList l = true → negCapsList G l = true
  | [], _ => by simp [negCapsList]
  | r :: l, h => by
    simp only [noNegLookList, Bool.and_eq_true] at h
    simp only [negCapsList, Bool.and_eq_true]
    exact ⟨Re.noNegLook.negCaps h.1, noNegLookList.negCaps h.2⟩
end

mutual
theorem Re.capsIn.negCaps {G : List Nat} : ∀ {r : Re}, r.capsIn G = true → r.negCaps G = true
  | .sel l, h | .seq l, h | .rep _ _ _ l, h | .atomic l, h => by
    simp only [Re.capsIn] at h; simp only [Re.negCaps]; exact capsInList.negCaps h
  | .cap _ _ l, h => by
    simp only [Re.capsIn, Bool.and_eq_true] at h; simp only [Re.negCaps]; exact capsInList.negCaps h.2
  | .ahead pos l, h | .behind pos l, h => by
    simp only [Re.capsIn] at h
    simp only [Re.negCaps, Bool.and_eq_true]
    exact ⟨capsInList.negCaps h, by simp [h]⟩
  | .cc _, _ | .any, _ | .str _, _ | .empty, _ | .bref _, _
  | .brefName _, _ | .boundary _, _ | .notBoundary _, _ | .sBegin, _
  | .sEnd, _ | .sEndLine, _ | .lBegin, _ | .lEnd, _ | .mode _, _
  | .reject _, _ => by simp [Re.negCaps]

theorem capsInList.negCaps {G : List Nat} : ∀ {l : List Re}, capsInList G l = true → negCapsList G l = true
  | [], _ => by simp [negCapsList]
  | r :: l, h => by
    simp only [capsInList, Bool.and_eq_true] at h
    simp only [negCapsList, Bool.and_eq_true]
    exact ⟨Re.capsIn.negCaps h.1, capsInList.negCaps h.2⟩
end

end Ctre
