import Verif.Lemmas.StaticExact

/-
What follows a pattern matters only through its first characters, and through whether it compiles.
-/
namespace Ctre

/-- `t'` may take the place of `t`. -/
structure Replaces (C : Cfg) (K : Known) (lb : Bool) (t t' : Stack) : Prop where
  same : ∀ l, first t l = first t' l
  comp : Compiled C K (lb, t) → Compiled C K (lb, t')

theorem first_re_congr (r : Re) {t t' : Stack} (h : ∀ l, first t l = first t' l) (l : List FC) :
    first (.re r :: t) l = first (.re r :: t') l := by
  simp only [first]
  rw [show first t = first t' from funext h]

theorem loopCollides_congr (m : List Re) {t t' : Stack} (h : ∀ l, first t l = first t' l) : loopCollides m t = loopCollides m t' := by
  unfold loopCollides
  rw [h []]

mutual
theorem re_same {C : Cfg} {K : Known} : ∀ (r : Re) (lb : Bool) (t t' : Stack), Replaces C K lb t t' →
    Compiled C K (lb, .re r :: t) → Compiled C K (lb, .re r :: t')
  | .sel l, lb, t, t', h, hc => sel_same l lb t t' h hc
  | .seq [], lb, t, t', h, hc => .of ⟨[], rfl, by simp⟩
  | .seq (r :: l), lb, t, t', h, hc => seq_same (r :: l) lb t t' h hc
  | .rep k a b m, lb, t, t', h, hc => by
    cases hi : inverted a b with
    | true => exact .of ⟨[], uses_inverted hi, by simp⟩
    | false =>
      obtain ⟨rfl, h1, h2, h3⟩ := hc.rep hi
      exact .rep_of hi (by rw [← loopCollides_congr m h.same]; exact h1) h2 (h.comp h3)
  | .cap id n m, lb, t, t', h, hc => by
    have h0 := hc.none
    cases lb with
    | true => simp [uses] at h0
    | false =>
      cases hid : K.hasId id with
      | false => simp [uses, hid] at h0
      | true =>
        have h1 := hc.all (l := [(false, .re (.seq m) :: .numMark id :: t)]) (by simp [uses, hid]) _ (List.mem_singleton.2 rfl)
        refine .of ⟨[(false, .re (.seq m) :: .numMark id :: t')], by simp [uses, hid], ?_⟩
        intro y hy
        simp only [List.mem_singleton] at hy
        subst hy
        refine seq_same m false _ _ ⟨fun l => by simp only [first]; exact h.same l, fun hn => ?_⟩ h1
        exact .of ⟨[(false, t')], by simp [uses, hid], by
          simpa using h.comp (hn.all (l := [(false, t)]) (by simp [uses, hid]) _ (by simp))⟩
  | .ahead p m, lb, t, t', h, hc => by
    have h1 := hc.all (l := [(lb, [.re (.seq m), .endAhead]), (lb, t)]) rfl
    refine .of ⟨[(lb, [.re (.seq m), .endAhead]), (lb, t')], rfl, ?_⟩
    intro y hy
    simp only [List.mem_cons, List.not_mem_nil, or_false] at hy
    rcases hy with rfl | rfl
    · exact h1 _ (by simp)
    · exact h.comp (h1 _ (by simp))
  | .behind p m, lb, t, t', h, hc => by
    have h1 := hc.all (l := [(true, [.re (.seq m), .endBehind]), (lb, t)]) rfl
    refine .of ⟨[(true, [.re (.seq m), .endBehind]), (lb, t')], rfl, ?_⟩
    intro y hy
    simp only [List.mem_cons, List.not_mem_nil, or_false] at hy
    rcases hy with rfl | rfl
    · exact h1 _ (by simp)
    · exact h.comp (h1 _ (by simp))
  | .atomic m, lb, t, t', h, hc => by
    have h1 := hc.all (l := [(lb, .re (.rep .poss 1 1 m) :: t)]) rfl _ (List.mem_singleton.2 rfl)
    obtain ⟨rfl, -, h2, h3⟩ := h1.rep rfl
    refine .of ⟨[(false, .re (.rep .poss 1 1 m) :: t')], rfl, ?_⟩
    intro y hy
    simp only [List.mem_singleton] at hy
    subst hy
    exact .rep_of rfl (by simp) h2 (h.comp h3)
  | .bref id, lb, t, t', h, hc => by
    have h0 := hc.none
    cases lb with
    | true => simp [uses] at h0
    | false =>
      cases hid : K.hasId id with
      | false => simp [uses, hid] at h0
      | true =>
        exact .of ⟨[(false, t')], by simp [uses, hid], by
          simpa using h.comp (hc.all (l := [(false, t)]) (by simp [uses, hid]) _ (by simp))⟩
  | .brefName nm, lb, t, t', h, hc => by
    have h0 := hc.none
    cases lb with
    | true => simp [uses] at h0
    | false =>
      cases hid : K.hasName nm with
      | false => simp [uses, hid] at h0
      | true =>
        exact .of ⟨[(false, t')], by simp [uses, hid], by
          simpa using h.comp (hc.all (l := [(false, t)]) (by simp [uses, hid]) _ (by simp))⟩
  | .reject _, lb, t, t', h, hc => .of ⟨[], rfl, by simp⟩
  | .cc _, lb, t, t', h, hc | .any, lb, t, t', h, hc | .str _, lb, t, t', h, hc | .empty, lb, t, t', h, hc
  | .boundary _, lb, t, t', h, hc | .notBoundary _, lb, t, t', h, hc
  | .sBegin, lb, t, t', h, hc | .sEnd, lb, t, t', h, hc | .sEndLine, lb, t, t', h, hc | .lBegin, lb, t, t', h, hc
  | .lEnd, lb, t, t', h, hc | .mode _, lb, t, t', h, hc =>
    .of ⟨[(lb, t')], rfl, by simpa using h.comp (hc.all (l := [(lb, t)]) rfl _ (by simp))⟩

theorem sel_same {C : Cfg} {K : Known} : ∀ (l : List Re) (lb : Bool) (t t' : Stack), Replaces C K lb t t' →
    Compiled C K (lb, .re (.sel l) :: t) → Compiled C K (lb, .re (.sel l) :: t')
  | [], lb, t, t', h, hc => .of ⟨[], rfl, by simp⟩
  | r :: l, lb, t, t', h, hc => by
    have h1 := hc.all (l := [(lb, .re r :: t), (lb, .re (.sel l) :: t)]) rfl
    refine .of ⟨[(lb, .re r :: t'), (lb, .re (.sel l) :: t')], rfl, ?_⟩
    intro y hy
    simp only [List.mem_cons, List.not_mem_nil, or_false] at hy
    rcases hy with rfl | rfl
    · exact re_same r lb t t' h (h1 _ (by simp))
    · exact sel_same l lb t t' h (h1 _ (by simp))

theorem seq_same {C : Cfg} {K : Known} : ∀ (l : List Re) (lb : Bool) (t t' : Stack), Replaces C K lb t t' →
    Compiled C K (lb, .re (.seq l) :: t) → Compiled C K (lb, .re (.seq l) :: t')
  | [], lb, t, t', h, hc => .of ⟨[], rfl, by simp⟩
  | [r], lb, t, t', h, hc => by
    have h1 := hc.all (l := [(lb, .re r :: t)]) rfl
    exact .of ⟨[(lb, .re r :: t')], rfl, by simpa using re_same r lb t t' h (h1 _ (by simp))⟩
  | r :: r' :: l, lb, t, t', h, hc => by
    have h1 := hc.all (l := [(lb, .re r :: .re (.seq (r' :: l)) :: t)]) rfl
    exact .of ⟨[(lb, .re r :: .re (.seq (r' :: l)) :: t')], rfl, by
      simpa using re_same r lb _ _ ⟨first_re_congr _ h.same, seq_same (r' :: l) lb t t' h⟩ (h1 _ (by simp))⟩
end

theorem compiled_accept {C : Cfg} {K : Known} {lb : Bool} : Compiled C K (lb, [.accept]) := .of ⟨[], rfl, by simp⟩

theorem compiled_endMark {C : Cfg} {K : Known} : Compiled C K (false, [.endMark, .accept]) :=
  .of ⟨[(false, [.accept])], rfl, by simpa using compiled_accept⟩

theorem compiled_sEnd {C : Cfg} {K : Known} : Compiled C K (false, [.re .sEnd, .endMark, .accept]) :=
  .of ⟨[(false, [.endMark, .accept])], rfl, by simpa using compiled_endMark⟩

theorem compiled_start {C : Cfg} {K : Known} {t : Stack} : Compiled C K (false, .startMark :: t) ↔ Compiled C K (false, t) := by
  constructor
  · intro h
    exact h.all (l := [(false, t)]) rfl _ (by simp)
  · intro h
    exact .of ⟨[(false, t)], rfl, by simpa using h⟩

end Ctre
