import Verif.Lemmas.StaticSame

/-
The condition of C44 is sufficient for everything that is instantiated.
-/
namespace Ctre

theorem hasId_of {K : Known} {ids : List Nat} (h : ids = K.ids) {id : Nat} (hi : ids.contains id = true) : K.hasId id = true := by
  subst h
  simp only [Known.hasId, hi, Bool.or_true]

abbrev Scanned (C : Cfg) (lb : Bool) (x : Bool) : Prop := C.greedyOpt = true → lb = false → x = true

mutual
theorem re_tame {C : Cfg} {K : Known} : ∀ (r : Re) (lb : Bool) (t : Stack), r.tame K.ids K.names lb = true →
    Scanned C lb (r.scannable (scansSt t)) → Compiled C K (lb, t) → Compiled C K (lb, .re r :: t)
  | .sel l, lb, t, h, hr, ho => by
    simp only [Scanned, Re.tame, Re.scannable] at h hr
    exact sel_tame l lb t h hr ho
  | .seq l, lb, t, h, hr, ho => by
    simp only [Scanned, Re.tame, Re.scannable] at h hr
    exact seq_tame l lb t h hr ho
  | .rep k a b m, lb, t, h, hr, ho => by
    simp only [Scanned, Re.tame, Re.scannable, Bool.and_eq_true, Bool.not_eq_true', Bool.or_eq_true, decide_eq_true_eq] at h hr
    obtain ⟨rfl, h⟩ := h
    cases hi : inverted a b with
    | true => exact .of ⟨[], uses_inverted hi, by simp⟩
    | false =>
      refine .rep_of hi ?_ (items_tame m false [.endCycle] h (fun hg _ => ?_) compiled_endCycle) ho
      · intro hk hg
        obtain ⟨h1, h2⟩ := hr hg rfl
        rcases h1 with h1 | h1
        · exact absurd hk h1
        · exact loopCollides_some h1.1 h1.2
      · exact (hr hg rfl).2
  | .cap id n m, lb, t, h, hr, ho => by
    simp only [Scanned, Re.tame, Re.scannable, Bool.and_eq_true, Bool.not_eq_true'] at h hr
    obtain ⟨⟨rfl, hid⟩, h⟩ := h
    have hid : K.hasId id = true := hasId_of rfl hid
    refine .of ⟨[(false, .re (.seq m) :: .numMark id :: t)], by simp [uses, hid], ?_⟩
    intro y hy
    simp only [List.mem_singleton] at hy
    subst hy
    exact seq_tame m false _ h (fun hg _ => hr hg rfl) (.of ⟨[(false, t)], by simp [uses, hid], by simpa using ho⟩)
  | .ahead p m, lb, t, h, hr, ho => by
    simp only [Scanned, Re.tame, Re.scannable] at h hr
    refine .of ⟨[(lb, [.re (.seq m), .endAhead]), (lb, t)], rfl, ?_⟩
    intro y hy
    simp only [List.mem_cons, List.not_mem_nil, or_false] at hy
    rcases hy with rfl | rfl
    · exact seq_tame m lb _ h hr compiled_endAhead
    · exact ho
  | .behind p m, lb, t, h, hr, ho => by
    simp only [Re.tame] at h
    refine .of ⟨[(true, [.re (.seq m), .endBehind]), (lb, t)], rfl, ?_⟩
    intro y hy
    simp only [List.mem_cons, List.not_mem_nil, or_false] at hy
    rcases hy with rfl | rfl
    · exact seq_tame m true _ h (by simp [Scanned]) compiled_endBehind
    · exact ho
  | .atomic m, lb, t, h, hr, ho => by
    simp only [Scanned, Re.tame, Re.scannable, Bool.and_eq_true, Bool.not_eq_true'] at h hr
    obtain ⟨rfl, h⟩ := h
    refine .of ⟨[(false, .re (.rep .poss 1 1 m) :: t)], rfl, ?_⟩
    intro y hy
    simp only [List.mem_singleton] at hy
    subst hy
    exact .rep_of rfl (by simp) (items_tame m false [.endCycle] h (fun hg _ => hr hg rfl) compiled_endCycle) ho
  | .bref id, lb, t, h, hr, ho => by
    simp only [Re.tame, Bool.and_eq_true, Bool.not_eq_true'] at h
    obtain ⟨rfl, hid⟩ := h
    exact .of ⟨[(false, t)], by simp [uses, hasId_of rfl hid], by simpa using ho⟩
  | .brefName nm, lb, t, h, hr, ho => by
    simp only [Re.tame, Bool.and_eq_true, Bool.not_eq_true'] at h
    obtain ⟨rfl, hid⟩ := h
    have hid : K.hasName nm = true := hid
    exact .of ⟨[(false, t)], by simp [uses, hid], by simpa using ho⟩
  | .reject _, lb, t, h, hr, ho => .of ⟨[], rfl, by simp⟩
  | .cc _, lb, t, h, hr, ho | .any, lb, t, h, hr, ho | .str _, lb, t, h, hr, ho | .empty, lb, t, h, hr, ho
  | .boundary _, lb, t, h, hr, ho | .notBoundary _, lb, t, h, hr, ho
  | .sBegin, lb, t, h, hr, ho | .sEnd, lb, t, h, hr, ho | .sEndLine, lb, t, h, hr, ho | .lBegin, lb, t, h, hr, ho
  | .lEnd, lb, t, h, hr, ho | .mode _, lb, t, h, hr, ho =>
    .of ⟨[(lb, t)], rfl, by simpa using ho⟩

theorem sel_tame {C : Cfg} {K : Known} : ∀ (l : List Re) (lb : Bool) (t : Stack), tameAll K.ids K.names lb l = true →
    Scanned C lb (scannableEach (scansSt t) l) → Compiled C K (lb, t) → Compiled C K (lb, .re (.sel l) :: t)
  | [], lb, t, h, hr, ho => .of ⟨[], rfl, by simp⟩
  | r :: l, lb, t, h, hr, ho => by
    simp only [Scanned, tameAll, scannableEach, Bool.and_eq_true] at h hr
    refine .of ⟨[(lb, .re r :: t), (lb, .re (.sel l) :: t)], rfl, ?_⟩
    intro y hy
    simp only [List.mem_cons, List.not_mem_nil, or_false] at hy
    rcases hy with rfl | rfl
    · exact re_tame r lb t h.1 (fun hg hb => (hr hg hb).1) ho
    · exact sel_tame l lb t h.2 (fun hg hb => (hr hg hb).2) ho

theorem seq_tame {C : Cfg} {K : Known} : ∀ (l : List Re) (lb : Bool) (t : Stack), tameAll K.ids K.names lb l = true →
    Scanned C lb (scannableAll (scansSt t) l) → Compiled C K (lb, t) → Compiled C K (lb, .re (.seq l) :: t)
  | [], _, _, _, _, _ => .of ⟨[], rfl, by simp⟩
  | [r], lb, t, h, hr, ho => by
    simp only [Scanned, tameAll, scannableAll, scansAll, Bool.true_and, Bool.and_true] at h hr
    exact .of ⟨[(lb, .re r :: t)], rfl, by simpa using re_tame r lb t h hr ho⟩
  | r :: r' :: l, lb, t, h, hr, ho => by
    rw [tameAll] at h
    rw [Scanned, scannableAll] at hr
    simp only [Bool.and_eq_true] at h hr
    refine .of ⟨[(lb, .re r :: .re (.seq (r' :: l)) :: t)], rfl, ?_⟩
    intro y hy
    simp only [List.mem_singleton] at hy
    subst hy
    exact re_tame r lb _ h.1 (fun hg hb => (hr hg hb).1) (seq_tame (r' :: l) lb t h.2 (fun hg hb => (hr hg hb).2) ho)

theorem items_tame {C : Cfg} {K : Known} : ∀ (l : List Re) (lb : Bool) (t : Stack), tameAll K.ids K.names lb l = true →
    Scanned C lb (scannableAll (scansSt t) l) → Compiled C K (lb, t) → Compiled C K (lb, items l t)
  | [], _, _, _, _, ho => ho
  | r :: l, lb, t, h, hr, ho => by
    rw [tameAll] at h
    rw [Scanned, scannableAll] at hr
    simp only [Bool.and_eq_true] at h hr
    refine re_tame r lb (items l t) h.1 (fun hg hb => ?_) (items_tame l lb t h.2 (fun hg hb => (hr hg hb).2) ho)
    rw [scansSt_items]
    exact (hr hg hb).1
end

end Ctre
