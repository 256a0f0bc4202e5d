import Verif.Lemmas.WaysEval
import Verif.Lemmas.WaysRefine
import Verif.Lemmas.Attempt
import Verif.Spec.Compiles

/-
From the first way of an attempt to the reported result.
-/
namespace Ctre

mutual
theorem Re.sways_touch {U : Uni} {num : List Nat → Option Nat} : ∀ {r : Re} {O : List Nat} {s : List Ch} {x y : SSt},
    r.noSelf num O = true → y ∈ r.sways U s x → Frame O x y ∧ Touched x y
  | .sel l, O, s, x, y, hn, h => by
    simp only [Re.sways] at h; simp only [Re.noSelf] at hn; exact swaysAny_touch hn h
  | .seq l, O, s, x, y, hn, h => by
    simp only [Re.sways] at h; simp only [Re.noSelf] at hn; exact swaysAll_touch hn h
  | .rep _ _ _ l, O, s, x, y, hn, h => by
    simp only [Re.sways] at h
    simp only [Re.noSelf] at hn
    obtain ⟨j, _, _, h3⟩ := mem_repeats h
    refine Iterate.inv (P := fun z => Frame O x z ∧ Touched x z) ?_ h3 ⟨.rfl', .rfl'⟩
    intro u v huv hu
    obtain ⟨z, hz, _, rfl⟩ := mem_siteration huv
    obtain ⟨h1, h2⟩ := swaysAll_touch hn hz
    exact ⟨hu.1.trans h1, hu.2.trans h2⟩
  | .cap id _ l, O, s, x, y, hn, h => by
    simp only [Re.sways] at h
    simp only [Re.noSelf, Bool.and_eq_true, bne_iff_ne, ne_eq, Bool.not_eq_true',
      List.contains_eq_mem, decide_eq_false_iff_not] at hn
    split at h
    · rename_i hid
      simp only [List.mem_map] at h
      obtain ⟨z, hz, rfl⟩ := h
      obtain ⟨h1, h2⟩ := swaysAll_touch hn.2 hz
      refine ⟨?_, ?_⟩
      · intro id' hid'
        have he : id' ≠ id := by rintro rfl; exact hn.1.2 hid'
        have := h1 id' (by simp [hid'])
        simpa [selectId_modifyId, he] using this
      · intro id'
        by_cases he : id' = id
        · subst he
          right
          have h3 := h1 id' (by simp)
          simp only [selectId_modifyId, if_true] at h3
          rw [← selectId_isSome] at hid
          obtain ⟨sl, hsl⟩ := Option.isSome_iff_exists.1 hid
          rw [hsl] at h3
          simp only [selectId_modifyId, if_true, h3]
          exact ⟨_, _, rfl⟩
        · have := h2 id'
          simpa [selectId_modifyId, he] using this
    · simp at h
  | .ahead pos l, O, s, x, y, hn, h => by
    simp only [Re.sways] at h; simp only [Re.noSelf] at hn
    split at h
    · split at h <;> simp at h
      subst h; exact ⟨.rfl', .rfl'⟩
    · rename_i z _ hz
      split at h <;> simp at h
      subst h
      have h1 := swaysAll_touch (y := z) hn (by rw [hz]; simp)
      exact ⟨h1.1, h1.2⟩
  | .behind pos l, O, s, x, y, hn, h => by
    simp only [Re.sways] at h; simp only [Re.noSelf] at hn
    split at h
    · split at h <;> simp at h
      subst h; exact ⟨.rfl', .rfl'⟩
    · rename_i z _ hz
      split at h <;> simp at h
      subst h
      have h1 := swaysAll_touch (y := z) hn (by rw [hz]; simp)
      exact ⟨h1.1, h1.2⟩
  | .atomic l, O, s, x, y, hn, h => by
    simp only [Re.sways] at h; simp only [Re.noSelf] at hn
    obtain ⟨z, hz, _, rfl⟩ := mem_siteration (List.mem_of_mem_take h)
    have h1 := swaysAll_touch hn hz
    exact ⟨h1.1, h1.2⟩
  | .cc _, O, s, x, y, hn, h | .any, O, s, x, y, hn, h => by
    simp only [Re.sways] at h
    split at h
    · simp at h
    · split at h <;> simp at h
      subst h; exact ⟨.rfl', .rfl'⟩
  | .str _, O, s, x, y, hn, h => by
    simp only [Re.sways] at h
    obtain ⟨p, h1, rfl⟩ := mem_cmpWays h
    exact ⟨.rfl', .rfl'⟩
  | .bref _, O, s, x, y, hn, h | .brefName _, O, s, x, y, hn, h => by
    simp only [Re.sways] at h
    obtain ⟨p, q, h1, rfl⟩ := mem_brefWays h
    exact ⟨.rfl', .rfl'⟩
  | .empty, O, s, x, y, hn, h | .mode _, O, s, x, y, hn, h => by
    simp only [Re.sways, List.mem_singleton] at h
    subst h
    exact ⟨.rfl', .rfl'⟩
  | .reject _, O, s, x, y, hn, h => by simp [Re.sways] at h
  | .boundary _, O, s, x, y, hn, h | .notBoundary _, O, s, x, y, hn, h | .sBegin, O, s, x, y, hn, h
  | .sEnd, O, s, x, y, hn, h | .sEndLine, O, s, x, y, hn, h | .lBegin, O, s, x, y, hn, h
  | .lEnd, O, s, x, y, hn, h => by
    simp only [Re.sways] at h
    split at h <;> simp at h
    subst h
    exact ⟨.rfl', .rfl'⟩

theorem swaysAll_touch {U : Uni} {num : List Nat → Option Nat} : ∀ {l : List Re} {O : List Nat} {s : List Ch} {x y : SSt},
    noSelfList num O l = true → y ∈ swaysAll U l s x → Frame O x y ∧ Touched x y
  | [], O, s, x, y, hn, h => by
    simp only [swaysAll, List.mem_singleton] at h; subst h; exact ⟨.rfl', .rfl'⟩
  | r :: l, O, s, x, y, hn, h => by
    simp only [swaysAll, List.mem_flatMap] at h
    simp only [noSelfList, Bool.and_eq_true] at hn
    obtain ⟨z, h1, h2⟩ := h
    obtain ⟨h3, h4⟩ := Re.sways_touch hn.1 h1
    obtain ⟨h5, h6⟩ := swaysAll_touch hn.2 h2
    exact ⟨h3.trans h5, h4.trans h6⟩

theorem swaysAny_touch {U : Uni} {num : List Nat → Option Nat} : ∀ {l : List Re} {O : List Nat} {s : List Ch} {x y : SSt},
    noSelfList num O l = true → y ∈ swaysAny U l s x → Frame O x y ∧ Touched x y
  | [], O, s, x, y, hn, h => by simp [swaysAny] at h
  | r :: l, O, s, x, y, hn, h => by
    simp only [swaysAny, List.mem_append] at h
    simp only [noSelfList, Bool.and_eq_true] at hn
    rcases h with h | h
    · exact Re.sways_touch hn.1 h
    · exact swaysAny_touch hn.2 h
end

mutual
theorem Re.fit_of {num : List Nat → Option Nat} : ∀ {r : Re} {O : List Nat}, r.noSelf num O = true → r.attentive = true → r.fit = true
  | .sel l, O, h, h' => by
    simp only [Re.noSelf] at h; simp only [Re.attentive] at h'; simp only [Re.fit]; exact fitAll_of h h'
  | .seq l, O, h, h' | .ahead _ l, O, h, h' | .behind _ l, O, h, h' => by
    simp only [Re.noSelf] at h; simp only [Re.attentive, Bool.and_eq_true] at h'; simp only [Re.fit, Bool.and_eq_true]
    exact ⟨h'.1, fitAll_of h h'.2⟩
  | .cap id _ l, O, h, h' => by
    simp only [Re.noSelf, Bool.and_eq_true, bne_iff_ne, ne_eq] at h
    simp only [Re.attentive, Bool.and_eq_true] at h'
    simp only [Re.fit, Bool.and_eq_true, decide_eq_true_eq]
    exact ⟨⟨h.1.1, h'.1⟩, fitAll_of h.2 h'.2⟩
  | .rep _ _ _ l, O, h, h' | .atomic l, O, h, h' => by
    simp only [Re.noSelf] at h; simp only [Re.attentive, Bool.and_eq_true] at h'; simp only [Re.fit, Bool.and_eq_true, progress]
    exact ⟨h'.1, fitAll_of h h'.2⟩
  | .cc _, _, _, _ | .any, _, _, _ | .str _, _, _, _ | .bref _, _, _, _ | .brefName _, _, _, _ | .empty, _, _, _ | .mode _, _, _, _
  | .reject _, _, _, _ | .boundary _, _, _, _ | .notBoundary _, _, _, _ | .sBegin, _, _, _ | .sEnd, _, _, _ | .sEndLine, _, _, _
  | .lBegin, _, _, _ | .lEnd, _, _, _ => rfl

theorem fitAll_of {num : List Nat → Option Nat} : ∀ {l : List Re} {O : List Nat}, noSelfList num O l = true → attentiveAll l = true →
    fitAll l = true
  | [], _, _, _ => rfl
  | r :: l, O, h, h' => by
    simp only [noSelfList, Bool.and_eq_true] at h
    simp only [attentiveAll, Bool.and_eq_true] at h'
    simp only [fitAll, Bool.and_eq_true]
    exact ⟨Re.fit_of h.1 h'.1, fitAll_of h.2 h'.2⟩
end

mutual
theorem Re.tame_capsIn {G : List Nat} {N : List (List Nat)} : ∀ {r : Re} {lb : Bool}, r.tame G N lb = true → r.capsIn G = true
  | .sel l, lb, h | .seq l, lb, h | .ahead _ l, lb, h | .behind _ l, lb, h => by
    simp only [Re.tame] at h; simp only [Re.capsIn]; exact tameAll_capsIn h
  | .rep _ _ _ l, lb, h | .atomic l, lb, h => by
    simp only [Re.tame, Bool.and_eq_true] at h; simp only [Re.capsIn]; exact tameAll_capsIn h.2
  | .cap id _ l, lb, h => by
    simp only [Re.tame, Bool.and_eq_true] at h
    simp only [Re.capsIn, Bool.and_eq_true]
    exact ⟨h.1.2, tameAll_capsIn h.2⟩
  | .cc _, _, _ | .any, _, _ | .str _, _, _ | .bref _, _, _ | .brefName _, _, _ | .empty, _, _ | .mode _, _, _
  | .reject _, _, _ | .boundary _, _, _ | .notBoundary _, _, _ | .sBegin, _, _ | .sEnd, _, _ | .sEndLine, _, _
  | .lBegin, _, _ | .lEnd, _, _ => rfl

theorem tameAll_capsIn {G : List Nat} {N : List (List Nat)} : ∀ {l : List Re} {lb : Bool}, tameAll G N lb l = true → capsInList G l = true
  | [], _, _ => rfl
  | r :: l, lb, h => by
    simp only [tameAll, Bool.and_eq_true] at h
    simp only [capsInList, Bool.and_eq_true]
    exact ⟨Re.tame_capsIn h.1, tameAll_capsIn h.2⟩
end

/-- What an attempt without end anchor does. -/
theorem attempt_first {C : Cfg} (hC : C.greedyOpt = false) {n : Nat} {s : List Ch} {f : Flags} {r : Re} {p : Nat} (hp : p ≤ s.length)
    (hf : r.fit = true) :
    Yields (fun c y => c.groups = y.gs ∧ c.whole = ⟨some p, some y.pos, true⟩) (attempt C n s f r p)
      (r.sways C.uni s (sst p f (initCaps r))) := by
  unfold attempt
  cases n with
  | zero => rw [eval_zero]; exact .other (by simp) (by simp)
  | succ n =>
    rw [eval_startMark]
    simp only [Bool.false_eq_true, if_false]
    have h := eval_first hC (shape r.captures) n s false p f ((initCaps r).setStart p) [.re r, .endMark, .accept] hp
      (by simp [fitSt, Item.fit, hf]) (initGood r p) (by intro _ h; simp [cyc] at h)
    have hacc : accepted C.uni s p f ((initCaps r).setStart p) [.re r, .endMark, .accept] = r.sways C.uni s (sst p f (initCaps r)) := by
      simp only [accepted, cyc, Bool.and_false, filter_kept_false, stackWays, if_true, List.flatMap_singleton']
      rfl
    rw [hacc] at h
    refine h.mono ?_
    intro c y h
    refine ⟨h.groups, ?_⟩
    have hb := h.start (by simp)
    have he := h.endPos (by simp [endsPos])
    have hm := h.matched
    cases hc : c.whole
    rw [hc] at hb he hm
    simp_all [Caps.setStart]

/-- What an attempt with end anchor does. -/
theorem attemptFull_first {C : Cfg} (hC : C.greedyOpt = false) {n : Nat} {s : List Ch} {f : Flags} {r : Re} {p : Nat} (hp : p ≤ s.length)
    (hf : r.fit = true) :
    Yields (fun c y => c.groups = y.gs ∧ c.whole = ⟨some p, some y.pos, true⟩) (attemptFull C n s f r p)
      ((r.sways C.uni s (sst p f (initCaps r))).filter fun y => decide (y.pos = s.length)) := by
  unfold attemptFull
  cases n with
  | zero => rw [eval_zero]; exact .other (by simp) (by simp)
  | succ n =>
    rw [eval_startMark]
    simp only [Bool.false_eq_true, if_false]
    have h := eval_first hC (shape r.captures) n s false p f ((initCaps r).setStart p) [.re r, .re .sEnd, .endMark, .accept] hp
      (by simp [fitSt, Item.fit, hf, Re.fit]) (initGood r p) (by intro _ h; simp [cyc] at h)
    have hacc : accepted C.uni s p f ((initCaps r).setStart p) [.re r, .re .sEnd, .endMark, .accept] =
        (r.sways C.uni s (sst p f (initCaps r))).filter fun y => decide (y.pos = s.length) := by
      simp only [accepted, cyc, Bool.and_false, filter_kept_false, stackWays, if_true, List.flatMap_singleton']
      have hs : sst p f ((initCaps r).setStart p) = sst p f (initCaps r) := rfl
      rw [hs]
      generalize r.sways C.uni s (sst p f (initCaps r)) = L
      induction L with
      | nil => rfl
      | cons y L ih =>
        rw [List.flatMap_cons, List.filter_cons, ih]
        simp only [Re.sways, testAt]
        by_cases hy : y.pos = s.length
        · simp [hy]
        · simp [hy, Ne.symm hy]
    rw [hacc] at h
    refine h.mono ?_
    intro c y h
    refine ⟨h.groups, ?_⟩
    have hb := h.start (by simp)
    have he := h.endPos (by simp [endsPos])
    have hm := h.matched
    cases hc : c.whole
    rw [hc] at hb he hm
    simp_all [Caps.setStart]

/-- The result reports a corresponding state. -/
theorem reports_of_rel {C : Cfg} {r : Re} (hr : r.WellNumbered) {s : List Ch} {p : Nat} {f : Flags} {y : SSt} {τ : MState} {c : Caps}
    (hy : y ∈ r.sways C.uni s (sst p f (initCaps r))) (hrel : Rel (envOf C r) s (groupIds r.captures) [] y τ)
    (hg : c.groups = y.gs) (hw : c.whole = ⟨some p, some y.pos, true⟩) : Reports c p τ := by
  have ht := (Re.sways_touch hr.noSelf hy).2
  refine ⟨?_, ?_⟩
  · simp only [Caps.get, if_true, hw, hrel.pos]
  · intro id sl hid hsl
    simp only [Caps.get, if_neg hid, hg] at hsl
    have h1 := hrel.slots id (by simp)
    unfold refSlot at h1
    rw [if_neg hid, hsl] at h1
    have h2 := ht id
    rw [hsl] at h2
    rcases h2 with h2 | ⟨b, e, h2⟩
    · have := selectId_unset (captures_unset r) id sl h2.symm
      subst this
      simp only [SlotRel, Bool.false_eq_true, false_and, false_or] at h1
      rw [h1.2]
    · simp only [Option.some.injEq] at h2
      subst h2
      simp only [SlotRel] at h1
      rcases h1 with ⟨_, b', e', hb, he, hv⟩ | ⟨hc, _⟩
      · rw [hv]; simp only [Option.some.injEq] at hb he; subst hb he; rfl
      · exact absurd ⟨rfl, b, e, rfl, rfl⟩ hc

theorem LRel.filterEq {E : Env} {s : List Ch} {G O : List Nat} {x : SSt} {L : List SSt} {M : List MState} (h : LRel E s G O x L M) (q : Nat) :
    LRel E s G O x (L.filter fun z => decide (z.pos = q)) (M.filter fun ρ => decide (ρ.pos = q)) := by
  induction h with
  | nil => exact .nil
  | @cons a b _ _ h1 _ ih =>
    have := h1.1.pos
    simp only [List.filter_cons, this]
    split
    · exact .cons h1 ih
    · exact ih

/-- From the ways of the machine to the ways of the specification. -/
theorem report_first {C : Cfg} {r : Re} (hr : r.WellNumbered) {s : List Ch} {p : Nat} {f : Flags} {o : Out} {L : List SSt} {M : List MState}
    (h : Yields (fun c y => c.groups = y.gs ∧ c.whole = ⟨some p, some y.pos, true⟩) o L)
    (hL : ∀ y ∈ L, y ∈ r.sways C.uni s (sst p f (initCaps r)))
    (hrel : LRel (envOf C r) s (groupIds r.captures) [] (sst p f (initCaps r)) L M) :
    (o = .fail → M = []) ∧ ∀ c, o = .ok c → c.whole.matched = true ∧ ∃ τ rest, M = τ :: rest ∧ Reports c p τ := by
  refine ⟨?_, ?_⟩
  · intro ho
    rw [h.1 ho] at hrel
    cases hrel; rfl
  · intro c hc
    obtain ⟨y, rest, h1, h2, h3⟩ := h.2 c hc
    subst h1
    refine ⟨by rw [h3], ?_⟩
    cases hrel with
    | cons a _ => exact ⟨_, _, rfl, reports_of_rel hr (hL y (by simp)) a.1 h2 h3⟩

end Ctre
