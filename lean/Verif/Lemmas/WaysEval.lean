import Verif.Lemmas.WaysStack
import Mathlib.Tactic.Tauto

/-
The machine reports the first way.
-/
namespace Ctre

mutual
/-- `Re.attentive`, and group numbers are positive. -/
def Re.fit : Re → Bool
  | .sel l => fitAll l
  | .seq l | .ahead _ l | .behind _ l => !l.isEmpty && fitAll l
  | .cap id _ l => decide (id ≠ 0) && !l.isEmpty && fitAll l
  | .rep _ _ _ l | .atomic l => progress l && fitAll l
  | _ => true

def fitAll : List Re → Bool
  | [] => true
  | r :: l => r.fit && fitAll l
end

def Item.fit : Item → Bool
  | .re r => r.fit
  | .numMark id => decide (id ≠ 0)
  | _ => true

def fitSt (st : Stack) : Bool := st.all Item.fit

theorem fitSt_items {l : List Re} {t : Stack} : fitSt (items l t) = (fitAll l && fitSt t) := by
  induction l with
  | nil => simp [items, fitAll]
  | cons r l ih =>
    have : items (r :: l) t = .re r :: items l t := rfl
    rw [this]
    simp only [fitSt, List.all_cons, Item.fit, fitAll] at *
    rw [ih, Bool.and_assoc]

/-- The last item is the end of a loop body. -/
def cyc : Stack → Bool
  | [] => false
  | [.endCycle] => true
  | _ :: t => cyc t

theorem cyc_re (r : Re) (t : Stack) : cyc (.re r :: t) = cyc t := rfl
theorem cyc_num (id : Nat) (t : Stack) : cyc (.numMark id :: t) = cyc t := rfl

theorem cyc_items (l : List Re) (t : Stack) : cyc (items l t) = cyc t := by
  induction l with
  | nil => rfl
  | cons r l ih => exact ih

/-- While the demand for consumption is on, an end without consumption does not count. -/
def kept (b : Bool) (cur : Nat) (y : SSt) : Bool := !b || decide (y.pos ≠ cur)

/-- The ways of the stack that the machine accepts. -/
def accepted (U : Uni) (s : List Ch) (cur : Nat) (f : Flags) (c : Caps) (st : Stack) : List SSt :=
  (stackWays U st s (sst cur f c)).filter (kept (f.blk && cyc st) cur)

/-- The machine keeps the demand as long as necessary. -/
def Inv (f : Flags) (st : Stack) : Prop := f.blk = true → cyc st = true → movesSt st = true ∨ honestSt st = true

/-- What the machine has reported. -/
structure OkAt (s : List Ch) (st : Stack) (c c' : Caps) (y : SSt) : Prop where
  posLe : y.pos ≤ s.length
  groups : c'.groups = y.gs
  matched : c'.whole.matched = true
  shape : shape c'.groups = shape c.groups
  endPos : endsPos st → c'.whole.e = some y.pos
  start : .startMark ∉ st → c'.whole.b = c.whole.b

theorem OkAt.of {s : List Ch} {st st' : Stack} {c c1 c' : Caps} {y : SSt} (h : OkAt s st' c1 c' y)
    (hs : Ctre.shape c1.groups = Ctre.shape c.groups) (hend : endsPos st → endsPos st')
    (hst : .startMark ∉ st → .startMark ∉ st') (hb : c1.whole.b = c.whole.b) : OkAt s st c c' y :=
  ⟨h.posLe, h.groups, h.matched, h.shape.trans hs, fun e => h.endPos (hend e), fun hn => (h.start (hst hn)).trans hb⟩

theorem OkAt.cons {s : List Ch} {t : Stack} {r : Re} {c c1 c' : Caps} {y : SSt} (h : OkAt s t c1 c' y)
    (hs : Ctre.shape c1.groups = Ctre.shape c.groups) (hb : c1.whole.b = c.whole.b) : OkAt s (.re r :: t) c c' y :=
  h.of hs endsPos_of_cons_re (by simp) hb

theorem Yields.mono {β : Type} {Q Q' : Caps → β → Prop} {o : Out} {L : List β} (h : Yields Q o L) (hq : ∀ c y, Q c y → Q' c y) :
    Yields Q' o L := by
  refine ⟨h.1, ?_⟩
  intro c hc
  obtain ⟨y, rest, h1, h2⟩ := h.2 c hc
  exact ⟨y, rest, h1, hq _ _ h2⟩

theorem Yields.orElse' {β : Type} {Q : Caps → β → Prop} {o o' : Out} {L L' : List β} (h : Yields Q o L)
    (h' : o = .fail → Yields Q o' L') : Yields Q (o.orElse o') (L ++ L') := by
  cases o with
  | fail => exact h.orElse (h' rfl)
  | ok c =>
    obtain ⟨y, rest, h1, h2⟩ := h.2 c rfl
    refine ⟨by simp [Out.orElse], ?_⟩
    intro c' hc
    simp only [Out.orElse, Out.ok.injEq] at hc
    subst hc
    exact ⟨y, _, by rw [h1]; rfl, h2⟩
  | _ => exact .other (by simp [Out.orElse]) (by simp [Out.orElse])

theorem kept_false (cur : Nat) (y : SSt) : kept false cur y = true := rfl

theorem filter_kept_false (L : List SSt) (cur : Nat) : L.filter (kept false cur) = L := by
  simp [kept]

/-- After one part of the stack. -/
theorem kept_step {U : Uni} {s : List Ch} {r : Re} {t : Stack} {x z : SSt} {f fz : Flags} (hx : x.pos ≤ s.length)
    (hz : z ∈ r.sways U s x) (hi : Inv f (.re r :: t)) (ha : fz.blk = true → f.blk = true ∧ z.pos = x.pos)
    (hb : f.blk = true → fz.blk = false → x.pos < z.pos ∨ r.honest = false) :
    (stackWays U t s z).filter (kept (f.blk && cyc (.re r :: t)) x.pos) =
      (stackWays U t s z).filter (kept (fz.blk && cyc t) z.pos) := by
  apply List.filter_congr
  intro y hy
  rw [cyc_re]
  have hzp := Re.sways_fwd hz hx
  have hyp := stackWays_fwd hy hzp.2
  cases hf : f.blk with
  | false =>
    have : fz.blk = false := by
      cases h : fz.blk with
      | false => rfl
      | true => simp [(ha h).1] at hf
    simp [kept, this]
  | true =>
    cases hfz : fz.blk with
    | true => rw [(ha hfz).2]
    | false =>
      cases hc : cyc t with
      | false => simp [kept]
      | true =>
        have : x.pos < y.pos := by
          rcases hb hf hfz with h | h
          · omega
          · rcases hi hf (by rw [cyc_re]; exact hc) with h1 | h1
            · simp only [movesSt, Bool.or_eq_true] at h1
              rcases h1 with h1 | h1
              · have := Re.sways_moves h1 hx hz; omega
              · have := stackWays_moves h1 hzp.2 hy; omega
            · rw [(honestSt_tail h1).1] at h; simp at h
        have h2 : y.pos ≠ x.pos := by omega
        simp [kept, h2]

theorem Inv.step {U : Uni} {s : List Ch} {r : Re} {t : Stack} {x z : SSt} {f fz : Flags} (hx : x.pos ≤ s.length)
    (hz : z ∈ r.sways U s x) (hi : Inv f (.re r :: t)) (ha : fz.blk = true → f.blk = true ∧ z.pos = x.pos) : Inv fz t := by
  intro h1 h2
  obtain ⟨h3, h4⟩ := ha h1
  rcases hi h3 (by rw [cyc_re]; exact h2) with h | h
  · simp only [movesSt, Bool.or_eq_true] at h
    rcases h with h | h
    · have := Re.sways_moves h hx hz; omega
    · exact .inl h
  · exact .inr (honestSt_tail h).2

theorem Inv.off {f : Flags} {st : Stack} (h : f.blk = false) : Inv f st := by
  intro h1; rw [h] at h1; cases h1

/-- The machine reports the first way, for one amount of fuel. -/
def FirstAt (C : Cfg) (sh : Shape) (n : Nat) : Prop :=
  ∀ s lb cur f c st, cur ≤ s.length → fitSt st = true → Good sh c → Inv f st →
    Yields (OkAt s st c) (eval C n s lb cur f c st) (accepted C.uni s cur f c st)

section
variable {C : Cfg} {sh : Shape} {n : Nat}

theorem consumed_blk_eq {f : Flags} {b : Bool} : (f.consumed b).blk = (f.blk && !b) := by
  cases b <;> simp [Flags.consumed]

/-- A part with one way. -/
theorem FirstAt.one (ih : FirstAt C sh n) {s : List Ch} {lb : Bool} {cur : Nat} {f : Flags} {c : Caps} {r : Re} {t : Stack}
    (hcur : cur ≤ s.length) (ht : fitSt t = true) (hi : Inv f (.re r :: t)) {p : Nat} {fz : Flags} {cz : Caps}
    (hg : Good sh c) (hgz : Good sh cz) (hr : r.sways C.uni s (sst cur f c) = [sst p fz cz]) (hb : cz.whole.b = c.whole.b)
    (ha : fz.blk = true → f.blk = true ∧ p = cur) (hh : f.blk = true → fz.blk = false → cur < p ∨ r.honest = false) :
    Yields (OkAt s (.re r :: t) c) (eval C n s lb p fz cz t) (accepted C.uni s cur f c (.re r :: t)) := by
  have hz : sst p fz cz ∈ r.sways C.uni s (sst cur f c) := by rw [hr]; simp
  have hp := (Re.sways_fwd hz hcur).2
  have h1 := kept_step (t := t) hcur hz hi ha hh
  unfold accepted
  simp only [stackWays, hr, List.flatMap_cons, List.flatMap_nil, List.append_nil]
  have h1' : (stackWays C.uni t s (sst p fz cz)).filter (kept (f.blk && cyc (.re r :: t)) cur) =
      (stackWays C.uni t s (sst p fz cz)).filter (kept (fz.blk && cyc t) p) := h1
  rw [h1']
  exact (ih s lb p fz cz t hp ht hgz (hi.step hcur hz ha)).mono fun c' y h => h.cons (hgz.2.trans hg.2.symm) hb

/-- A part without a way. -/
theorem yields_none {s : List Ch} {cur : Nat} {f : Flags} {c : Caps} {r : Re} {t : Stack}
    (hr : r.sways C.uni s (sst cur f c) = []) : Yields (OkAt s (.re r :: t) c) .fail (accepted C.uni s cur f c (.re r :: t)) := by
  refine ⟨?_, by simp⟩
  intro _
  simp [accepted, stackWays, hr]

theorem stepFirst_of (ih : FirstAt C sh n) {s : List Ch} {lb : Bool} {f : Flags} {m : List Re} (hm : progress m = true)
    (hf : fitAll m = true) (b0 : Option Nat) :
    StepFirst (siteration fun x => swaysAll C.uni m s x) (fun p c => sst p f c)
      (fun p c => Good sh c ∧ c.whole.b = b0 ∧ p ≤ s.length) s.length (bodyOf C n s lb f m) := by
  intro p c hi
  have hinv : Inv f.notEmpty (items m [.endCycle]) := by
    intro _ _
    rcases moves_items (f := f) hm with h | h
    · exact .inl h
    · exact .inr h.2
  have hy := ih s lb p f.notEmpty c (items m [.endCycle]) hi.2.2 (by rw [fitSt_items, hf]; simp [fitSt, Item.fit]) hi.1 hinv
  have hacc : accepted C.uni s p f.notEmpty c (items m [.endCycle]) =
      (swaysAll C.uni m s (sst p f c)).filter fun z => decide (z.pos ≠ (sst p f c).pos) := by
    unfold accepted
    rw [stackWays_items, sst_notEmpty, cyc_items]
    have : (fun z => stackWays C.uni [.endCycle] s z) = fun z => [z] := by
      funext z; simp [stackWays]
    rw [this]
    simp only [List.flatMap_singleton']
    rfl
  rw [hacc] at hy
  refine ⟨?_, ?_⟩
  · intro h
    unfold step at h
    split at h
    · split at h <;> simp at h
    · simp only [Loop.stop.injEq] at h
      have h0 := hy.1 h
      simp only [siteration, h0, List.take_nil, List.map_nil]
  · intro p' c' h
    unfold step at h
    split at h
    · rename_i d hd
      split at h
      · rename_i q hq
        simp only [Loop.go.injEq] at h
        obtain ⟨rfl, rfl⟩ := h
        obtain ⟨y, rest, h1, h2⟩ := hy.2 d hd
        have h3 := h2.endPos (endsPos_items (by simp [endsPos]))
        rw [hq] at h3
        simp only [Option.some.injEq] at h3
        have hmem : y ∈ (swaysAll C.uni m s (sst p f c)).filter fun z => decide (z.pos ≠ (sst p f c).pos) := by rw [h1]; simp
        simp only [List.mem_filter, decide_eq_true_eq] at hmem
        have hfw := swaysAll_fwd hmem.1 hi.2.2
        have hne := hmem.2
        simp only [sst] at hfw hne
        refine ⟨?_, ⟨⟨rfl, ?_⟩, ?_, ?_⟩, ?_, ?_⟩
        · simp only [siteration, h1, List.take_succ_cons, List.take_zero, List.map_cons, List.map_nil, List.cons.injEq, and_true]
          simp only [sst, Caps.unmatch, h2.groups, h3]
        · show shape d.groups = sh
          rw [h2.shape]; exact hi.1.2
        · have := h2.start (by simp [items])
          simp only [Caps.unmatch, this, hi.2.1]
        · omega
        · omega
        · omega
      · simp at h
    · simp at h

end

theorem filter_flatMap_congr {α β : Type} {L : List α} {T : α → List β} {P : β → Bool} {T' : α → List β}
    (h : ∀ z ∈ L, (T z).filter P = T' z) : (L.flatMap T).filter P = L.flatMap T' := by
  induction L with
  | nil => rfl
  | cons x L ih =>
    simp only [List.flatMap_cons, List.filter_append]
    rw [h x (by simp), ih (fun z hz => h z (by simp [hz]))]

theorem accepted_off {U : Uni} {s : List Ch} {cur : Nat} {f : Flags} {c : Caps} {st : Stack} (h : f.blk = false) :
    accepted U s cur f c st = stackWays U st s (sst cur f c) := by
  simp [accepted, h, filter_kept_false]

theorem sways_atomic {U : Uni} {m : List Re} {s : List Ch} {x : SSt} :
    Re.sways U (.rep .poss 1 1 m) s x = Re.sways U (.atomic m) s x := by
  simp [Re.sways, repeats, times, most]

theorem mem_tail_fewest {α : Type} {it : α → List α} {k : Nat} {x z : α} (h : z ∈ (fewest it k x).tail) :
    ∃ j, 1 ≤ j ∧ Iterate (fun x y => y ∈ it x) j x z := by
  cases k with
  | zero => simp [fewest] at h
  | succ k =>
    simp only [fewest, List.tail_cons, List.mem_flatMap] at h
    obtain ⟨w, h1, h2⟩ := h
    obtain ⟨j, _, h3⟩ := mem_fewest.1 h2
    exact ⟨j + 1, by omega, .succ h1 h3⟩

theorem siter_fwd {U : Uni} {m : List Re} {s : List Ch} {x y : SSt} (h : y ∈ siteration (fun x => swaysAll U m s x) x) : Fwd s x y := by
  obtain ⟨z, hz, _, rfl⟩ := mem_siteration h
  exact (swaysAll_fwd hz).of rfl rfl

theorem siter_iterate_up {U : Uni} {m : List Re} {s : List Ch} {x y : SSt} {j : Nat} (hj : 1 ≤ j) (hx : x.pos ≤ s.length)
    (h : Iterate (fun x y => y ∈ siteration (fun x => swaysAll U m s x) x) j x y) : x.pos < y.pos := by
  cases h with
  | zero => omega
  | succ h1 h2 =>
    have h3 := siter_fwd h1 hx
    have h4 := iterate_fwd (fun _ _ h => siter_fwd h) h2 h3.2
    obtain ⟨z, hz, hne, rfl⟩ := mem_siteration h1
    simp only at h3 h4
    omega

theorem shape_modified {c c1 : Caps} {id : Nat} {g : Slot → Slot} (h : c1.groups = modifyId id g c.groups) :
    shape c1.groups = shape c.groups := by rw [h, shape_modifyId]

theorem first_step {C : Cfg} {sh : Shape} (hC : C.greedyOpt = false) {n : Nat} (ih : FirstAt C sh n) : FirstAt C sh (n+1) := by
  intro s lb cur f c st hcur hst hg hi
  rcases st with _ | ⟨it, t⟩
  · rw [eval_nil]; exact ⟨fun _ => by simp [accepted, stackWays], by simp⟩
  have hst' : it.fit = true ∧ fitSt t = true := by simpa [fitSt] using hst
  obtain ⟨hit, ht⟩ := hst'
  cases it with
  | accept =>
    rcases t with _ | ⟨x, t⟩
    · rw [eval_accept]
      refine ⟨by simp, ?_⟩
      intro c' h
      simp only [Out.ok.injEq] at h
      subst h
      exact ⟨sst cur f c, [], by simp [accepted, stackWays, cyc, kept], hcur, rfl, rfl, rfl, by simp [endsPos], fun _ => rfl⟩
    · rw [eval_accept_cons]; exact ⟨fun _ => by simp [accepted, stackWays], by simp⟩
  | endAhead =>
    rcases t with _ | ⟨x, t⟩
    · rw [eval_endAhead]
      refine ⟨by simp, ?_⟩
      intro c' h
      simp only [Out.ok.injEq] at h
      subst h
      exact ⟨sst cur f c, [], by simp [accepted, stackWays, cyc, kept], hcur, rfl, rfl, rfl, by simp [endsPos], fun _ => rfl⟩
    · rw [eval_endAhead_cons]; exact ⟨fun _ => by simp [accepted, stackWays], by simp⟩
  | endBehind =>
    rcases t with _ | ⟨x, t⟩
    · rw [eval_endBehind]
      refine ⟨by simp, ?_⟩
      intro c' h
      simp only [Out.ok.injEq] at h
      subst h
      exact ⟨sst cur f c, [], by simp [accepted, stackWays, cyc, kept], hcur, rfl, rfl, rfl, by simp [endsPos], fun _ => rfl⟩
    · rw [eval_endBehind_cons]; exact ⟨fun _ => by simp [accepted, stackWays], by simp⟩
  | endCycle =>
    rcases t with _ | ⟨x, t⟩
    · rw [eval_endCycle]
      split
      · exact .other (by simp) (by simp)
      · split
        · rename_i hb
          exact ⟨fun _ => by simp [accepted, stackWays, cyc, kept, hb, sst], by simp⟩
        · rename_i hb
          refine ⟨by simp, ?_⟩
          intro c' h
          simp only [Out.ok.injEq] at h
          subst h
          exact ⟨sst cur f c, [], by simp [accepted, stackWays, kept, hb], hcur, rfl, rfl, rfl, fun _ => rfl, fun _ => rfl⟩
    · rw [eval_endCycle_cons]; exact ⟨fun _ => by simp [accepted, stackWays], by simp⟩
  | startMark =>
    rw [eval_startMark]
    split
    · exact .other (by simp) (by simp)
    · have hi' : Inv f t := by
        intro h1 h2
        rcases hi h1 h2 with h | h
        · exact .inl h
        · simp [honestSt] at h
      exact (ih s lb cur f (c.setStart cur) t hcur ht hg hi').mono fun c' y h =>
        ⟨h.posLe, h.groups, h.matched, h.shape, fun e => h.endPos (endsPos_of_cons_start e), fun hn => absurd (by simp) hn⟩
  | endMark =>
    rw [eval_endMark]
    split
    · exact .other (by simp) (by simp)
    · have hi' : Inv f t := by
        intro h1 h2
        rcases hi h1 h2 with h | h
        · exact .inl h
        · simp [honestSt] at h
      have hy := ih s lb cur f (c.setEnd cur) t hcur ht hg hi'
      refine ⟨hy.1, ?_⟩
      intro c' hc'
      obtain ⟨y, rest, h1, h⟩ := hy.2 c' hc'
      refine ⟨y, rest, h1, h.posLe, h.groups, h.matched, h.shape, ?_, fun hn => h.start (by simp_all)⟩
      intro he
      unfold endsPos at he
      split at he
      · rename_i h2; simp at h2
      · rename_i h2; simp at h2
      · rename_i h2
        simp only [List.cons.injEq, true_and] at h2
        subst h2
        cases n with
        | zero => simp [eval_zero] at hc'
        | succ n =>
          rw [eval_accept] at hc'
          simp only [Out.ok.injEq] at hc'
          subst hc'
          simp only [accepted, stackWays, if_true, cyc, Bool.and_false, filter_kept_false, List.cons.injEq] at h1
          rw [← h1.1]
          rfl
      · rename_i h2
        simp only [List.cons.injEq] at h2
        obtain ⟨_, rfl⟩ := h2
        exact h.endPos he
  | numMark id =>
    simp only [Item.fit, decide_eq_true_eq] at hit
    rw [eval_numMark]
    split
    · exact .other (by simp) (by simp)
    · split
      · exact .other (by simp) (by simp)
      · rename_i c1 hc
        obtain ⟨h1, h2, h3⟩ := endCapture_spec hit hc
        have hi' : Inv f t := by
          intro h4 h5
          rcases hi h4 (by rw [cyc_num]; exact h5) with h | h
          · exact .inl h
          · exact .inr h
        have hy := ih s lb cur f c1 t hcur ht (hg.modify h2 h3) hi'
        have hacc : accepted C.uni s cur f c (.numMark id :: t) = accepted C.uni s cur f c1 t := by
          unfold accepted
          simp only [stackWays, sst, h1, if_true, h3, cyc_num]
        rw [hacc]
        exact hy.mono fun c' y h => h.of (shape_modified h3) endsPos_of_cons_num (by simp) (by rw [h2])
  | re r =>
    simp only [Item.fit] at hit
    have stay : f.blk = true → f.blk = true ∧ cur = cur := fun h => ⟨h, rfl⟩
    have stay' : ∀ {P : Prop}, f.blk = true → f.blk = false → P := fun h h' => absurd (h.symm.trans h') (by simp)
    have moved : ∀ {p : Nat}, (f.consumed true).blk = true → f.blk = true ∧ p = cur := by
      intro p h; simp [consumed_blk_eq] at h
    cases r with
    | cc cl =>
      rw [eval_cc]
      by_cases hc : cur = s.length
      · rw [if_pos hc]
        exact yields_none (by simp [Re.sways, sst, hc])
      · rw [if_neg hc]
        have hlt : cur < s.length := by omega
        have hv : s[cur]? = some s[cur] := List.getElem?_eq_getElem hlt
        rw [hv]
        simp only
        split
        · rename_i hm
          exact ih.one hcur ht hi hg hg (by simp [Re.sways, sst, hv, hm, Flags.consumed]) rfl moved (fun _ _ => .inl (by omega))
        · rename_i hm
          exact yields_none (by simp [Re.sways, sst, hv, hm])
    | any =>
      rw [eval_any]
      by_cases hc : cur = s.length
      · rw [if_pos hc]
        exact yields_none (by simp [Re.sways, sst, hc])
      · rw [if_neg hc]
        have hlt : cur < s.length := by omega
        have hv : s[cur]? = some s[cur] := List.getElem?_eq_getElem hlt
        rw [hv]
        simp only
        split
        · rename_i hml
          split
          · rename_i hm
            exact yields_none (by simp [Re.sways, sst, hv, hml, hm])
          · rename_i hm
            exact ih.one hcur ht hi hg hg (by simp [Re.sways, sst, hv, hm, Flags.consumed]) rfl moved (fun _ _ => .inl (by omega))
        · rename_i hml
          exact ih.one hcur ht hi hg hg (by simp [Re.sways, sst, hv, hml, Flags.consumed]) rfl moved (fun _ _ => .inl (by omega))
    | str cs =>
      rw [eval_str]
      cases hp : matchString f.ci s cs cur with
      | ub => exact .other (by simp) (by simp)
      | no => exact yields_none (by simp [Re.sways, sst, hp, cmpWays])
      | yes p =>
        have hp' := matchString_yes hp
        simp only
        refine ih.one hcur ht hi hg hg ?_ rfl ?_ ?_
        · rw [sst_consumed]; simp [Re.sways, sst, hp, cmpWays]
        · intro h
          simp only [consumed_blk_eq, Bool.and_eq_true, Bool.not_eq_true', decide_eq_false_iff_not] at h
          exact ⟨h.1, by omega⟩
        · intro h1 h2
          simp only [consumed_blk_eq, h1, Bool.true_and, Bool.not_eq_false', decide_eq_true_eq] at h2
          exact .inl (by omega)
    | sel l =>
      simp only [Re.fit] at hit
      cases l with
      | nil => rw [eval_sel_nil]; exact yields_none (by simp [Re.sways, swaysAny])
      | cons r opts =>
        simp only [fitAll, Bool.and_eq_true] at hit
        rw [eval_sel_cons]
        have hi1 : Inv f (.re r :: t) := by
          intro h1 h2
          rcases hi h1 h2 with h | h
          · left
            simp only [movesSt, Re.moves, movesAll, Bool.or_eq_true, Bool.and_eq_true] at h ⊢
            tauto
          · right
            simp only [honestSt, Re.honest, honestAll, Bool.and_eq_true] at h ⊢
            tauto
        have hi2 : Inv f (.re (.sel opts) :: t) := by
          intro h1 h2
          rcases hi h1 h2 with h | h
          · left
            simp only [movesSt, Re.moves, movesAll, Bool.or_eq_true, Bool.and_eq_true] at h ⊢
            tauto
          · right
            simp only [honestSt, Re.honest, honestAll, Bool.and_eq_true] at h ⊢
            tauto
        have h1 := ih s lb cur f c (.re r :: t) hcur (by simp only [fitSt, List.all_cons, Item.fit, Bool.and_eq_true] at ht ⊢; exact ⟨hit.1, ht⟩) hg hi1
        have h2 := ih s lb cur f c (.re (.sel opts) :: t) hcur
          (by simp only [fitSt, List.all_cons, Item.fit, Re.fit, Bool.and_eq_true] at ht ⊢; exact ⟨hit.2, ht⟩) hg hi2
        have hacc : accepted C.uni s cur f c (.re (.sel (r :: opts)) :: t) =
            accepted C.uni s cur f c (.re r :: t) ++ accepted C.uni s cur f c (.re (.sel opts) :: t) := by
          simp only [accepted, stackWays, Re.sways, swaysAny, List.flatMap_append, List.filter_append, cyc_re]
        rw [hacc]
        have h1' := h1.mono (Q' := OkAt s (.re (.sel (r :: opts)) :: t) c) fun c' y h => h.of rfl (fun e => e) (by simp) rfl
        have h2' := h2.mono (Q' := OkAt s (.re (.sel (r :: opts)) :: t) c) fun c' y h => h.of rfl (fun e => e) (by simp) rfl
        exact h1'.orElse h2'
    | seq l =>
      simp only [Re.fit, Bool.and_eq_true] at hit
      rcases l with _ | ⟨r, _ | ⟨r', m⟩⟩
      · simp at hit
      · rw [eval_seq_one]
        have hi1 : Inv f (.re r :: t) := by
          intro h1 h2
          rcases hi h1 h2 with h | h
          · left
            simpa [movesSt, Re.moves, movesAny] using h
          · simp only [honestSt, Re.honest, movesAny, honestAll, Bool.and_eq_true, Bool.or_eq_true, Bool.or_false, Bool.and_true] at h
            rcases h.1 with h' | h'
            · left; simp [movesSt, h']
            · right; simp [honestSt, h', h.2]
        have h1 := ih s lb cur f c (.re r :: t) hcur
          (by simp only [fitSt, List.all_cons, Item.fit, Bool.and_eq_true, fitAll] at ht hit ⊢; exact ⟨hit.2.1, ht⟩) hg hi1
        have hacc : accepted C.uni s cur f c (.re (.seq [r]) :: t) = accepted C.uni s cur f c (.re r :: t) := by
          simp [accepted, stackWays, Re.sways, swaysAll, cyc_re]
        rw [hacc]
        exact h1.mono fun c' y h => h.of rfl (fun e => e) (by simp) rfl
      · rw [eval_seq_cons]
        have hi1 : Inv f (.re r :: .re (.seq (r' :: m)) :: t) := by
          intro h1 h2
          rcases hi h1 h2 with h | h
          · left
            simp only [movesSt, Re.moves, movesAny, Bool.or_eq_true] at h ⊢
            tauto
          · rw [honestSt, Re.honest, movesAny, honestAll] at h
            simp only [Bool.and_eq_true, Bool.or_eq_true] at h
            rcases h.1 with h' | h'
            · left
              simp only [movesSt, Re.moves, Bool.or_eq_true]
              tauto
            · right
              simp only [honestSt, Re.honest, Bool.and_eq_true, Bool.or_eq_true]
              tauto
        have h1 := ih s lb cur f c (.re r :: .re (.seq (r' :: m)) :: t) hcur
          (by
            rw [fitAll] at hit
            simp only [fitSt, List.all_cons, Item.fit, Re.fit, Bool.and_eq_true] at ht hit ⊢
            exact ⟨hit.2.1, ⟨by simp, hit.2.2⟩, ht⟩) hg hi1
        have hacc : accepted C.uni s cur f c (.re (.seq (r :: r' :: m)) :: t) =
            accepted C.uni s cur f c (.re r :: .re (.seq (r' :: m)) :: t) := by
          unfold accepted
          simp only [stackWays, Re.sways, cyc_re]
          rw [swaysAll, List.flatMap_assoc]
        rw [hacc]
        exact h1.mono fun c' y h => h.of rfl (fun e => e) (by simp) rfl
    | empty =>
      rw [eval_empty]
      exact ih.one hcur ht hi hg hg (by simp [Re.sways]) rfl stay stay'
    | rep k a b m =>
      simp only [Re.fit, Bool.and_eq_true] at hit
      have hS := stepFirst_of (s := s) (lb := lb) (f := f) ih hit.1 hit.2 c.whole.b
      have hI : Good sh c ∧ c.whole.b = c.whole.b ∧ cur ≤ s.length := ⟨hg, rfl, hcur⟩
      have hT : ∀ p c', (Good sh c' ∧ c'.whole.b = c.whole.b ∧ p ≤ s.length) →
          Yields (OkAt s (.re (.rep k a b m) :: t) c) (eval C n s lb p (f.consumed true) c' t) (stackWays C.uni t s (sst p f c')) := by
        intro p c' hi'
        have h1 := ih s lb p (f.consumed true) c' t hi'.2.2 ht hi'.1 (.off (by simp [consumed_blk_eq]))
        rw [accepted_off (by simp [consumed_blk_eq]), sst_consumed] at h1
        exact h1.mono fun c'' y h => h.cons (hi'.1.2.trans hg.2.symm) hi'.2.1
      have hways : Re.sways C.uni (.rep k a b m) s (sst cur f c) =
          repeats (siteration fun x => swaysAll C.uni m s x) k a b s.length (sst cur f c) := by simp [Re.sways]
      have hmv : 1 ≤ a → (Re.rep k a b m).moves = true := by
        intro h; have := hit.1; simp only [progress] at this; simp [Re.moves, h, this]
      cases k with
      | lazy =>
        rw [eval_lazy]
        split
        · rename_i hab
          exact yields_none (by rw [hways, repeats]; rw [if_pos hab])
        rename_i hab
        split
        · exact .other (by simp) (by simp)
        simp only [repeats, if_neg hab] at hways
        cases hq : mandLoop (bodyOf C n s lb f m) a cur c with
        | stop o =>
          cases o with
          | fail => exact yields_none (by rw [hways, (mandLoop_first hS a _ _ hI).1 hq]; rfl)
          | ok c' => exact absurd hq (mandLoop_ne_ok _ _ _)
          | _ => exact .other (by simp) (by simp)
        | go p c1 =>
          obtain ⟨h1, h2, h3, h4⟩ := (mandLoop_first hS a _ _ hI).2 p c1 hq
          simp only [h1, List.flatMap_cons, List.flatMap_nil, List.append_nil] at hways
          rw [fewest_cons] at hways
          have hz0 : sst p f c1 ∈ Re.sways C.uni (.rep .lazy a b m) s (sst cur f c) := by rw [hways]; simp
          have hblk : ((f.consumed (decide (cur ≠ p))).blk = true → f.blk = true ∧ p = cur) := by
            intro h
            simp only [consumed_blk_eq, Bool.and_eq_true, Bool.not_eq_true', decide_eq_false_iff_not, ne_eq, not_not] at h
            exact ⟨h.1, h.2.symm⟩
          have hblk' : f.blk = true → (f.consumed (decide (cur ≠ p))).blk = false → cur < p ∨ (Re.rep .lazy a b m).honest = false := by
            intro h5 h6
            simp only [consumed_blk_eq, h5, Bool.true_and, Bool.not_eq_false', decide_eq_true_eq] at h6
            exact .inl (by omega)
          have hacc : accepted C.uni s cur f c (.re (.rep .lazy a b m) :: t) =
              accepted C.uni s p (f.consumed (decide (cur ≠ p))) c1 t ++
                (fewest (siteration fun x => swaysAll C.uni m s x) (if b = 0 then s.length else b - a) (sst p f c1)).tail.flatMap
                  (fun z => stackWays C.uni t s z) := by
            unfold accepted
            simp only [stackWays]
            rw [hways]
            simp only [List.flatMap_cons, List.filter_append, sst_consumed]
            congr 1
            · exact kept_step (t := t) hcur hz0 hi hblk hblk'
            · apply filter_flatMap_congr
              intro z hz
              obtain ⟨j, hj, hit2⟩ := mem_tail_fewest hz
              have h5 := siter_iterate_up hj h2.2.2 hit2
              have hzm : z ∈ Re.sways C.uni (.rep .lazy a b m) s (sst cur f c) := by rw [hways]; simp [hz]
              have h6 := kept_step (t := t) (fz := f.consumed true) (x := sst cur f c) hcur hzm hi
                (by simp [consumed_blk_eq])
                (fun _ _ => .inl (by simp only [sst] at h5 ⊢; omega))
              have h7 : (sst cur f c).pos = cur := rfl
              rw [h7] at h6
              rw [h6, consumed_blk_eq]
              simp [filter_kept_false]
          rw [hacc]
          have hy := ih s lb p (f.consumed (decide (cur ≠ p))) c1 t h2.2.2 ht h2.1 (hi.step hcur hz0 hblk)
          refine (hy.mono fun c' y h => h.cons (h2.1.2.trans hg.2.symm) h2.2.1).orElse' ?_
          intro hf
          refine lazyLoop_first hS hT n a p c1 _ h2 ?_ ?_
          · unfold Room; split <;> omega
          · intro hl
            have hba : 1 ≤ a := by
              unfold lessInf at hl
              split at hl
              · simp at hl
              · simp at hl; omega
            have := hy.1 hf
            rw [accepted_off, sst_consumed] at this
            · exact this
            · have := h4 hba
              have h9 : decide (cur ≠ p) = true := by simp; omega
              rw [consumed_blk_eq, h9]; simp
      | greedy =>
        rw [eval_greedy]
        simp only [greedyRecRef_eq, ite_self, hC, Bool.false_eq_true, if_false]
        split
        · rename_i hab
          exact yields_none (by rw [hways, repeats]; rw [if_pos hab])
        rename_i hab
        split
        · exact .other (by simp) (by simp)
        simp only [repeats, if_neg hab] at hways
        cases hq : mandLoop (bodyOf C n s lb f m) a cur c with
        | stop o =>
          cases o with
          | fail => exact yields_none (by rw [hways, (mandLoop_first hS a _ _ hI).1 hq]; rfl)
          | ok c' => exact absurd hq (mandLoop_ne_ok _ _ _)
          | _ => exact .other (by simp) (by simp)
        | go p c1 =>
          obtain ⟨h1, h2, h3, h4⟩ := (mandLoop_first hS a _ _ hI).2 p c1 hq
          simp only [h1, List.flatMap_cons, List.flatMap_nil, List.append_nil] at hways
          have hacc : accepted C.uni s cur f c (.re (.rep .greedy a b m) :: t) =
                (most (siteration fun x => swaysAll C.uni m s x) (if b = 0 then s.length else b - a) (sst p f c1)).flatMap
                  (fun z => stackWays C.uni t s z) := by
            unfold accepted
            simp only [stackWays]
            rw [hways]
            apply filter_flatMap_congr
            intro z hz
            have hzm : z ∈ Re.sways C.uni (.rep .greedy a b m) s (sst cur f c) := by rw [hways]; exact hz
            have h6 := kept_step (t := t) (fz := f.consumed true) (x := sst cur f c) hcur hzm hi
              (by simp [consumed_blk_eq])
              (fun _ _ => by
                by_cases hh : (Re.rep .greedy a b m).honest = true
                · simp only [Re.honest, Bool.and_eq_true, decide_eq_true_eq] at hh
                  exact .inl (Re.sways_moves (hmv hh.1) hcur hzm)
                · exact .inr (by simpa using hh))
            have h7 : (sst cur f c).pos = cur := rfl
            rw [h7] at h6
            rw [h6, consumed_blk_eq]
            simp [filter_kept_false]
          rw [hacc]
          exact greedyRec_first hS hT n a p c1 _ h2 (by unfold Room; split <;> omega)
      | poss =>
        rw [eval_poss]
        split
        · rename_i hab
          exact yields_none (by rw [hways, repeats]; rw [if_pos hab])
        rename_i hab
        split
        · exact .other (by simp) (by simp)
        simp only [repeats, if_neg hab] at hways
        have hL := possLoop_first hS (a := a) (b := b) (by omega) n 0 cur c (if b = 0 then s.length else b - a) hI
          (by split <;> omega)
        cases hq : possLoop (bodyOf C n s lb f m) a b n 0 cur c with
        | stop o =>
          cases o with
          | fail => exact yields_none (by rw [hways]; have := hL.1 hq; simp only [Nat.sub_zero] at this; rw [this]; rfl)
          | ok c' => exact absurd hq (possLoop_ne_ok _ _ _ _)
          | _ => exact .other (by simp) (by simp)
        | go p c1 =>
          obtain ⟨h1, h2, h3, h4⟩ := hL.2 p c1 hq
          simp only [Nat.sub_zero] at h1
          rw [h1] at hways
          refine ih.one hcur ht hi hg h2.1 (by rw [hways, sst_consumed]) h2.2.1 ?_ ?_
          · intro h
            simp only [consumed_blk_eq, Bool.and_eq_true, Bool.not_eq_true', decide_eq_false_iff_not, ne_eq, not_not] at h
            exact ⟨h.1, h.2.symm⟩
          · intro h5 h6
            simp only [consumed_blk_eq, h5, Bool.true_and, Bool.not_eq_false', decide_eq_true_eq] at h6
            exact .inl (by omega)
    | cap id name m =>
      simp only [Re.fit, Bool.and_eq_true, decide_eq_true_eq] at hit
      rw [eval_cap]
      split
      · exact .other (by simp) (by simp)
      split
      · exact .other (by simp) (by simp)
      · rename_i c1 hc
        obtain ⟨h1, h2, h3⟩ := startCapture_spec hit.1.1 hc
        have hi1 : Inv f (.re (.seq m) :: .numMark id :: t) := by
          intro h4 h5
          rcases hi h4 h5 with h | h
          · left; exact h
          · right; exact h
        have hy := ih s lb cur f c1 (.re (.seq m) :: .numMark id :: t) hcur
          (by
            simp only [fitSt, List.all_cons, Item.fit, Re.fit, Bool.and_eq_true, decide_eq_true_eq] at ht ⊢
            exact ⟨⟨hit.1.2, hit.2⟩, hit.1.1, ht⟩) (hg.modify h2 h3) hi1
        have hacc : accepted C.uni s cur f c (.re (.cap id name m) :: t) =
            accepted C.uni s cur f c1 (.re (.seq m) :: .numMark id :: t) := by
          unfold accepted
          have hc1 : sst cur f c1 = { sst cur f c with gs := modifyId id (fun sl => { sl with b := some cur }) c.groups } := by
            simp [sst, h3]
          have e1 : stackWays C.uni (.re (.cap id name m) :: t) s (sst cur f c) =
              stackWays C.uni (.re (.seq m) :: .numMark id :: t) s (sst cur f c1) := by
            rw [hc1]
            simp only [stackWays, Re.sways, sst, h1, if_true, List.flatMap_map]
            refine flatMap_same fun z hz => ?_
            have hid : hasId id z.gs = true := by
              rw [hasId_shape (swaysAll_shape hz), hasId_shape (shape_modifyId _ _ _)]
              exact h1
            rw [if_pos hid]
          rw [e1, cyc_re, cyc_re, cyc_num]
        rw [hacc]
        exact hy.mono fun c' y h => h.of (shape_modified h3) (fun e => endsPos_cons (endsPos_cons e)) (by simp) (by rw [h2])
    | bref id =>
      rw [eval_bref, brefCmp_ref hg.1]
      split
      · exact .other (by simp) (by simp)
      rcases hp : brefCmp s cur (refSlot c.groups id) with _ | ⟨_ | _ | p, q⟩
      · exact .other (by simp) (by simp)
      · exact .other (by simp) (by simp)
      · exact yields_none (by simp [Re.sways, sst, hp, brefWays, cmpWays])
      · have hp' := brefCmp_yes hp hcur
        simp only
        refine ih.one hcur ht hi hg hg ?_ rfl ?_ ?_
        · rw [sst_consumed]; simp [Re.sways, sst, hp, brefWays, cmpWays]
        · intro h
          rw [hp'.2.2] at h
          simp only [consumed_blk_eq, Bool.and_eq_true, Bool.not_eq_true', decide_eq_false_iff_not, ne_eq, not_not] at h
          exact ⟨h.1, by omega⟩
        · intro h1 h2
          rw [hp'.2.2] at h2
          simp only [consumed_blk_eq, h1, Bool.true_and, Bool.not_eq_false', decide_eq_true_eq] at h2
          exact .inl (by omega)
    | brefName id =>
      rw [eval_brefName]
      simp only [Caps.getName]
      split
      · exact .other (by simp) (by simp)
      rcases hp : brefCmp s cur (selectName id c.groups) with _ | ⟨_ | _ | p, q⟩
      · exact .other (by simp) (by simp)
      · exact .other (by simp) (by simp)
      · exact yields_none (by simp [Re.sways, sst, hp, brefWays, cmpWays])
      · have hp' := brefCmp_yes hp hcur
        simp only
        refine ih.one hcur ht hi hg hg ?_ rfl ?_ ?_
        · rw [sst_consumed]; simp [Re.sways, sst, hp, brefWays, cmpWays]
        · intro h
          rw [hp'.2.2] at h
          simp only [consumed_blk_eq, Bool.and_eq_true, Bool.not_eq_true', decide_eq_false_iff_not, ne_eq, not_not] at h
          exact ⟨h.1, by omega⟩
        · intro h1 h2
          rw [hp'.2.2] at h2
          simp only [consumed_blk_eq, h1, Bool.true_and, Bool.not_eq_false', decide_eq_true_eq] at h2
          exact .inl (by omega)
    | ahead pos m =>
      simp only [Re.fit] at hit
      rw [eval_ahead]
      have hin := ih s lb cur f c [.re (.seq m), .endAhead] hcur
        (by simp only [fitSt, List.all_cons, Item.fit, Re.fit, hit]; rfl) hg (by intro _ h; simp [cyc] at h)
      have hacc : accepted C.uni s cur f c [.re (.seq m), .endAhead] = swaysAll C.uni m s (sst cur f c) := by
        simp [accepted, stackWays, Re.sways, cyc, filter_kept_false]
      rw [hacc] at hin
      cases ho : eval C n s lb cur f c [.re (.seq m), .endAhead] with
      | ok c' =>
        obtain ⟨y, rest, h1, h2⟩ := hin.2 c' ho
        simp only
        split
        · rename_i hpos
          subst hpos
          refine ih.one hcur ht hi hg ⟨rfl, ?_⟩ ?_ (h2.start (by simp)) stay stay'
          · show shape c'.groups = sh
            rw [h2.shape]; exact hg.2
          · simp only [Re.sways, h1]; simp [sst, Caps.unmatch, h2.groups]
        · rename_i hpos
          exact yields_none (by simp [Re.sways, h1, hpos])
      | fail =>
        have h1 := hin.1 ho
        simp only
        split
        · rename_i hpos
          exact yields_none (by simp [Re.sways, h1, hpos])
        · rename_i hpos
          exact ih.one hcur ht hi hg hg (by simp [Re.sways, h1, hpos]) rfl stay stay'
      | _ => exact .other (by simp) (by simp)
    | behind pos m =>
      simp only [Re.fit] at hit
      rw [eval_behind]
      have hin := ih s.reverse true (s.length - cur) f c [.re (.seq m), .endBehind] (by simp)
        (by simp only [fitSt, List.all_cons, Item.fit, Re.fit, hit]; rfl) hg (by intro _ h; simp [cyc] at h)
      have hacc : accepted C.uni s.reverse (s.length - cur) f c [.re (.seq m), .endBehind] =
          swaysAll C.uni m s.reverse { sst cur f c with pos := s.length - cur } := by
        simp [accepted, stackWays, Re.sways, cyc, filter_kept_false, sst]
      rw [hacc] at hin
      have hpos' : (sst cur f c).pos = cur := rfl
      cases ho : eval C n s.reverse true (s.length - cur) f c [.re (.seq m), .endBehind] with
      | ok c' =>
        obtain ⟨y, rest, h1, h2⟩ := hin.2 c' ho
        simp only
        split
        · rename_i hpos
          subst hpos
          refine ih.one hcur ht hi hg ⟨rfl, ?_⟩ ?_ (h2.start (by simp)) stay stay'
          · show shape c'.groups = sh
            rw [h2.shape]; exact hg.2
          · simp only [Re.sways, hpos', h1]; simp [sst, Caps.unmatch, h2.groups]
        · rename_i hpos
          exact yields_none (by simp only [Re.sways, hpos', h1]; simp [hpos])
      | fail =>
        have h1 := hin.1 ho
        simp only
        split
        · rename_i hpos
          exact yields_none (by simp only [Re.sways, hpos', h1]; simp [hpos])
        · rename_i hpos
          exact ih.one hcur ht hi hg hg (by simp only [Re.sways, hpos', h1]; simp [hpos]) rfl stay stay'
      | _ => exact .other (by simp) (by simp)
    | atomic m =>
      rw [eval_atomic]
      have hi1 : Inv f (.re (.rep .poss 1 1 m) :: t) := by
        intro h1 h2
        rcases hi h1 h2 with h | h
        · left; simpa [movesSt, Re.moves] using h
        · right; simpa [honestSt, Re.honest] using h
      have hy := ih s lb cur f c (.re (.rep .poss 1 1 m) :: t) hcur
        (by simp only [fitSt, List.all_cons, Item.fit, Re.fit, Bool.and_eq_true] at ht hit ⊢; exact ⟨hit, ht⟩) hg hi1
      have hacc : accepted C.uni s cur f c (.re (.atomic m) :: t) = accepted C.uni s cur f c (.re (.rep .poss 1 1 m) :: t) := by
        simp only [accepted, stackWays, sways_atomic, cyc_re]
      rw [hacc]
      exact hy.mono fun c' y h => h.of rfl (fun e => e) (by simp) rfl
    | mode md =>
      rw [eval_mode]
      refine ih.one hcur ht hi hg hg ?_ rfl ?_ ?_
      · simp only [Re.sways]; cases md <;> rfl
      · intro h; cases md <;> exact ⟨h, rfl⟩
      · intro h h'; cases md <;> exact stay' h h'
    | reject => rw [eval_reject]; exact yields_none (by simp [Re.sways])
    | boundary _ | notBoundary _ | sBegin | sEnd | sEndLine | lBegin | lEnd =>
      rw [eval_test (h := rfl), testAt_flags _ _ _ _ c]
      split
      · exact .other (by simp) (by simp)
      · rename_i hy; exact yields_none (by rw [Re.sways_test rfl, hy]; simp)
      · rename_i hy
        exact ih.one hcur ht hi hg hg (by rw [Re.sways_test rfl, hy]; simp) rfl stay stay'

theorem eval_first {C : Cfg} (hC : C.greedyOpt = false) (sh : Shape) : ∀ n, FirstAt C sh n := by
  intro n
  induction n with
  | zero => intro s lb cur f c st _ _ _ _; rw [eval_zero]; exact .other (by simp) (by simp)
  | succ n ih => exact first_step hC ih

end Ctre
