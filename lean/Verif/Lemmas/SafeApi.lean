import Verif.Lemmas.Safe
import Verif.Lemmas.Attempt

/-
The safety invariant for whole attempts.
-/
namespace Ctre

theorem Re.WellNumbered.numbered {r : Re} (h : r.WellNumbered) : r.Numbered :=
  ⟨h.distinct, Re.noSelf.noReopen h.noSelf⟩

theorem safePre_init {r : Re} (hr : r.Numbered) {s : List Ch} {p : Nat} (hp : p ≤ s.length) {st : Stack}
    (hst : marks st = []) : SafePre s false p (initCaps r) st := by
  refine ⟨hp, hr.distinct, rfl, ?_, by simp [hst]⟩
  intro _ id sl hsl hm
  have := selectId_unset (captures_unset r) id sl hsl
  subst this
  simp at hm

theorem attempt_safe (C : Cfg) {n : Nat} {s : List Ch} {f : Flags} {r : Re} {p : Nat} (hr : r.Numbered)
    (hp : p ≤ s.length) : OutSafe (fun c => SafePost s [] p (initCaps r) [.startMark, .re r, .endMark, .accept] c ∧
      c.whole.b = some p) (attempt C n s f r p) := by
  unfold attempt
  have hst : StkOpen [] [.startMark, .re r, .endMark, .accept] := by
    simp only [StkOpen, marks, List.append_nil, and_true]; exact hr.nested
  have h := safe C n s false p f (initCaps r) _ [] hst (safePre_init hr hp rfl)
  refine ⟨h.1, fun c hc => ⟨h.2 c hc, ?_⟩⟩
  cases n with
  | zero => simp [eval_zero] at hc
  | succ n =>
    rw [eval_startMark] at hc
    simp only [Bool.false_eq_true, if_false] at hc
    have h' := safe C n s false p f ((initCaps r).setStart p) [.re r, .endMark, .accept] []
      (by simp only [StkOpen, marks, List.append_nil, and_true]; exact hr.nested)
      (by have := safePre_init hr hp (st := [.re r, .endMark, .accept]) rfl
          exact ⟨this.curLe, this.nodup, this.matched, this.slots, this.marks⟩)
    have := (h'.2 c hc).start (by simp)
    rw [this]; rfl

theorem attemptFull_safe (C : Cfg) {n : Nat} {s : List Ch} {f : Flags} {r : Re} {p : Nat} (hr : r.Numbered)
    (hp : p ≤ s.length) :
    OutSafe (fun c => SafePost s [] p (initCaps r) [.startMark, .re r, .re .sEnd, .endMark, .accept] c ∧
      c.whole.b = some p) (attemptFull C n s f r p) := by
  unfold attemptFull
  have hst : StkOpen [] [.startMark, .re r, .re .sEnd, .endMark, .accept] := by
    simp only [StkOpen, marks, List.append_nil, and_true]; exact ⟨hr.nested, rfl⟩
  have h := safe C n s false p f (initCaps r) _ [] hst (safePre_init hr hp rfl)
  refine ⟨h.1, fun c hc => ⟨h.2 c hc, ?_⟩⟩
  cases n with
  | zero => simp [eval_zero] at hc
  | succ n =>
    rw [eval_startMark] at hc
    simp only [Bool.false_eq_true, if_false] at hc
    have h' := safe C n s false p f ((initCaps r).setStart p) [.re r, .re .sEnd, .endMark, .accept] []
      (by simp only [StkOpen, marks, List.append_nil, and_true]; exact ⟨hr.nested, rfl⟩)
      (by have := safePre_init hr hp (st := [.re r, .re .sEnd, .endMark, .accept]) rfl
          exact ⟨this.curLe, this.nodup, this.matched, this.slots, this.marks⟩)
    have := (h'.2 c hc).start (by simp)
    rw [this]; rfl

theorem searchLoop_ne_ub (C : Cfg) {n : Nat} {s : List Ch} {f : Flags} {r : Re} (hr : r.Numbered) :
    ∀ {k it : Nat}, it + k ≤ s.length → searchLoop C n s f r k it ≠ .ub := by
  intro k
  induction k with
  | zero =>
    intro it h
    have := (attempt_safe C (n := n) (s := s) (f := f) hr (p := it) (by omega)).1
    unfold searchLoop
    cases ho : attempt C n s f r it <;> simp_all [Out.toExec]
  | succ k ih =>
    intro it h
    have := (attempt_safe C (n := n) (s := s) (f := f) hr (p := it) (by omega)).1
    unfold searchLoop
    cases ho : attempt C n s f r it with
    | fail => exact ih (by omega)
    | ub => exact absurd ho this
    | _ => simp [Out.toExec]

theorem toExec_done {r : Re} {o : Out} {c : Caps} (h : o.toExec r = .done c) (hm : c.whole.matched = true) :
    o = .ok c := by
  cases o <;> simp [Out.toExec] at h
  · subst h; simp [initCaps] at hm
  · rw [h]

theorem attempt_matched {C : Cfg} {n : Nat} {s : List Ch} {f : Flags} {r : Re} {p : Nat} {c : Caps} (hr : r.Numbered)
    (hp : p ≤ s.length) (h : attempt C n s f r p = .ok c) : c.whole.matched = true :=
  ((attempt_safe C hr hp).2 c h).1.matched

theorem attemptFull_matched {C : Cfg} {n : Nat} {s : List Ch} {f : Flags} {r : Re} {p : Nat} {c : Caps}
    (hr : r.Numbered) (hp : p ≤ s.length) (h : attemptFull C n s f r p = .ok c) : c.whole.matched = true :=
  ((attemptFull_safe C hr hp).2 c h).1.matched

theorem searchLoop_fail' {C : Cfg} {n : Nat} {s : List Ch} {f : Flags} {r : Re} {c : Caps} {k it : Nat}
    (hr : r.Numbered) (hk : it + k ≤ s.length) (h : searchLoop C n s f r k it = .done c)
    (hm : c.whole.matched = false) :
    c = (initCaps r).setEnd (it + k) ∧ ∀ i, i ≤ k → attempt C n s f r (it + i) = .fail :=
  searchLoop_fail h hm fun _ _ _ h2 ho => attempt_matched hr (by omega) ho

end Ctre
