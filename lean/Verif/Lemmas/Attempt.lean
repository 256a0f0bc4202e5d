import Verif.Lemmas.Unambiguous
import Verif.Spec.Report

/-
Attempts, searches and their relation to the declarative semantics.
-/
namespace Ctre

theorem captures_unset : (r : Re) → ∀ g ∈ r.captures, g.slot = {} := by
  suffices h : (∀ r : Re, ∀ g ∈ r.captures, g.slot = {}) ∧ True from h.1
  refine ⟨?_, trivial⟩
  intro r
  refine Re.rec (motive_1 := fun r => ∀ g ∈ r.captures, g.slot = {})
    (motive_2 := fun l => ∀ g ∈ capturesList l, g.slot = {}) ?_ ?_ ?_ ?_ ?_ ?_ ?_ ?_ ?_ ?_ ?_ ?_ ?_ ?_ ?_ ?_ ?_ ?_ ?_ ?_ ?_ ?_ ?_ ?_ r
  all_goals intros
  all_goals simp_all [Re.captures, capturesList]
  all_goals rename_i h; try (rcases h with h | h) <;> simp_all

theorem selectId_unset {gs : List Group} (h : ∀ g ∈ gs, g.slot = {}) (id : Nat) (sl : Slot)
    (hs : selectId id gs = some sl) : sl = {} := by
  induction gs with
  | nil => simp [selectId] at hs
  | cons g gs ih =>
    simp only [selectId] at hs
    split at hs
    · simp only [Option.some.injEq] at hs
      rw [← hs]; exact h g (by simp)
    · exact ih (fun g hg => h g (by simp [hg])) hs

theorem shapeOK_of (C : Cfg) {r : Re} (hr : r.WellNumbered) : ShapeOK (envOf C r) (shape r.captures) where
  nodup := by have := hr.distinct; simpa [groupIds, shape, Function.comp_def] using this
  nz := by have := hr.positive; simpa [groupIds, shape] using this
  num gs h n := groupNumber_shape n h.symm

theorem rel_start (C : Cfg) {r : Re} (hr : r.WellNumbered) {s : List Ch} {p : Nat} (f : Flags) (hp : p ≤ s.length) :
    Rel (envOf C r) s (groupIds r.captures) [] (sst p f (initCaps r)) (MState.start p f) := by
  refine ⟨rfl, rfl, rfl, hp, rfl, hr.distinct, hr.positive, fun n => rfl, ?_⟩
  intro id _
  unfold refSlot
  simp only [sst, initCaps, MState.start]
  split
  · simp [SlotRel, Slot.complete]
  · cases h : selectId id r.captures with
    | none => simp [SlotRel]
    | some sl =>
      have := selectId_unset (captures_unset r) id sl h
      subst this
      simp [SlotRel, Slot.complete]

/-- A machine path from the start of an attempt yields a declarative match that is reported. -/
theorem reports_of {C : Cfg} {r : Re} (hr : r.WellNumbered) (hneg : r.negCaps (groupIds r.captures) = true)
    {s : List Ch} {p : Nat} {f : Flags} (hp : p ≤ s.length) {y : SSt} {c : Caps}
    (h : r.Sem C.uni s (sst p f (initCaps r)) y)
    (hg : c.groups = y.gs) (hw : c.whole = ⟨some p, some y.pos, true⟩) :
    ∃ τ, r.Match (envOf C r) s (MState.start p f) τ ∧ τ.pos = y.pos ∧ Reports c p τ := by
  obtain ⟨τ, hτ, hrel, _⟩ := (Re.refine (s := s) (E := envOf C r) hr.noSelf hneg _ _ (rel_start C hr f hp)).1 y h
  have ht := (h.touch hr.noSelf).2
  refine ⟨τ, hτ, hrel.pos.symm, ?_, ?_⟩
  · simp only [Caps.get, if_true, hw, hrel.pos]
  · intro id sl hid hsl
    simp only [Caps.get, if_neg hid, hg] at hsl
    have h1 := hrel.slots id (by simp)
    unfold refSlot at h1
    rw [if_neg hid, hsl] at h1
    have h2 := ht id
    rw [hsl] at h2
    rcases h2 with h2 | ⟨b, e, h2⟩
    · have := selectId_unset (captures_unset r) id sl h2.symm
      subst this
      simp only [SlotRel, Bool.false_eq_true, false_and, false_or] at h1
      rw [h1.2]
    · simp only [Option.some.injEq] at h2
      subst h2
      simp only [SlotRel] at h1
      rcases h1 with ⟨_, b', e', hb, he, hv⟩ | ⟨hc, _⟩
      · rw [hv]; simp only [Option.some.injEq] at hb he; subst hb he; rfl
      · exact absurd ⟨rfl, b, e, rfl, rfl⟩ hc

theorem initGood (r : Re) (p : Nat) : Good (shape r.captures) ((initCaps r).setStart p) := ⟨rfl, rfl⟩

/-- Soundness of an attempt followed by `tail`. -/
theorem attempt_sound {C : Cfg} {n : Nat} {s : List Ch} {f : Flags} {r : Re} {p : Nat} {c : Caps}
    (hp : p ≤ s.length) (hs : r.SndOK C (shape r.captures))
    (h : attempt C n s f r p = .ok c) :
    ∃ y, r.Sem C.uni s (sst p f (initCaps r)) y ∧ y.pos ≤ s.length ∧ c.groups = y.gs ∧
      c.whole = ⟨some p, some y.pos, true⟩ := by
  unfold attempt at h
  cases n with
  | zero => simp [eval_zero] at h
  | succ n =>
    rw [eval_startMark] at h
    simp only [Bool.false_eq_true, if_false] at h
    obtain ⟨y, hy⟩ := (snd_cpl C (shape r.captures) n).1 _ _ _ _ _ _ _ hp
      (by simp only [StkSnd_cons, Item.SndOK]; exact ⟨hs, trivial, trivial, by simp [StkSnd]⟩)
      (initGood r p) h
    have h1 := hy.sem
    simp only [StackSem, true_and] at h1
    obtain ⟨z, hz, rfl⟩ := h1
    refine ⟨y, hz, hy.posLe, hy.groups, ?_⟩
    have hb := hy.start (by simp)
    have he := hy.endPos (by simp [endsPos])
    have hm := hy.matched
    cases hc : c.whole
    rw [hc] at hb he hm
    simp_all [Caps.setStart]

theorem attemptFull_sound {C : Cfg} {n : Nat} {s : List Ch} {f : Flags} {r : Re} {p : Nat} {c : Caps}
    (hp : p ≤ s.length) (hs : r.SndOK C (shape r.captures))
    (h : attemptFull C n s f r p = .ok c) :
    ∃ y, r.Sem C.uni s (sst p f (initCaps r)) y ∧ y.pos = s.length ∧ c.groups = y.gs ∧
      c.whole = ⟨some p, some y.pos, true⟩ := by
  unfold attemptFull at h
  cases n with
  | zero => simp [eval_zero] at h
  | succ n =>
    rw [eval_startMark] at h
    simp only [Bool.false_eq_true, if_false] at h
    obtain ⟨y, hy⟩ := (snd_cpl C (shape r.captures) n).1 _ _ _ _ _ _ _ hp
      (by simp only [StkSnd_cons, Item.SndOK]; exact ⟨hs, by simp [Re.SndOK], trivial, trivial, by simp [StkSnd]⟩)
      (initGood r p) h
    have h1 := hy.sem
    simp only [StackSem, true_and] at h1
    obtain ⟨z, hz, w, hw, rfl⟩ := h1
    rw [Re.Sem_test rfl] at hw
    obtain ⟨hw, rfl⟩ := hw
    refine ⟨y, hz, ?_, hy.groups, ?_⟩
    · simp [testAt] at hw; omega
    · have hb := hy.start (by simp)
      have he := hy.endPos (by simp [endsPos])
      have hm := hy.matched
      cases hc : c.whole
      rw [hc] at hb he hm
      simp_all [Caps.setStart]

/-- Completeness of an attempt. -/
theorem attempt_complete {C : Cfg} {n : Nat} {s : List Ch} {f : Flags} {r : Re} {p : Nat}
    (hp : p ≤ s.length) (hs : r.CplOK C (shape r.captures))
    (h : attempt C n s f r p = .fail) : ∀ y, ¬ r.Sem C.uni s (sst p f (initCaps r)) y := by
  intro y hy
  unfold attempt at h
  cases n with
  | zero => simp [eval_zero] at h
  | succ n =>
    rw [eval_startMark] at h
    simp only [Bool.false_eq_true, if_false] at h
    have := (snd_cpl C (shape r.captures) n).2 _ _ _ _ _ _ hp
      (by simp only [StkCpl_cons, Item.CplOK]; exact ⟨hs, trivial, trivial, by simp [StkCpl]⟩)
      (initGood r p) h y ⟨y, hy, by simp [StackSem]⟩
    simp [endsCycle] at this

theorem attemptFull_complete {C : Cfg} {n : Nat} {s : List Ch} {f : Flags} {r : Re} {p : Nat}
    (hp : p ≤ s.length) (hs : r.CplOK C (shape r.captures))
    (h : attemptFull C n s f r p = .fail) :
    ∀ y, r.Sem C.uni s (sst p f (initCaps r)) y → y.pos ≠ s.length := by
  intro y hy hl
  unfold attemptFull at h
  cases n with
  | zero => simp [eval_zero] at h
  | succ n =>
    rw [eval_startMark] at h
    simp only [Bool.false_eq_true, if_false] at h
    have := (snd_cpl C (shape r.captures) n).2 _ _ _ _ _ _ hp
      (by simp only [StkCpl_cons, Item.CplOK]; exact ⟨hs, by simp [Re.CplOK], trivial, trivial, by simp [StkCpl]⟩)
      (initGood r p) h y
      ⟨y, hy, y, by rw [Re.Sem_test rfl]; simp [testAt, hl], by simp [StackSem]⟩
    simp [endsCycle] at this

/-- A successful search is a successful attempt. -/
theorem searchLoop_ok {C : Cfg} {n : Nat} {s : List Ch} {f : Flags} {r : Re} {c : Caps} : ∀ {k it : Nat},
    searchLoop C n s f r k it = .done c → c.whole.matched = true →
    ∃ j, j ≤ k ∧ attempt C n s f r (it + j) = .ok c ∧ ∀ i, i < j → attempt C n s f r (it + i) = .fail := by
  intro k
  induction k with
  | zero =>
    intro it h hm
    unfold searchLoop at h
    split at h
    · simp only [Exec.done.injEq] at h; subst h; simp [Caps.setEnd, initCaps] at hm
    · rename_i hne
      cases ho : attempt C n s f r it with
      | ok c' => simp [ho, Out.toExec] at h; subst h; exact ⟨0, Nat.le_refl _, ho, by omega⟩
      | fail => exact absurd ho hne
      | _ => simp [ho, Out.toExec] at h
  | succ k ih =>
    intro it h hm
    unfold searchLoop at h
    split at h
    · rename_i hf
      obtain ⟨j, hj, h1, h2⟩ := ih h hm
      refine ⟨j + 1, by omega, by rw [← h1]; congr 1; omega, ?_⟩
      intro i hi
      cases i with
      | zero => exact hf
      | succ i => have := h2 i (by omega); rw [← this]; congr 1; omega
    · rename_i hne
      cases ho : attempt C n s f r it with
      | ok c' => simp [ho, Out.toExec] at h; subst h; exact ⟨0, by omega, ho, by omega⟩
      | fail => exact absurd ho hne
      | _ => simp [ho, Out.toExec] at h

/-- A search that reports failure has failed at every position. -/
theorem searchLoop_fail {C : Cfg} {n : Nat} {s : List Ch} {f : Flags} {r : Re} {c : Caps} : ∀ {k it : Nat},
    searchLoop C n s f r k it = .done c → c.whole.matched = false →
    (∀ j c', it ≤ j → j ≤ it + k → attempt C n s f r j = .ok c' → c'.whole.matched = true) →
    c = (initCaps r).setEnd (it + k) ∧ ∀ i, i ≤ k → attempt C n s f r (it + i) = .fail := by
  intro k
  induction k with
  | zero =>
    intro it h hm hok
    unfold searchLoop at h
    split at h
    · rename_i hf
      simp only [Exec.done.injEq] at h
      refine ⟨h.symm, ?_⟩
      intro i hi; have : i = 0 := by omega
      subst this; exact hf
    · rename_i hne
      cases ho : attempt C n s f r it with
      | ok c' =>
        simp [ho, Out.toExec] at h
        subst h
        rw [hok _ _ (by omega) (by omega) ho] at hm; simp at hm
      | fail => exact absurd ho hne
      | _ => simp [ho, Out.toExec] at h
  | succ k ih =>
    intro it h hm hok
    unfold searchLoop at h
    split at h
    · rename_i hf
      obtain ⟨h1, h2⟩ := ih h hm (fun j c' hj hj' => hok j c' (by omega) (by omega))
      refine ⟨by rw [h1]; congr 1; omega, ?_⟩
      intro i hi
      cases i with
      | zero => exact hf
      | succ i => have := h2 i (by omega); rw [← this]; congr 1; omega
    · rename_i hne
      cases ho : attempt C n s f r it with
      | ok c' =>
        simp [ho, Out.toExec] at h
        subst h
        rw [hok _ _ (by omega) (by omega) ho] at hm; simp at hm
      | fail => exact absurd ho hne
      | _ => simp [ho, Out.toExec] at h

end Ctre
