import Verif.Props.Loops
import Verif.Lemmas.Fusion
import Verif.Model.Wrapper

/-
Matching a repeated character against a whole subject.
-/
namespace Ctre

variable {C : Cfg} {s : List Ch} {f : Flags}

/-- What follows in `match`: the end of the subject. -/
theorem end_ok (f : Flags) (c : Caps) :
    Runs C s false s.length f c [.re .sEnd, .endMark, .accept] (.ok (c.setEnd s.length).setMatched) := by
  refine ⟨by simp, 3, ?_⟩
  rw [eval_test (h := rfl)]
  simp only [testAt, if_true]
  rw [eval_endMark, eval_accept]
  rfl

theorem end_fail {p : Nat} (hp : p ≠ s.length) (f : Flags) (c : Caps) :
    Runs C s false p f c [.re .sEnd, .endMark, .accept] .fail := by
  refine ⟨by simp, 1, ?_⟩
  rw [eval_test (h := rfl)]
  simp only [testAt, if_neg (Ne.symm hp)]

theorem runs_repeated {k : RepKind} {a b v : Nat} (c : Caps) :
    (CanTake C.uni s f (.cc (.chr v)) a b 0 s.length →
      ∃ c', Runs C s false 0 f c [.re (.rep k a b [.cc (.chr v)]), .re .sEnd, .endMark, .accept] (.ok c') ∧ c'.whole.matched = true) ∧
    (¬ CanTake C.uni s f (.cc (.chr v)) a b 0 s.length →
      Runs C s false 0 f c [.re (.rep k a b [.cc (.chr v)]), .re .sEnd, .endMark, .accept] .fail) := by
  by_cases hab : ¬ (b = 0 ∨ a ≤ b)
  · refine ⟨fun h => ?_, fun _ => ⟨by simp, 1, ?_⟩⟩
    · have := h.1; have := h.2.1; omega
    · cases k with
      | greedy => rw [eval_greedy, if_pos (by omega)]
      | «lazy» => rw [eval_lazy, if_pos (by omega)]
      | poss => rw [eval_poss, if_pos (by omega)]
  rw [Decidable.not_not] at hab
  have hx : (Re.cc (.chr v)).isSingle = true := rfl
  have hle : ∀ k, CanTake C.uni s f (.cc (.chr v)) a b 0 k → k ≤ s.length := fun k hk => by
    have := canTake_le hx (Nat.zero_le _) hk; omega
  have poss : (CanTake C.uni s f (.cc (.chr v)) a b 0 s.length →
      ∃ c', Runs C s false 0 f c [.re (.rep .poss a b [.cc (.chr v)]), .re .sEnd, .endMark, .accept] (.ok c') ∧ c'.whole.matched = true) ∧
    (¬ CanTake C.uni s f (.cc (.chr v)) a b 0 s.length →
      Runs C s false 0 f c [.re (.rep .poss a b [.cc (.chr v)]), .re .sEnd, .endMark, .accept] .fail) := by
    refine ⟨fun h => ⟨((c.afterChars 0 s.length).setEnd s.length).setMatched, (C11_possessive_all hx hab (Nat.zero_le _)).2 (.inr ⟨s.length, h, ?_, hle⟩), ?_⟩, fun h =>
      (C11_possessive_all hx hab (Nat.zero_le _)).2 ?_⟩
    · simp only [Nat.zero_add]; exact end_ok _ _
    · simp [Caps.setMatched]
    · by_cases hex : ∃ k, CanTake C.uni s f (.cc (.chr v)) a b 0 k
      · obtain ⟨k, hk⟩ := hex
        obtain ⟨k, hk, hm⟩ := exists_max hle (s.length - k) k (by have := hle k hk; omega) hk
        refine .inr ⟨k, hk, ?_, hm⟩
        simp only [Nat.zero_add]
        refine end_fail ?_ _ _
        rintro rfl
        exact h hk
      · exact .inl ⟨rfl, fun k hk => hex ⟨k, hk⟩⟩
  cases k with
  | poss => exact poss
  | «lazy» =>
    refine ⟨fun h => ⟨((c.afterChars 0 s.length).setEnd s.length).setMatched, (C11_lazy_fewest hx hab (Nat.zero_le _)).2 (.inr ⟨by simp, s.length, h, ?_, ?_⟩), ?_⟩, fun h =>
      (C11_lazy_fewest hx hab (Nat.zero_le _)).2 (.inl ⟨rfl, fun k hk => ?_⟩)⟩
    · simp only [Nat.zero_add]; exact end_ok _ _
    · intro k hk _
      simp only [Nat.zero_add]; exact end_fail (by omega) _ _
    · simp [Caps.setMatched]
    · simp only [Nat.zero_add]
      refine end_fail ?_ _ _
      rintro rfl
      exact h hk
  | greedy =>
    cases hopt : C.greedyOpt with
    | false =>
      refine ⟨fun h => ⟨((c.afterChars 0 s.length).setEnd s.length).setMatched, (C11_greedy_most hx (.inl hopt) hab (Nat.zero_le _)).2 (.inr ⟨by simp, s.length, h, ?_, ?_⟩), ?_⟩, fun h =>
        (C11_greedy_most hx (.inl hopt) hab (Nat.zero_le _)).2 (.inl ⟨rfl, fun k hk => ?_⟩)⟩
      · simp only [Nat.zero_add]; exact end_ok _ _
      · intro k hk hk'
        have := hle k hk'; omega
      · simp [Caps.setMatched]
      · simp only [Nat.zero_add]
        refine end_fail ?_ _ _
        rintro rfl
        exact h hk
    | true =>
      have key : ∀ o, Runs C s false 0 f c [.re (.rep .poss a b [.cc (.chr v)]), .re .sEnd, .endMark, .accept] o →
          Runs C s false 0 f c [.re (.rep .greedy a b [.cc (.chr v)]), .re .sEnd, .endMark, .accept] o := by
        rintro o ⟨ho, n, hn⟩
        refine ⟨ho, n + 1, ?_⟩
        rw [eval_greedy, if_neg (by omega), hopt]
        have : loopCollides [.cc (.chr v)] [.re .sEnd, .endMark, .accept] = some false := rfl
        simp only [Bool.false_eq_true, if_false, if_true, this]
        exact hn
      exact ⟨fun h => by obtain ⟨c', h1, h2⟩ := poss.1 h; exact ⟨c', key _ h1, h2⟩, fun h => key _ (poss.2 h)⟩

/-- `match` of a repeated character. -/
theorem match_repeated (C : Cfg) (s : List Ch) (f : Flags) (k : RepKind) (a b v : Nat) :
    ∃ x, Returns (fun n => cMatch C n s f (.rep k a b [.cc (.chr v)])) (.done x) ∧
      (x.whole.matched = true ↔ CanTake C.uni s f (.cc (.chr v)) a b 0 s.length) := by
  have hi : initCaps (.rep k a b [.cc (.chr v)]) = {} := rfl
  obtain ⟨h1, h2⟩ := runs_repeated (C := C) (s := s) (f := f) (k := k) (a := a) (b := b) (v := v) (({} : Caps).setStart 0)
  by_cases h : CanTake C.uni s f (.cc (.chr v)) a b 0 s.length
  · obtain ⟨c', ⟨_, n, hn⟩, hm⟩ := h1 h
    refine ⟨c', ⟨by simp, n + 1, ?_⟩, by simp [h, hm]⟩
    simp only [cMatch, matchAt, attemptFull, hi]
    rw [eval_startMark]
    simp only [Bool.false_eq_true, if_false, hn, Out.toExec]
  · obtain ⟨_, n, hn⟩ := h2 h
    refine ⟨{}, ⟨by simp, n + 1, ?_⟩, by simp [h]⟩
    simp only [cMatch, matchAt, attemptFull, hi]
    rw [eval_startMark]
    simp only [Bool.false_eq_true, if_false, hn, Out.toExec, hi]

end Ctre
