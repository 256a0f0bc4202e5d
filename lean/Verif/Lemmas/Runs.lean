import Verif.Spec.Runs
import Verif.Lemmas.Mono

/-
Fuel-free equations for the result of a run.
-/
namespace Ctre

variable {C : Cfg} {s : List Ch} {lb : Bool} {cur : Nat} {f : Flags} {c : Caps} {t : Stack} {o : Out}

theorem Runs.det {st : Stack} {o o' : Out} (h : Runs C s lb cur f c st o) (h' : Runs C s lb cur f c st o') :
    o = o' := by
  obtain ⟨h1, n, rfl⟩ := h
  obtain ⟨h2, m, rfl⟩ := h'
  exact eval_det C h1 h2

/-- A run whose first step is a tail call. -/
theorem runs_of_step {st st' : Stack} {cur' : Nat} {f' : Flags} {c' : Caps} {s' : List Ch} {lb' : Bool}
    (h : ∀ n, eval C (n+1) s lb cur f c st = eval C n s' lb' cur' f' c' st') :
    Runs C s lb cur f c st o ↔ Runs C s' lb' cur' f' c' st' o := by
  constructor
  · rintro ⟨ho, n, hn⟩
    refine ⟨ho, ?_⟩
    cases n with
    | zero => exact absurd hn.symm ho
    | succ n => exact ⟨n, by rw [← h]; exact hn⟩
  · rintro ⟨ho, n, hn⟩
    exact ⟨ho, n+1, by rw [h]; exact hn⟩

/-- A run that ends in its first step. -/
theorem runs_of_end {st : Stack} {o' : Out} (ho' : o' ≠ .timeout)
    (h : ∀ n, eval C (n+1) s lb cur f c st = o') : Runs C s lb cur f c st o ↔ o = o' := by
  constructor
  · rintro ⟨ho, n, hn⟩
    cases n with
    | zero => exact absurd hn.symm ho
    | succ n => rw [h] at hn; exact hn.symm
  · rintro rfl
    exact ⟨ho', 1, h 0⟩

theorem runs_empty : Runs C s lb cur f c (.re .empty :: t) o ↔ Runs C s lb cur f c t o :=
  runs_of_step fun _ => rfl

theorem runs_seq_one {r : Re} : Runs C s lb cur f c (.re (.seq [r]) :: t) o ↔
    Runs C s lb cur f c (.re r :: t) o := runs_of_step fun _ => rfl

theorem runs_seq_cons {r r' : Re} {m : List Re} : Runs C s lb cur f c (.re (.seq (r :: r' :: m)) :: t) o ↔
    Runs C s lb cur f c (.re r :: .re (.seq (r' :: m)) :: t) o := runs_of_step fun _ => rfl

theorem runs_mode {md : Mode} : Runs C s lb cur f c (.re (.mode md) :: t) o ↔
    Runs C s lb cur (f.add md) c t o := runs_of_step fun _ => rfl

theorem runs_atomic {m : List Re} : Runs C s lb cur f c (.re (.atomic m) :: t) o ↔
    Runs C s lb cur f c (.re (.rep .poss 1 1 m) :: t) o := runs_of_step fun _ => rfl

theorem runs_reject {own : Bool} : Runs C s lb cur f c (.re (.reject own) :: t) o ↔ o = .fail :=
  runs_of_end (by simp) fun _ => rfl

theorem runs_sel_nil : Runs C s lb cur f c (.re (.sel []) :: t) o ↔ o = .fail :=
  runs_of_end (by simp) fun _ => rfl

theorem runs_sel_cons {r : Re} {l : List Re} : Runs C s lb cur f c (.re (.sel (r :: l)) :: t) o ↔
    (Runs C s lb cur f c (.re r :: t) o ∧ o ≠ .fail) ∨
    (Runs C s lb cur f c (.re r :: t) .fail ∧ Runs C s lb cur f c (.re (.sel l) :: t) o) := by
  constructor
  · rintro ⟨ho, n, hn⟩
    cases n with
    | zero => exact absurd hn.symm ho
    | succ n =>
      rw [eval_sel_cons] at hn
      by_cases h : eval C n s lb cur f c (.re r :: t) = .fail
      · rw [h] at hn
        exact .inr ⟨⟨by simp, n, h⟩, ho, n, hn⟩
      · have : eval C n s lb cur f c (.re r :: t) = o := by
          revert hn h; cases eval C n s lb cur f c (.re r :: t) <;> simp [Out.orElse]
        exact .inl ⟨⟨ho, n, this⟩, this ▸ h⟩
  · rintro (⟨⟨ho, n, hn⟩, hf⟩ | ⟨⟨_, n, hn⟩, ho, m, hm⟩)
    · refine ⟨ho, n+1, ?_⟩
      rw [eval_sel_cons, hn]
      cases o <;> simp_all [Out.orElse]
    · refine ⟨ho, max n m + 1, ?_⟩
      rw [eval_sel_cons, eval_of_le C (Nat.le_max_left n m) hn (by simp),
        eval_of_le C (Nat.le_max_right n m) hm ho]
      rfl

theorem runs_ahead_true {m : List Re} : Runs C s lb cur f c (.re (.ahead true m) :: t) o ↔
    (∃ c', Runs C s lb cur f c [.re (.seq m), .endAhead] (.ok c') ∧ Runs C s lb cur f c'.unmatch t o) ∨
    (Runs C s lb cur f c [.re (.seq m), .endAhead] o ∧ ∀ c', o ≠ .ok c') := by
  constructor
  · rintro ⟨ho, n, hn⟩
    cases n with
    | zero => exact absurd hn.symm ho
    | succ n =>
      rw [eval_ahead] at hn
      generalize he : eval C n s lb cur f c [.re (.seq m), .endAhead] = e at hn
      cases e with
      | ok c' => exact .inl ⟨c', ⟨by simp, n, he⟩, ho, n, hn⟩
      | _ => exact .inr ⟨⟨ho, n, by rw [he]; exact hn⟩, by rintro c' rfl; simp at hn⟩
  · rintro (⟨c', ⟨_, n, hn⟩, ho, m, hm⟩ | ⟨⟨ho, n, hn⟩, hf⟩)
    · refine ⟨ho, max n m + 1, ?_⟩
      rw [eval_ahead, eval_of_le C (Nat.le_max_left n m) hn (by simp)]
      exact eval_of_le C (Nat.le_max_right n m) hm ho
    · refine ⟨ho, n+1, ?_⟩
      rw [eval_ahead, hn]
      cases o <;> simp_all

theorem runs_ahead_false {m : List Re} : Runs C s lb cur f c (.re (.ahead false m) :: t) o ↔
    (Runs C s lb cur f c [.re (.seq m), .endAhead] .fail ∧ Runs C s lb cur f c t o) ∨
    ((∃ c', Runs C s lb cur f c [.re (.seq m), .endAhead] (.ok c')) ∧ o = .fail) ∨
    (Runs C s lb cur f c [.re (.seq m), .endAhead] o ∧ (o = .ub ∨ o = .ill)) := by
  constructor
  · rintro ⟨ho, n, hn⟩
    cases n with
    | zero => exact absurd hn.symm ho
    | succ n =>
      rw [eval_ahead] at hn
      generalize he : eval C n s lb cur f c [.re (.seq m), .endAhead] = e at hn
      cases e with
      | ok c' => exact .inr (.inl ⟨⟨c', ⟨by simp, n, he⟩⟩, hn.symm⟩)
      | fail => exact .inl ⟨⟨by simp, n, he⟩, ho, n, hn⟩
      | timeout => exact absurd hn.symm ho
      | ub => exact .inr (.inr ⟨⟨ho, n, by rw [he]; exact hn⟩, .inl hn.symm⟩)
      | ill => exact .inr (.inr ⟨⟨ho, n, by rw [he]; exact hn⟩, .inr hn.symm⟩)
  · rintro (⟨⟨_, n, hn⟩, ho, m, hm⟩ | ⟨⟨c', _, n, hn⟩, rfl⟩ | ⟨⟨ho, n, hn⟩, rfl | rfl⟩)
    · refine ⟨ho, max n m + 1, ?_⟩
      rw [eval_ahead, eval_of_le C (Nat.le_max_left n m) hn (by simp)]
      exact eval_of_le C (Nat.le_max_right n m) hm ho
    · exact ⟨by simp, n+1, by rw [eval_ahead, hn]; rfl⟩
    · exact ⟨ho, n+1, by rw [eval_ahead, hn]⟩
    · exact ⟨ho, n+1, by rw [eval_ahead, hn]⟩

end Ctre
