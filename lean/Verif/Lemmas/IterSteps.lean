import Verif.Model.IterSteps
import Verif.Lemmas.Split
import Verif.Lemmas.Iterate
import Verif.Lemmas.Steps
import Verif.Lemmas.Terminates

/-
How the work of the single calls adds up in a loop.
-/
namespace Ctre

/-- A search takes one attempt for every position up to the one that it reports. -/
theorem searchLoopSteps_le {C : Cfg} {n : Nat} {s : List Ch} {f : Flags} {r : Re} {A : Nat}
    (hA : ∀ p, p ≤ s.length → startsWithSteps C n s f r p ≤ A) : ∀ {k it : Nat}, it + k ≤ s.length →
    searchLoopSteps C n s f r k it ≤ (k + 1) * A
  | 0, it, h => by rw [searchLoopSteps, Nat.zero_add, Nat.one_mul]; exact hA _ h
  | k + 1, it, h => by
    have h1 := searchLoopSteps_le hA (k := k) (it := it + 1) (by omega)
    have h2 := hA it (by omega)
    have h3 : (attempt C n s f r it).ifFail (searchLoopSteps C n s f r k (it + 1)) ≤ (k + 1) * A :=
      Nat.le_trans (ifFail_le _ _) h1
    rw [searchLoopSteps, Nat.succ_mul (k + 1)]
    omega

theorem searchLoopSteps_found {C : Cfg} {n : Nat} {s : List Ch} {f : Flags} {r : Re} {A : Nat}
    (hA : ∀ p, p ≤ s.length → startsWithSteps C n s f r p ≤ A) : ∀ {j k it : Nat} {c : Caps}, it + k ≤ s.length → j ≤ k →
    attempt C n s f r (it + j) = .ok c → searchLoopSteps C n s f r k it ≤ (j + 1) * A
  | 0, 0, it, c, h, _, _ => by rw [searchLoopSteps, Nat.zero_add, Nat.one_mul]; exact hA _ h
  | 0, k + 1, it, c, h, _, hc => by
    rw [searchLoopSteps, show attempt C n s f r it = .ok c from hc, Nat.zero_add, Nat.one_mul]
    exact hA _ (by omega)
  | j + 1, k + 1, it, c, h, hj, hc => by
    have h1 := searchLoopSteps_found hA (j := j) (k := k) (it := it + 1) (c := c) (by omega) (by omega)
      (by rw [← hc]; congr 1; omega)
    have h2 := hA it (by omega)
    have h3 : (attempt C n s f r it).ifFail (searchLoopSteps C n s f r k (it + 1)) ≤ (j + 1) * A :=
      Nat.le_trans (ifFail_le _ _) h1
    rw [searchLoopSteps, Nat.succ_mul (j + 1)]
    omega

theorem searchSteps_le {C : Cfg} {n : Nat} {s : List Ch} {f : Flags} {r : Re} {A : Nat}
    (hA : ∀ p, p ≤ s.length → startsWithSteps C n s f r p ≤ A) {p : Nat} (hp : p ≤ s.length) :
    searchSteps C n s f r p ≤ (s.length - p + 1) * A := by
  unfold searchSteps
  split
  · refine Nat.le_trans (searchLoopSteps_le hA (by omega)) (Nat.mul_le_mul_right _ (by omega))
  · exact searchLoopSteps_le hA (by omega)

theorem searchSteps_found {C : Cfg} {n : Nat} {s : List Ch} {f : Flags} {r : Re} {A : Nat}
    (hr : r.Numbered) (hA : ∀ p, p ≤ s.length → startsWithSteps C n s f r p ≤ A) {p b : Nat} {c : Caps} (hp : p ≤ s.length)
    (h : searchAt C n s f r p = .done c) (hm : c.whole.matched = true) (hb : c.whole.b = some b) :
    searchSteps C n s f r p ≤ (b - p + 1) * A := by
  obtain ⟨j, hj, h1, _⟩ := searchLoop_ok h hm
  have hj' : p + j ≤ s.length := by split at hj <;> omega
  obtain ⟨e, h2, _, _⟩ := attempt_span hr hj' h1
  rw [h2] at hb
  have hb' : p + j = b := by simpa using hb
  unfold searchSteps
  rw [show b - p = j by omega]
  exact searchLoopSteps_found hA (by split <;> omega) hj h1

/-- The work of a loop over `search_all`, as long as it has not ended before. -/
theorem searchAllSteps_le {C : Cfg} {n : Nat} {s : List Ch} {f : Flags} {r : Re} {A : Nat}
    (hr : r.Numbered) (hA : ∀ p, p ≤ s.length → startsWithSteps C n s f r p ≤ A) : ∀ {k : Nat} {a : RIter},
    searchAllNth C n s f r k = some a → a.isEnd = false → searchAllSteps C n s f r k ≤ (a.current + k + 1) * A
  | 0, a, h, hl => by
    obtain ⟨_, _, h1, _, h2⟩ := RIter.assign_inv (search_spanOK hr) (Nat.zero_le _) h
    obtain ⟨b, h3, _, h4⟩ := h2 hl
    refine Nat.le_trans (searchSteps_found hr hA (Nat.zero_le _) h1 (by rw [h3]) (by rw [h3])) (Nat.mul_le_mul_right _ (by omega))
  | k + 1, b, hb, hl => by
    obtain ⟨a, ha⟩ := RIter.nth_prefix hb k (by omega)
    obtain ⟨_, _, h1, h2, _⟩ := RIter.nth_succ (search_spanOK hr) rfl ha hb
    have hla : a.isEnd = false := by
      cases h : a.isEnd with
      | false => rfl
      | true => rw [h1 h] at hl; cases hl
    obtain ⟨h3, h4, x, h5, h6, h7⟩ := h2 hl
    have ih := searchAllSteps_le hr hA ha hla
    have h8 := searchSteps_found hr hA (Nat.le_of_lt h3) h4 (by rw [h5]) (b := x) (by rw [h5])
    have e : searchAllSteps C n s f r (k + 1) = searchAllSteps C n s f r k + searchSteps C n s f r a.current := by
      show RIter.work _ _ _ _ (k + 1) = _
      rw [RIter.work, show RIter.nth (searchAt C n s f r) s.length (initCaps r) k = some a from ha]
      simp only [if_neg (Nat.ne_of_lt h3)]
      rfl
    rw [e]
    refine Nat.le_trans (Nat.add_le_add ih h8) ?_
    rw [← Nat.add_mul]
    exact Nat.mul_le_mul_right _ (by omega)

theorem searchAllSteps_total {C : Cfg} {n : Nat} {s : List Ch} {f : Flags} {r : Re} {A : Nat}
    (hr : r.Numbered) (hA : ∀ p, p ≤ s.length → startsWithSteps C n s f r p ≤ A) : ∀ {k : Nat},
    (∀ i, i < k → ∃ a, searchAllNth C n s f r i = some a ∧ a.isEnd = false) →
    searchAllSteps C n s f r k ≤ (s.length + k + 1) * A
  | 0, _ => searchSteps_le hA (Nat.zero_le _)
  | k + 1, h => by
    obtain ⟨a, ha, hl⟩ := h k (by omega)
    have h1 := searchAllSteps_le hr hA ha hl
    have h2 := (RIter.nth_inv (search_spanOK hr) rfl ha).le
    have h3 := searchSteps_le hA h2
    have e : searchAllSteps C n s f r (k + 1) ≤ searchAllSteps C n s f r k + searchSteps C n s f r a.current := by
      show RIter.work _ _ _ _ (k + 1) ≤ _
      rw [RIter.work, show RIter.nth (searchAt C n s f r) s.length (initCaps r) k = some a from ha]
      refine Nat.add_le_add_left ?_ _
      dsimp only
      split <;> omega
    refine Nat.le_trans e (Nat.le_trans (Nat.add_le_add h1 h3) ?_)
    rw [← Nat.add_mul]
    exact Nat.mul_le_mul_right _ (by omega)

theorem tokenizeSteps_le {C : Cfg} {n : Nat} {s : List Ch} {f : Flags} {r : Re} {A : Nat}
    (hr : r.Numbered) (hA : ∀ p, p ≤ s.length → startsWithSteps C n s f r p ≤ A) : ∀ k : Nat,
    tokenizeSteps C n s f r k ≤ (k + 1) * A
  | 0 => by rw [Nat.zero_add, Nat.one_mul]; exact hA 0 (Nat.zero_le _)
  | k + 1 => by
    have ih := tokenizeSteps_le hr hA k
    rw [Nat.succ_mul (k + 1)]
    refine Nat.add_le_add ih ?_
    split
    · rename_i a ha
      split
      · exact Nat.zero_le _
      · exact hA _ (RIter.nth_inv (startsWith_spanOK hr) rfl ha).le
    · exact Nat.zero_le _

/-- One step of `split`: the work is paid by the characters passed. -/
theorem split_assign {C : Cfg} {n : Nat} {s : List Ch} {f : Flags} {r : Re} {A : Nat}
    (hr : r.Numbered) (hA : ∀ p, p ≤ s.length → startsWithSteps C n s f r p ≤ A) {p : Nat} (hp : p ≤ s.length) {l : Bool}
    {it : SIter} (h : SIter.assign p l (searchAt C n s f r p) = some it) :
    p ≤ it.current ∧ it.current ≤ s.length ∧ searchSteps C n s f r p ≤ (it.current - p + 1) * A := by
  unfold SIter.assign at h
  split at h
  · rename_i c hc
    split at h
    · rename_i hm
      obtain ⟨b, e, h1, h2, h3, h4⟩ := search_spanOK hr p c hp hc hm
      have h5 := searchSteps_found hr hA hp hc hm (b := b) (by rw [h1])
      rw [SIter.modifyMatch, h1] at h
      simp only [Option.some.injEq] at h
      subst h
      exact ⟨Nat.le_trans h2 h3, h4, Nat.le_trans h5 (Nat.mul_le_mul_right _ (by show b - p + 1 ≤ e - p + 1; omega))⟩
    · rename_i hm
      have hm' : c.whole.matched = false := by simpa using hm
      have hk : p + (if startsWithAnchor f r then 0 else s.length - p) ≤ s.length := by split <;> omega
      have h1 := (searchLoop_fail' hr hk hc hm').1
      have h2 : searchSteps C n s f r p ≤ ((if startsWithAnchor f r then 0 else s.length - p) + 1) * A :=
        searchLoopSteps_le hA hk
      generalize (if startsWithAnchor f r then 0 else s.length - p) = j at hk h1 h2
      rw [SIter.matchRest, h1] at h
      have h3 : ((initCaps r).setEnd (p + j)).whole.e = some (p + j) := rfl
      rw [h3] at h
      simp only [Option.some.injEq] at h
      subst h
      refine ⟨Nat.le_add_right p j, hk, ?_⟩
      show _ ≤ (p + j - p + 1) * A
      rw [Nat.add_sub_cancel_left]
      exact h2
  · cases h

theorem splitSteps_le {C : Cfg} {n : Nat} {s : List Ch} {f : Flags} {r : Re} {A : Nat}
    (hr : r.Numbered) (hA : ∀ p, p ≤ s.length → startsWithSteps C n s f r p ≤ A) : ∀ {k : Nat} {a : SIter},
    splitNth C n s f r k = some a → a.current ≤ s.length ∧ splitSteps C n s f r k ≤ (a.current + k + 1) * A
  | 0, a, h => by
    obtain ⟨_, h1, h2⟩ := split_assign hr hA (Nat.zero_le _) h
    exact ⟨h1, h2⟩
  | k + 1, b, hb => by
    obtain ⟨a, ha⟩ : ∃ a, splitNth C n s f r k = some a := by
      cases h : splitNth C n s f r k with
      | some a => exact ⟨a, rfl⟩
      | none =>
        rw [splitNth, SIter.nth, show SIter.nth (searchAt C n s f r) s.length (initCaps r) k = none from h] at hb
        cases hb
    obtain ⟨h1, ih⟩ := splitSteps_le hr hA ha
    rw [splitNth, SIter.nth, show SIter.nth (searchAt C n s f r) s.length (initCaps r) k = some a from ha] at hb
    have e : splitSteps C n s f r (k + 1) = splitSteps C n s f r k +
        (if a.current = s.length ∧ a.lastMatch then 0 else searchSteps C n s f r a.current) := by
      show SIter.work _ _ _ _ (k + 1) = _
      rw [SIter.work, show SIter.nth (searchAt C n s f r) s.length (initCaps r) k = some a from ha]
      rfl
    rw [e]
    dsimp only [SIter.next] at hb
    split at hb
    · rename_i hc
      rw [if_pos hc]
      simp only [Option.some.injEq] at hb
      subst hb
      exact ⟨h1, Nat.le_trans ih (Nat.mul_le_mul_right _ (by show a.current + k + 1 ≤ a.current + (k + 1) + 1; omega))⟩
    · rename_i hc
      rw [if_neg hc]
      obtain ⟨h2, h3, h4⟩ := split_assign hr hA h1 hb
      refine ⟨h3, Nat.le_trans (Nat.add_le_add ih h4) ?_⟩
      rw [← Nat.add_mul]
      exact Nat.mul_le_mul_right _ (by omega)

/-- A pattern that moves matches nothing empty. -/
theorem attempt_nonempty {C : Cfg} {n : Nat} {s : List Ch} {f : Flags} {r : Re} (hr : r.Numbered) (hm : r.moves = true)
    {p : Nat} {c : Caps} (hp : p ≤ s.length) (h : attempt C n s f r p = .ok c) : c.whole.b ≠ c.whole.e := by
  obtain ⟨e, h1, _, _⟩ := attempt_span hr hp h
  have h2 := eval_moves C n s false p f (initCaps r) [.startMark, .re r, .endMark, .accept] hp (by simp [endsPos])
    (.inl (by simp [movesSt, hm])) c h
  obtain ⟨e', h3, h4, _⟩ := h2
  rw [h1] at h3 ⊢
  simp only [Option.some.injEq, ne_eq] at h3 ⊢
  omega

theorem search_nonempty {C : Cfg} {n : Nat} {s : List Ch} {f : Flags} {r : Re} (hr : r.Numbered) (hm : r.moves = true)
    (p : Nat) (c : Caps) (hp : p ≤ s.length) (h : searchAt C n s f r p = .done c) (h1 : c.whole.matched = true) :
    c.whole.b ≠ c.whole.e := by
  obtain ⟨j, hj, h2, _⟩ := searchLoop_ok h h1
  have hj' : p + j ≤ s.length := by split at hj <;> omega
  exact attempt_nonempty hr hm hj' h2

/-- If no call reports an empty span, every result ends behind its number. -/
theorem RIter.nth_count {exec : Nat → Exec} {len : Nat} {dflt : Caps} (hs : SpanOK exec len) (hd : dflt.whole.matched = false)
    (hne : ∀ p c, p ≤ len → exec p = .done c → c.whole.matched = true → c.whole.b ≠ c.whole.e) :
    ∀ {k it}, RIter.nth exec len dflt k = some it → it.isEnd = false → k < it.current := by
  intro k
  induction k with
  | zero =>
    intro it h hl
    obtain ⟨_, _, h2, _, h3⟩ := RIter.assign_inv hs (Nat.zero_le _) h
    obtain ⟨b, h4, h5, h6⟩ := h3 hl
    have := hne 0 _ (Nat.zero_le _) h2 (by rw [h4])
    rw [h4] at this
    simp only [ne_eq, Option.some.injEq] at this
    omega
  | succ k ih =>
    intro it h hl
    obtain ⟨a, ha⟩ := RIter.nth_prefix h k (by omega)
    obtain ⟨h1, _, h2, h3, _⟩ := RIter.nth_succ hs hd ha h
    obtain ⟨h4, h5, x, h6, h7, h8⟩ := h3 hl
    have hal : a.isEnd = false := by
      cases he : a.isEnd with
      | false => rfl
      | true => rw [h2 he] at hl; simp at hl
    have := ih ha hal
    have h9 := hne _ _ (by omega) h5 (by rw [h6])
    rw [h6] at h9
    simp only [ne_eq, Option.some.injEq] at h9
    omega

/-- What a step of `split` does when the pattern is not anchored and matches nothing empty. -/
theorem split_step {C : Cfg} {n : Nat} {s : List Ch} {f : Flags} {r : Re} (hr : r.Numbered) (hm : r.moves = true)
    (ha : startsWithAnchor f r = false) {p : Nat} (hp : p ≤ s.length) {l : Bool} {it : SIter}
    (h : SIter.assign p l (searchAt C n s f r p) = some it) :
    (p < it.current ∧ it.lastMatch = l) ∨ (it.current = s.length ∧ it.lastMatch = true) := by
  unfold SIter.assign at h
  split at h
  · rename_i c hc
    split at h
    · rename_i hm'
      obtain ⟨b, e, h1, h2, h3, h4⟩ := search_spanOK hr p c hp hc hm'
      have h5 := search_nonempty hr hm p c hp hc hm'
      rw [h1] at h5
      rw [SIter.modifyMatch, h1] at h
      simp only [Option.some.injEq, ne_eq] at h h5
      subst h
      exact .inl ⟨by show p < e; omega, rfl⟩
    · rename_i hm'
      have h1 := search_fail_end hr ha hp hc (by simpa using hm')
      rw [SIter.matchRest, h1] at h
      simp only [Option.some.injEq] at h
      subst h
      exact .inr ⟨rfl, rfl⟩
  · cases h

theorem split_on {C : Cfg} {n : Nat} {s : List Ch} {f : Flags} {r : Re} (hr : r.Numbered) {p : Nat} (hp : p ≤ s.length) {l : Bool}
    {it : SIter} (h : SIter.assign p l (searchAt C n s f r p) = some it) :
    it.current ≤ s.length ∧ it.isEnd = false := by
  unfold SIter.assign at h
  split at h
  · rename_i c hc
    split at h
    · rename_i hm
      obtain ⟨b, e, h1, h2, h3, h4⟩ := search_spanOK hr p c hp hc hm
      rw [SIter.modifyMatch, h1] at h
      simp only [Option.some.injEq] at h
      subst h
      exact ⟨h4, by simp [SIter.isEnd, Caps.setEnd, Caps.setStart, hm]⟩
    · rename_i hm
      have hm' : c.whole.matched = false := by simpa using hm
      have hk : p + (if startsWithAnchor f r then 0 else s.length - p) ≤ s.length := by split <;> omega
      have h1 := (searchLoop_fail' hr hk hc hm').1
      generalize (if startsWithAnchor f r then 0 else s.length - p) = j at hk h1
      rw [SIter.matchRest, h1] at h
      have h3 : ((initCaps r).setEnd (p + j)).whole.e = some (p + j) := rfl
      rw [h3] at h
      simp only [Option.some.injEq] at h
      subst h
      exact ⟨hk, rfl⟩
  · cases h

/-- There are at most as many pieces as characters, and one more. -/
theorem split_count {C : Cfg} {n : Nat} {s : List Ch} {f : Flags} {r : Re} (hr : r.Numbered) (hm : r.moves = true)
    (ha : startsWithAnchor f r = false) : ∀ {k : Nat} {a : SIter}, splitNth C n s f r k = some a →
    a.current ≤ s.length ∧ (a.isEnd = true → a.current = s.length ∧ a.lastMatch = true) ∧
    (a.isEnd = false → (k < a.current ∧ a.lastMatch = false) ∨ (a.current = s.length ∧ a.lastMatch = true ∧ k ≤ s.length))
  | 0, a, h => by
    obtain ⟨h1, h2⟩ := split_on hr (Nat.zero_le _) h
    refine ⟨h1, fun h3 => (by rw [h2] at h3; cases h3), fun _ => ?_⟩
    rcases split_step hr hm ha (Nat.zero_le _) h with h | h
    · exact .inl h
    · exact .inr ⟨h.1, h.2, Nat.zero_le _⟩
  | k + 1, b, hb => by
    obtain ⟨a, h⟩ : ∃ a, splitNth C n s f r k = some a := by
      cases h : splitNth C n s f r k with
      | some a => exact ⟨a, rfl⟩
      | none =>
        rw [splitNth, SIter.nth, show SIter.nth (searchAt C n s f r) s.length (initCaps r) k = none from h] at hb
        cases hb
    obtain ⟨h1, h2, h3⟩ := split_count hr hm ha h
    rw [splitNth, SIter.nth, show SIter.nth (searchAt C n s f r) s.length (initCaps r) k = some a from h] at hb
    dsimp only [SIter.next] at hb
    split at hb
    · rename_i hc
      simp only [Option.some.injEq] at hb
      subst hb
      exact ⟨h1, fun _ => hc, fun h4 => (by cases h4)⟩
    · rename_i hc
      obtain ⟨h4, h5⟩ := split_on hr h1 hb
      refine ⟨h4, fun h6 => (by rw [h5] at h6; cases h6), fun _ => ?_⟩
      have hl : a.isEnd = false := by
        cases h6 : a.isEnd with
        | false => rfl
        | true => exact (hc (h2 h6)).elim
      rcases h3 hl with ⟨h6, h7⟩ | ⟨h6, h7, _⟩
      · rcases split_step hr hm ha h1 hb with ⟨h8, h9⟩ | ⟨h8, h9⟩
        · exact .inl ⟨by omega, by rw [h9, h7]⟩
        · exact .inr ⟨h8, h9, by omega⟩
      · exact (hc ⟨h6, h7⟩).elim

end Ctre
