import Verif.Model.Iterators
import Verif.Lemmas.SafeApi

/-
Iteration over search results.
-/
namespace Ctre

/-- The calls behind an iterator report spans that begin at or after the start position and end inside
the subject. -/
def SpanOK (exec : Nat → Exec) (len : Nat) : Prop :=
  ∀ p c, p ≤ len → exec p = .done c → c.whole.matched = true →
    ∃ b e, c.whole = ⟨some b, some e, true⟩ ∧ p ≤ b ∧ b ≤ e ∧ e ≤ len

theorem attempt_span {C : Cfg} {n : Nat} {s : List Ch} {f : Flags} {r : Re} {p : Nat} {c : Caps} (hr : r.Numbered)
    (hp : p ≤ s.length) (h : attempt C n s f r p = .ok c) :
    ∃ e, c.whole = ⟨some p, some e, true⟩ ∧ p ≤ e ∧ e ≤ s.length := by
  have h1 := (attempt_safe C hr hp).2 c h
  obtain ⟨e, h2, h3, h4⟩ := h1.1.endPos (by simp [endsPos])
  refine ⟨e, ?_, h3, h4⟩
  have h5 := attempt_matched hr hp h
  cases hc : c.whole
  have h6 := h1.2
  rw [hc] at h2 h5 h6
  simp_all

theorem startsWith_spanOK {C : Cfg} {n : Nat} {s : List Ch} {f : Flags} {r : Re} (hr : r.Numbered) :
    SpanOK (startsWithAt C n s f r) s.length := by
  intro p c hp h hm
  obtain ⟨e, h1, h2, h3⟩ := attempt_span hr hp (toExec_done h hm)
  exact ⟨p, e, h1, Nat.le_refl _, h2, h3⟩

theorem search_spanOK {C : Cfg} {n : Nat} {s : List Ch} {f : Flags} {r : Re} (hr : r.Numbered) :
    SpanOK (searchAt C n s f r) s.length := by
  intro p c hp h hm
  obtain ⟨j, hj, h1, _⟩ := searchLoop_ok h hm
  have hj' : p + j ≤ s.length := by split at hj <;> omega
  obtain ⟨e, h2, h3, h4⟩ := attempt_span hr hj' h1
  exact ⟨p + j, e, h2, by omega, h3, h4⟩

section
variable {exec : Nat → Exec} {len : Nat} {dflt : Caps}

/-- What is known about an iterator. -/
structure RIter.Inv (exec : Nat → Exec) (len : Nat) (it : RIter) : Prop where
  le : it.current ≤ len
  live : it.isEnd = false → ∃ b, it.result.whole = ⟨some b, some it.current, true⟩ ∧ b ≤ it.current
  dead : it.isEnd = true → it.current = len ∨ exec it.current = .done it.result

theorem RIter.assign_inv (hs : SpanOK exec len) {p : Nat} (hp : p ≤ len) {it : RIter}
    (h : RIter.assign p (exec p) = some it) : it.Inv exec len ∧ p ≤ it.current ∧ exec p = .done it.result ∧
      (it.isEnd = true → it.current = p) ∧
      (it.isEnd = false → ∃ b, it.result.whole = ⟨some b, some it.current, true⟩ ∧ p ≤ b ∧ b ≤ it.current) := by
  unfold RIter.assign at h
  split at h
  · rename_i c hc
    split at h
    · rename_i hm
      obtain ⟨b, e, h1, h2, h3, h4⟩ := hs p c hp hc hm
      rw [h1] at h
      simp only [Option.some.injEq] at h
      subst h
      have hend : RIter.isEnd { current := e, result := c } = false := by simp [RIter.isEnd, h1]
      refine ⟨⟨h4, fun _ => ⟨b, h1, h3⟩, fun h => ?_⟩, by show p ≤ e; omega, hc, fun h => ?_, fun _ => ⟨b, h1, h2, h3⟩⟩
      · rw [hend] at h; simp at h
      · rw [hend] at h; simp at h
    · rename_i hm
      simp only [Option.some.injEq] at h
      subst h
      have hend : RIter.isEnd { current := p, result := c } = true := by simp [RIter.isEnd, hm]
      refine ⟨⟨hp, fun h => ?_, fun _ => .inr hc⟩, Nat.le_refl _, hc, fun _ => rfl, fun h => ?_⟩
      · rw [hend] at h; simp at h
      · rw [hend] at h; simp at h
  · simp at h

theorem RIter.nth_inv (hs : SpanOK exec len) (hd : dflt.whole.matched = false) : ∀ {k : Nat} {it : RIter},
    RIter.nth exec len dflt k = some it → it.Inv exec len
  | 0, it, h => (RIter.assign_inv hs (Nat.zero_le _) h).1
  | k+1, it, h => by
    simp only [RIter.nth] at h
    split at h
    · rename_i it' h'
      have ih := RIter.nth_inv hs hd h'
      unfold RIter.next at h
      split at h
      · rename_i hc
        simp only [Option.some.injEq] at h
        subst h
        refine ⟨ih.le, ?_, fun _ => .inl hc⟩
        intro h; simp [RIter.isEnd, hd] at h
      · exact (RIter.assign_inv hs ih.le h).1
    · simp at h

/-- One increment. -/
theorem RIter.nth_succ (hs : SpanOK exec len) (hd : dflt.whole.matched = false) {k : Nat} {a b : RIter}
    (ha : RIter.nth exec len dflt k = some a) (hb : RIter.nth exec len dflt (k+1) = some b) :
    a.current ≤ b.current ∧ (b.isEnd = true → b.current = a.current) ∧
    (a.isEnd = true → b.isEnd = true) ∧
    (b.isEnd = false → a.current < len ∧ exec a.current = .done b.result ∧
      ∃ x, b.result.whole = ⟨some x, some b.current, true⟩ ∧ a.current ≤ x ∧ x ≤ b.current) ∧
    (a.current < len → exec a.current = .done b.result) := by
  have hi := RIter.nth_inv hs hd ha
  simp only [RIter.nth, ha] at hb
  unfold RIter.next at hb
  split at hb
  · rename_i hc
    simp only [Option.some.injEq] at hb
    subst hb
    refine ⟨Nat.le_refl _, fun _ => rfl, fun _ => by simp [RIter.isEnd, hd], fun h => ?_, fun h => by omega⟩
    simp [RIter.isEnd, hd] at h
  · rename_i hc
    obtain ⟨h1, h2, h3, h4, h5⟩ := RIter.assign_inv hs hi.le hb
    refine ⟨h2, h4, fun h => ?_, fun h => ⟨by have := hi.le; omega, h3, h5 h⟩, fun _ => h3⟩
    rcases hi.dead h with h6 | h6
    · exact absurd h6 hc
    · rw [h6] at h3
      simp only [Exec.done.injEq] at h3
      simp only [RIter.isEnd] at h ⊢
      rw [← h3]; exact h

theorem RIter.nth_prefix : ∀ {j : Nat} {b : RIter}, RIter.nth exec len dflt j = some b → ∀ i, i ≤ j →
    ∃ a, RIter.nth exec len dflt i = some a
  | 0, b, h, i, hi => ⟨b, by rw [show i = 0 by omega]; exact h⟩
  | j+1, b, h, i, hi => by
    by_cases he : i = j + 1
    · exact ⟨b, he ▸ h⟩
    · simp only [RIter.nth] at h
      split at h
      · rename_i a ha; exact RIter.nth_prefix ha i (by omega)
      · simp at h

/-- Later iterators are further on; the end is never left. -/
theorem RIter.nth_mono (hs : SpanOK exec len) (hd : dflt.whole.matched = false) : ∀ {j i : Nat} {a b : RIter},
    i ≤ j → RIter.nth exec len dflt i = some a → RIter.nth exec len dflt j = some b →
    a.current ≤ b.current ∧ (a.isEnd = true → b.isEnd = true)
  | 0, i, a, b, hij, ha, hb => by
    rw [show i = 0 by omega, hb] at ha
    simp only [Option.some.injEq] at ha
    subst ha
    exact ⟨Nat.le_refl _, id⟩
  | j+1, i, a, b, hij, ha, hb => by
    by_cases he : i = j + 1
    · rw [he, hb] at ha
      simp only [Option.some.injEq] at ha
      subst ha
      exact ⟨Nat.le_refl _, id⟩
    · obtain ⟨c, hc⟩ := RIter.nth_prefix hb j (by omega)
      obtain ⟨h1, h2⟩ := RIter.nth_mono hs hd (by omega) ha hc
      obtain ⟨h3, _, h4, _⟩ := RIter.nth_succ hs hd hc hb
      exact ⟨by omega, fun h => h4 (h2 h)⟩

/-- A later live iterator reports a span after that of an earlier one. -/
theorem RIter.nth_apart (hs : SpanOK exec len) (hd : dflt.whole.matched = false) {i j : Nat} {a b : RIter}
    (hij : i < j) (ha : RIter.nth exec len dflt i = some a) (hb : RIter.nth exec len dflt j = some b)
    (hl : b.isEnd = false) : a.isEnd = false ∧
      ∃ b1 b2, a.result.whole = ⟨some b1, some a.current, true⟩ ∧ b.result.whole = ⟨some b2, some b.current, true⟩ ∧
        b1 ≤ a.current ∧ a.current ≤ b2 ∧ b2 ≤ b.current ∧ b.current ≤ len := by
  obtain ⟨j, rfl⟩ : ∃ j', j = j' + 1 := ⟨j - 1, by omega⟩
  obtain ⟨c, hc⟩ := RIter.nth_prefix hb j (by omega)
  obtain ⟨h1, h2⟩ := RIter.nth_mono hs hd (by omega) ha hc
  obtain ⟨h3, _, h4, h5, _⟩ := RIter.nth_succ hs hd hc hb
  have hae : a.isEnd = false := by
    cases he : a.isEnd with
    | false => rfl
    | true => rw [h4 (h2 he)] at hl; simp at hl
  obtain ⟨_, _, x, h7, h8, h9⟩ := h5 hl
  obtain ⟨b1, h10, h11⟩ := (RIter.nth_inv hs hd ha).live hae
  exact ⟨hae, b1, x, h10, h7, h11, by omega, h9, (RIter.nth_inv hs hd hb).le⟩

/-- Two iterators are at one position exactly if everything passed between them is empty and lies there. -/
theorem RIter.nth_eq_iff (hs : SpanOK exec len) (hd : dflt.whole.matched = false) {i : Nat} {a : RIter}
    (ha : RIter.nth exec len dflt i = some a) : ∀ {j : Nat} {b : RIter}, i ≤ j → RIter.nth exec len dflt j = some b →
    (a.current = b.current ↔ ∀ k c, i < k → k ≤ j → RIter.nth exec len dflt k = some c → c.isEnd = false →
      c.result.whole = ⟨some a.current, some a.current, true⟩)
  | 0, b, hij, hb => by
    rw [show i = 0 by omega, hb] at ha
    simp only [Option.some.injEq] at ha
    subst ha
    exact ⟨fun _ k c h1 h2 => by omega, fun _ => rfl⟩
  | j+1, b, hij, hb => by
    by_cases he : i = j + 1
    · rw [he, hb] at ha
      simp only [Option.some.injEq] at ha
      subst ha
      exact ⟨fun _ k c h1 h2 => by omega, fun _ => rfl⟩
    · obtain ⟨d, hd'⟩ := RIter.nth_prefix hb j (by omega)
      have ih := RIter.nth_eq_iff hs hd ha (by omega) hd'
      have hm := (RIter.nth_mono hs hd (by omega) ha hd').1
      obtain ⟨h1, h2, _, h3, _⟩ := RIter.nth_succ hs hd hd' hb
      constructor
      · intro h k c hk1 hk2 hk hl
        by_cases hkj : k = j + 1
        · rw [hkj, hb] at hk
          simp only [Option.some.injEq] at hk
          subst hk
          obtain ⟨_, _, x, h4, h5, h6⟩ := h3 hl
          rw [h4, ← h, show x = a.current by omega]
        · exact ih.1 (by omega) k c hk1 (by omega) hk hl
      · intro h
        have h7 := ih.2 fun k c hk1 hk2 hk hl => h k c hk1 (by omega) hk hl
        cases hbe : b.isEnd with
        | true => rw [h2 hbe]; exact h7
        | false =>
          obtain ⟨_, _, x, h4, h5, h6⟩ := h3 hbe
          have h8 := h (j+1) b (by omega) (Nat.le_refl _) hb hbe
          rw [h4] at h8
          simp only [Slot.mk.injEq, Option.some.injEq] at h8
          exact h8.2.1.symm

theorem RIter.nth_exists (hs : SpanOK exec len) (hd : dflt.whole.matched = false)
    (hret : ∀ p, p ≤ len → ∃ c, exec p = .done c) : ∀ k, ∃ it, RIter.nth exec len dflt k = some it := by
  have hassign : ∀ p, p ≤ len → ∃ it, RIter.assign p (exec p) = some it := by
    intro p hp
    obtain ⟨c, hc⟩ := hret p hp
    by_cases hm : c.whole.matched = true
    · obtain ⟨b, e, h1, _⟩ := hs p c hp hc hm
      exact ⟨{ current := e, result := c }, by simp [RIter.assign, hc, h1]⟩
    · exact ⟨{ current := p, result := c }, by simp [RIter.assign, hc, hm]⟩
  intro k
  induction k with
  | zero => exact hassign 0 (Nat.zero_le _)
  | succ k ih =>
    obtain ⟨it, h⟩ := ih
    simp only [RIter.nth, h, RIter.next]
    split
    · exact ⟨_, rfl⟩
    · exact hassign _ (RIter.nth_inv hs hd h).le

/-- If no call reports an empty span, the end is reached. -/
theorem RIter.nth_ends (hs : SpanOK exec len) (hd : dflt.whole.matched = false)
    (hret : ∀ p, p ≤ len → ∃ c, exec p = .done c)
    (hne : ∀ p c, p ≤ len → exec p = .done c → c.whole.matched = true → c.whole.b ≠ c.whole.e) :
    ∃ k it, k ≤ len ∧ RIter.nth exec len dflt k = some it ∧ it.isEnd = true := by
  have key : ∀ k it, RIter.nth exec len dflt k = some it → it.isEnd = false → k < it.current := by
    intro k
    induction k with
    | zero =>
      intro it h hl
      obtain ⟨_, _, h2, _, h3⟩ := RIter.assign_inv hs (Nat.zero_le _) h
      obtain ⟨b, h4, h5, h6⟩ := h3 hl
      have := hne 0 _ (Nat.zero_le _) h2 (by rw [h4])
      rw [h4] at this
      simp only [ne_eq, Option.some.injEq] at this
      omega
    | succ k ih =>
      intro it h hl
      obtain ⟨a, ha⟩ := RIter.nth_prefix h k (by omega)
      obtain ⟨h1, _, h2, h3, _⟩ := RIter.nth_succ hs hd ha h
      obtain ⟨h4, h5, x, h6, h7, h8⟩ := h3 hl
      have hal : a.isEnd = false := by
        cases he : a.isEnd with
        | false => rfl
        | true => rw [h2 he] at hl; simp at hl
      have := ih a ha hal
      have h9 := hne _ _ (by omega) h5 (by rw [h6])
      rw [h6] at h9
      simp only [ne_eq, Option.some.injEq] at h9
      omega
  obtain ⟨it, h⟩ := RIter.nth_exists hs hd hret len
  refine ⟨len, it, Nat.le_refl _, h, ?_⟩
  cases he : it.isEnd with
  | true => rfl
  | false =>
    have := key len it h he
    have := (RIter.nth_inv hs hd h).le
    omega

end
end Ctre
