import Verif.Lemmas.SafeApi

/-
C03, C07, C08: spans and reads stay inside the subject.
-/
namespace Ctre

/-- The span of a slot is ordered and inside the subject. -/
def Slot.Inside (s : List Ch) (sl : Slot) : Prop :=
  ∃ b e, sl.b = some b ∧ sl.e = some e ∧ b ≤ e ∧ e ≤ s.length

theorem inside_of_post {s : List Ch} {p : Nat} {r : Re} {st : Stack} {c : Caps} (h : SafePost s [] p (initCaps r) st c)
    (hb : c.whole.b = some p) (he : endsPos st) {id : Nat} {sl : Slot} (hg : c.get id = some sl)
    (hm : sl.matched = true) : sl.Inside s := by
  unfold Caps.get at hg
  split at hg
  · simp only [Option.some.injEq] at hg
    subst hg
    obtain ⟨e, h1, h2, h3⟩ := h.endPos he
    exact ⟨p, e, hb, h1, h2, h3⟩
  · rcases h.slots id with h1 | ⟨b, e, h1, h2, h3⟩
    · rw [hg] at h1
      have := selectId_unset (captures_unset r) id sl h1.symm
      subst this
      simp at hm
    · rw [hg] at h1
      simp only [Option.some.injEq] at h1
      subst h1
      exact ⟨b, e, rfl, rfl, h2, h3⟩

/-- C03: a successful `match` covers the whole subject. -/
theorem C03_match_spans_subject {C : Cfg} {n : Nat} {s : List Ch} {f : Flags} {r : Re} {c : Caps} (hr : r.Numbered)
    (h : cMatch C n s f r = .done c) (hm : c.whole.matched = true) :
    c.get 0 = some ⟨some 0, some s.length, true⟩ := by
  have h1 := toExec_done h hm
  have h2 := (attemptFull_safe C hr (Nat.zero_le _)).2 c h1
  have h3 := h2.1.full (by simp [endsFull])
  cases hc : c.whole
  rw [hc] at h3 hm
  have h4 := h2.2
  rw [hc] at h4
  simp_all [Caps.get]

/-- C07: in a successful `match`, every capture that tests true, and `get<0>()`, is an ordered span inside
the subject. -/
theorem C07_captures_inside_match {C : Cfg} {n : Nat} {s : List Ch} {f : Flags} {r : Re} {p : Nat} {c : Caps}
    (hr : r.Numbered) (hp : p ≤ s.length) (h : matchAt C n s f r p = .done c) (hm : c.whole.matched = true)
    {id : Nat} {sl : Slot} (hg : c.get id = some sl) (hs : sl.matched = true) : sl.Inside s := by
  have h2 := (attemptFull_safe C hr hp).2 c (toExec_done h hm)
  exact inside_of_post h2.1 h2.2 (by simp [endsPos]) hg hs

/-- C07 for `starts_with`. -/
theorem C07_captures_inside_starts_with {C : Cfg} {n : Nat} {s : List Ch} {f : Flags} {r : Re} {p : Nat} {c : Caps}
    (hr : r.Numbered) (hp : p ≤ s.length) (h : startsWithAt C n s f r p = .done c) (hm : c.whole.matched = true)
    {id : Nat} {sl : Slot} (hg : c.get id = some sl) (hs : sl.matched = true) : sl.Inside s := by
  have h2 := (attempt_safe C hr hp).2 c (toExec_done h hm)
  exact inside_of_post h2.1 h2.2 (by simp [endsPos]) hg hs

/-- C07 for `search`. -/
theorem C07_captures_inside_search {C : Cfg} {n : Nat} {s : List Ch} {f : Flags} {r : Re} {p : Nat} {c : Caps}
    (hr : r.Numbered) (hp : p ≤ s.length) (h : searchAt C n s f r p = .done c) (hm : c.whole.matched = true)
    {id : Nat} {sl : Slot} (hg : c.get id = some sl) (hs : sl.matched = true) : sl.Inside s := by
  obtain ⟨j, hj, h1, _⟩ := searchLoop_ok h hm
  have hj' : p + j ≤ s.length := by split at hj <;> omega
  have h2 := (attempt_safe C hr hj').2 c h1
  exact inside_of_post h2.1 h2.2 (by simp [endsPos]) hg hs

/-- C08: no call of `match`, `starts_with` or `search` runs into undefined behaviour (a read outside the
subject), for any amount of fuel. -/
theorem C08_no_out_of_bounds {C : Cfg} {n : Nat} {s : List Ch} {f : Flags} {r : Re} {p : Nat} (hr : r.Numbered)
    (hp : p ≤ s.length) :
    matchAt C n s f r p ≠ .ub ∧ startsWithAt C n s f r p ≠ .ub ∧ searchAt C n s f r p ≠ .ub := by
  refine ⟨?_, ?_, ?_⟩
  · have := (attemptFull_safe C (n := n) (f := f) hr hp).1
    unfold matchAt
    cases ho : attemptFull C n s f r p <;> simp_all [Out.toExec]
  · have := (attempt_safe C (n := n) (f := f) hr hp).1
    unfold startsWithAt
    cases ho : attempt C n s f r p <;> simp_all [Out.toExec]
  · exact searchLoop_ne_ub C hr (by split <;> omega)

/-- `(?:(a+)|b)*(?=(c))`, used on "aabc": the hypotheses hold and the captures are real spans. -/
def sampleBounds : Re := .seq [.rep .greedy 0 0 [.sel [.cap 1 none [.rep .greedy 1 0 [.cc (.chr 97)]], .cc (.chr 98)]],
  .ahead true [.cap 2 none [.cc (.chr 99)]]]

example : sampleBounds.Numbered := ⟨by decide, by decide⟩
example : cSearch {} 40 [97, 97, 98, 99] {} sampleBounds =
    .done { whole := ⟨some 0, some 3, true⟩,
            groups := [{ id := 1, slot := ⟨some 0, some 2, true⟩ }, { id := 2, slot := ⟨some 3, some 4, true⟩ }] } := by
  decide +kernel
example : cMatch {} 40 [97, 97, 98] {} (.rep .greedy 0 0 [.cc (.range 97 98)]) =
    .done { whole := ⟨some 0, some 3, true⟩ } := by decide +kernel

end Ctre
