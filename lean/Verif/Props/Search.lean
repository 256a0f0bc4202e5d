import Verif.Lemmas.Swap
import Verif.Lemmas.SafeApi

/-
C04, C05: how `match`, `starts_with` and `search` relate.
-/
namespace Ctre

/-- A success stays a success, a failure may become a success. -/
def Out.Weaker (o o' : Out) : Prop :=
  (∀ c, o = .ok c → ∃ c', o' = .ok c') ∧ (o = .fail → o' = .fail ∨ ∃ c', o' = .ok c')

theorem weaker_cong : Out.Cong Out.Weaker where
  refl o := ⟨fun c h => ⟨c, h⟩, fun h => .inl h⟩
  bot o := ⟨fun c h => by simp at h, fun h => by simp at h⟩
  orElse := by
    rintro o o' x x' ⟨h1, h2⟩ ⟨h3, h4⟩
    cases o with
    | ok c =>
      obtain ⟨c', rfl⟩ := h1 c rfl
      exact ⟨fun _ _ => ⟨c', rfl⟩, fun h => by simp [Out.orElse] at h⟩
    | fail =>
      rcases h2 rfl with rfl | ⟨c', rfl⟩
      · exact ⟨h3, h4⟩
      · exact ⟨fun _ _ => ⟨c', rfl⟩, fun _ => .inr ⟨c', rfl⟩⟩
    | _ => exact ⟨fun _ h => by simp [Out.orElse] at h, fun h => by simp [Out.orElse] at h⟩

theorem weaker_end (C : Cfg) (s : List Ch) (n cur : Nat) (f : Flags) (c : Caps) :
    Out.Weaker (eval C n s false cur f c [.re .sEnd, .endMark, .accept])
      (eval C (n+1) s false cur f c [.endMark, .accept]) := by
  rcases n with _ | n
  · exact weaker_cong.bot _
  · rw [eval_endMark]
    simp only [Bool.false_eq_true, if_false, eval_accept]
    exact ⟨fun _ _ => ⟨_, rfl⟩, fun _ => .inr ⟨_, rfl⟩⟩

/-- C04, first half: if `match` succeeds, `starts_with` succeeds, with a span that begins at the
beginning. -/
theorem C04_match_implies_starts_with {C : Cfg} {n : Nat} {s : List Ch} {f : Flags} {r : Re} {c : Caps}
    (hr : r.Numbered) (h : cMatch C n s f r = .done c) (hm : c.whole.matched = true) :
    ∃ c', cStartsWith C (n+1) s f r = .done c' ∧ c'.whole.matched = true ∧ c'.whole.b = some 0 := by
  have h1 := toExec_done h hm
  unfold attemptFull at h1
  have h2 := eval_swap weaker_cong C (T1 := [.re .sEnd, .endMark, .accept]) (T2 := [.endMark, .accept]) (by simp) (by simp)
    (fun _ => rfl) 1 (fun n cur f c => weaker_end C s n cur f c) n [.startMark, .re r] 0 f (initCaps r)
  obtain ⟨c', h3⟩ := h2.1 c h1
  refine ⟨c', ?_, attempt_matched hr (Nat.zero_le _) h3, ((attempt_safe C hr (Nat.zero_le _)).2 c' h3).2⟩
  unfold cStartsWith startsWithAt attempt
  simp only [List.cons_append, List.nil_append] at h3
  rw [h3]; rfl

/-- C04, second half: if `starts_with` succeeds, `search` succeeds with the identical result. -/
theorem C04_starts_with_implies_search {C : Cfg} {n : Nat} {s : List Ch} {f : Flags} {r : Re} {c : Caps}
    (h : cStartsWith C n s f r = .done c) (hm : c.whole.matched = true) : cSearch C n s f r = .done c := by
  have h1 := toExec_done h hm
  unfold cSearch searchAt
  generalize (if startsWithAnchor f r = true then 0 else s.length - 0) = k
  cases k <;> simp [searchLoop, h1, Out.toExec]

/-- C05, success: the reported span begins at the leftmost position where the attempt succeeds, and is the
span found there. -/
theorem C05_search_leftmost {C : Cfg} {n : Nat} {s : List Ch} {f : Flags} {r : Re} {p : Nat} {c : Caps}
    (hr : r.Numbered) (hp : p ≤ s.length) (h : searchAt C n s f r p = .done c) (hm : c.whole.matched = true) :
    ∃ b, c.whole.b = some b ∧ p ≤ b ∧ b ≤ s.length ∧ startsWithAt C n s f r b = .done c ∧
      ∀ i c', p ≤ i → i < b → startsWithAt C n s f r i = .done c' → c'.whole.matched = false := by
  obtain ⟨j, hj, h1, h2⟩ := searchLoop_ok h hm
  have hj' : p + j ≤ s.length := by split at hj <;> omega
  refine ⟨p + j, ((attempt_safe C hr hj').2 c h1).2, by omega, hj', ?_, ?_⟩
  · unfold startsWithAt; rw [h1]; rfl
  · intro i c' hi hi' h3
    have h4 := h2 (i - p) (by omega)
    rw [show p + (i - p) = i by omega] at h4
    unfold startsWithAt at h3
    rw [h4] at h3
    simp only [Out.toExec, Exec.done.injEq] at h3
    rw [← h3]; rfl

/-- C05, failure: for a pattern that is not treated as anchored, no attempt succeeds at any position,
including the end. -/
theorem C05_search_failure {C : Cfg} {n : Nat} {s : List Ch} {f : Flags} {r : Re} {p : Nat} {c : Caps}
    (hr : r.Numbered) (hp : p ≤ s.length) (ha : startsWithAnchor f r = false)
    (h : searchAt C n s f r p = .done c) (hm : c.whole.matched = false) :
    ∀ i, p ≤ i → i ≤ s.length → (startsWithAt C n s f r i).success = false := by
  intro i hi hi'
  unfold searchAt at h
  rw [ha] at h
  have h1 := (searchLoop_fail' hr (by simp; omega) h hm).2 (i - p) (by simp; omega)
  rw [show p + (i - p) = i by omega] at h1
  unfold startsWithAt
  rw [h1]; rfl

/-- C05: without the anchored shortcut, `search` succeeds exactly when the attempt succeeds at some
position, provided all attempts return. -/
theorem C05_search_iff {C : Cfg} {n : Nat} {s : List Ch} {f : Flags} {r : Re} {p : Nat} {c : Caps}
    (hr : r.Numbered) (hp : p ≤ s.length) (ha : startsWithAnchor f r = false)
    (h : searchAt C n s f r p = .done c) :
    c.whole.matched = true ↔ ∃ i, p ≤ i ∧ i ≤ s.length ∧ (startsWithAt C n s f r i).success = true := by
  constructor
  · intro hm
    obtain ⟨b, _, h1, h2, h3, _⟩ := C05_search_leftmost hr hp h hm
    exact ⟨b, h1, h2, by rw [h3]; exact hm⟩
  · rintro ⟨i, h1, h2, h3⟩
    cases hm : c.whole.matched with
    | true => rfl
    | false => rw [C05_search_failure hr hp ha h hm i h1 h2] at h3; exact h3

/-! ### Cases -/

/-- `(a)b*?` -/
def sampleSearch : Re := .seq [.cap 1 none [.cc (.chr 97)], .rep .lazy 0 0 [.cc (.chr 98)]]

example : sampleSearch.Numbered := ⟨by decide, by decide⟩
example : startsWithAnchor {} sampleSearch = false := by decide
-- `match` and `starts_with` report different spans here
example : cMatch {} 40 [97, 98, 98] {} sampleSearch =
    .done { whole := ⟨some 0, some 3, true⟩, groups := [{ id := 1, slot := ⟨some 0, some 1, true⟩ }] } := by
  decide +kernel
example : cStartsWith {} 40 [97, 98, 98] {} sampleSearch =
    .done { whole := ⟨some 0, some 1, true⟩, groups := [{ id := 1, slot := ⟨some 0, some 1, true⟩ }] } := by
  decide +kernel
example : cSearch {} 40 [98, 97, 98, 97] {} sampleSearch =
    .done { whole := ⟨some 1, some 2, true⟩, groups := [{ id := 1, slot := ⟨some 1, some 2, true⟩ }] } := by
  decide +kernel
example : (cSearch {} 40 [98, 98] {} sampleSearch).success = false := by decide +kernel

end Ctre
