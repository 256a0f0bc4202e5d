import Verif.Lemmas.Split
import Verif.Props.Search

/-
C21, C22, C23, C24, C42: search_all, split, tokenize, multi-subject ranges, iterator comparison.

`searchAllNth C n s f r k` is the iterator after `k` increments of `begin()`; it is `none` only when one of
the searches involved does not return.
-/
namespace Ctre

variable {C : Cfg} {n : Nat} {s : List Ch} {f : Flags} {r : Re}

theorem init_unmatched (r : Re) : (initCaps r).whole.matched = false := rfl

/-! ### C21 -/

/-- C21: the first result of `search_all` is the result of `search`. -/
theorem C21_first_result {a : RIter} (h : searchAllNth C n s f r 0 = some a) (hr : r.Numbered) :
    cSearch C n s f r = .done a.result :=
  (RIter.assign_inv (search_spanOK hr) (Nat.zero_le _) h).2.2.1

/-- C21: every further result is the result of a search from the end of the previous one, and lies after
it. -/
theorem C21_next_result (hr : r.Numbered) {k : Nat} {a b : RIter}
    (ha : searchAllNth C n s f r k = some a) (hb : searchAllNth C n s f r (k+1) = some b)
    (hl : b.isEnd = false) :
    ∃ b1 e1 b2 e2, a.result.get 0 = some ⟨some b1, some e1, true⟩ ∧ b.result.get 0 = some ⟨some b2, some e2, true⟩ ∧
      b1 ≤ e1 ∧ e1 ≤ b2 ∧ b2 ≤ e2 ∧ e2 ≤ s.length ∧ searchAt C n s f r e1 = .done b.result := by
  obtain ⟨h1, b1, b2, h2, h3, h4, h5, h6, h7⟩ :=
    RIter.nth_apart (search_spanOK hr) (init_unmatched r) (Nat.lt_succ_self k) ha hb hl
  obtain ⟨_, _, _, h8, _⟩ := RIter.nth_succ (search_spanOK hr) (init_unmatched r) ha hb
  exact ⟨b1, a.current, b2, b.current, by simp [Caps.get, h2], by simp [Caps.get, h3], h4, h5, h6, h7, (h8 hl).2.1⟩

/-- C21: any two results are in subject order and do not overlap. -/
theorem C21_results_apart (hr : r.Numbered) {i j : Nat} (hij : i < j) {a b : RIter}
    (ha : searchAllNth C n s f r i = some a) (hb : searchAllNth C n s f r j = some b) (hl : b.isEnd = false) :
    ∃ b1 e1 b2 e2, a.result.get 0 = some ⟨some b1, some e1, true⟩ ∧ b.result.get 0 = some ⟨some b2, some e2, true⟩ ∧
      b1 ≤ e1 ∧ e1 ≤ b2 ∧ b2 ≤ e2 ∧ e2 ≤ s.length := by
  obtain ⟨h1, b1, b2, h2, h3, h4, h5, h6, h7⟩ :=
    RIter.nth_apart (search_spanOK hr) (init_unmatched r) hij ha hb hl
  exact ⟨b1, a.current, b2, b.current, by simp [Caps.get, h2], by simp [Caps.get, h3], h4, h5, h6, h7⟩

/-- C21: when the iteration ends before the end of the subject, no search from the end of the last result
succeeds. -/
theorem C21_end_is_justified (hr : r.Numbered) {k : Nat} {a b : RIter}
    (ha : searchAllNth C n s f r k = some a) (hl : a.isEnd = false)
    (hb : searchAllNth C n s f r (k+1) = some b) (he : b.isEnd = true) :
    ∃ b1 e1, a.result.get 0 = some ⟨some b1, some e1, true⟩ ∧
      (e1 = s.length ∨ (searchAt C n s f r e1).success = false) := by
  obtain ⟨b1, h1, h2⟩ := (RIter.nth_inv (search_spanOK hr) (init_unmatched r) ha).live hl
  refine ⟨b1, a.current, by simp [Caps.get, h1], ?_⟩
  have h3 := (RIter.nth_inv (search_spanOK hr) (init_unmatched r) ha).le
  by_cases h4 : a.current = s.length
  · exact .inl h4
  · right
    obtain ⟨_, _, _, _, h5⟩ := RIter.nth_succ (search_spanOK hr) (init_unmatched r) ha hb
    rw [h5 (by omega)]
    simpa [RIter.isEnd, Exec.success] using he

/-- C21: if the pattern never matches the empty string and all searches return, the iteration ends after
at most as many results as the subject has characters. -/
theorem C21_ends (hr : r.Numbered) (hret : ∀ p, p ≤ s.length → ∃ c, searchAt C n s f r p = .done c)
    (hne : ∀ p c, p ≤ s.length → startsWithAt C n s f r p = .done c → c.whole.matched = true →
      c.whole.b ≠ c.whole.e) :
    ∃ k it, k ≤ s.length ∧ searchAllNth C n s f r k = some it ∧ it.isEnd = true := by
  refine RIter.nth_ends (search_spanOK hr) (init_unmatched r) hret fun p c hp h hm => ?_
  obtain ⟨b, _, _, h2, h3, _⟩ := C05_search_leftmost hr hp h hm
  exact hne b c h2 h3 hm

/-- C21, the exception: after an empty result before the end of the subject, the same result is repeated
forever. -/
theorem C21_empty_result_repeats (hr : r.Numbered) {k p : Nat} {a : RIter}
    (ha : searchAllNth C n s f r k = some a) (hw : a.result.get 0 = some ⟨some p, some p, true⟩) (hp : p < s.length) :
    ∀ j, searchAllNth C n s f r (k + j) = some a := by
  have hw' : a.result.whole = ⟨some p, some p, true⟩ := by simpa [Caps.get] using hw
  have hl : a.isEnd = false := by simp [RIter.isEnd, hw']
  have hcur : a.current = p := by
    obtain ⟨b, h1, _⟩ := (RIter.nth_inv (search_spanOK hr) (init_unmatched r) ha).live hl
    rw [hw'] at h1; simp at h1; omega
  -- the search that found the result
  have hsrc : ∃ q, q ≤ s.length ∧ searchAt C n s f r q = .done a.result := by
    cases k with
    | zero => exact ⟨0, Nat.zero_le _, C21_first_result ha hr⟩
    | succ k =>
      obtain ⟨c, hc⟩ := RIter.nth_prefix ha k (by omega)
      obtain ⟨_, _, _, h1, _⟩ := RIter.nth_succ (search_spanOK hr) (init_unmatched r) hc ha
      exact ⟨c.current, by have := (h1 hl).1; omega, (h1 hl).2.1⟩
  obtain ⟨q, hq, hsrc⟩ := hsrc
  obtain ⟨b, h1, _, _, h2, _⟩ := C05_search_leftmost hr hq hsrc (by rw [hw'])
  rw [hw'] at h1
  simp only [Option.some.injEq] at h1
  subst h1
  have hagain : searchAt C n s f r p = .done a.result := by
    have h3 := toExec_done h2 (by rw [hw'])
    unfold searchAt
    generalize (if startsWithAnchor f r = true then 0 else s.length - p) = m
    cases m <;> simp [searchLoop, h3, Out.toExec]
  intro j
  induction j with
  | zero => exact ha
  | succ j ih =>
    show RIter.nth _ _ _ (k + j + 1) = _
    have ih' : RIter.nth (searchAt C n s f r) s.length (initCaps r) (k + j) = some a := ih
    simp only [RIter.nth, ih', RIter.next, hcur, if_neg (show ¬ p = s.length by omega), hagain, RIter.assign, hw']
    simp only [if_true]
    rw [← hcur]

/-! ### C22 -/

/-- The first separator at or after a position. -/
def separator (C : Cfg) (n : Nat) (s : List Ch) (f : Flags) (r : Re) (p : Nat) : Option (Nat × Nat) :=
  (searchAt C n s f r p).span

/-- C22: `split` yields exactly the pieces between the separators, and then ends.  The pattern must not be
treated as anchored and must not match the empty string, and all searches must return. -/
theorem C22_split_pieces (hr : r.Numbered) (ha : startsWithAnchor f r = false)
    (hret : ∀ p, p ≤ s.length → ∃ c, searchAt C n s f r p = .done c)
    (hne : ∀ p c, p ≤ s.length → startsWithAt C n s f r p = .done c → c.whole.matched = true →
      c.whole.b ≠ c.whole.e) :
    ∃ pieces, Cuts (separator C n s f r) s.length 0 pieces ∧
      (∀ i (hi : i < pieces.length), ∃ it, splitNth C n s f r i = some it ∧
        it.result.get 0 = some ⟨some (pieces[i]).1, some (pieces[i]).2, true⟩) ∧
      ∃ it, splitNth C n s f r pieces.length = some it ∧ it.isEnd = true := by
  obtain ⟨it, l, h1, h2, h3, it', h4, h5⟩ := SIter.cuts (dflt := initCaps r) (search_spanOK hr) (init_unmatched r) hret
    (fun p c hp h hm => search_fail_end hr ha hp h hm)
    (fun p c hp h hm => by
      obtain ⟨b, _, _, h2, h3, _⟩ := C05_search_leftmost hr hp h hm
      exact hne b c h2 h3 hm) s.length 0 (Nat.zero_le _) (by omega)
  have h6 := SIter.nth_after (exec := searchAt C n s f r) (len := s.length) (dflt := initCaps r) h1
  refine ⟨l, h2, fun i hi => ?_, it', ?_, h5⟩
  · obtain ⟨x, h7, h8⟩ := h3 i hi
    exact ⟨x, by show SIter.nth _ _ _ _ = _; rw [h6]; exact h7, by simp [Caps.get, h8]⟩
  · show SIter.nth _ _ _ _ = _; rw [h6]; exact h4

theorem separator_span (hr : r.Numbered) : ∀ p b e, p ≤ s.length → separator C n s f r p = some (b, e) →
    p ≤ b ∧ b ≤ e ∧ e ≤ s.length := by
  intro p b e hp h
  unfold separator Exec.span at h
  split at h
  · rename_i c hc
    split at h
    · rename_i hm
      obtain ⟨b', e', h1, h2, h3, h4⟩ := search_spanOK hr p c hp hc hm
      rw [h1] at h
      simp only [Option.some.injEq, Prod.mk.injEq] at h
      obtain ⟨rfl, rfl⟩ := h
      exact ⟨h2, h3, h4⟩
    · simp at h
  · simp at h

/-- C22: the pieces with the separators between them give back the subject. -/
theorem C22_split_joined (hr : r.Numbered) {pieces : List (Nat × Nat)}
    (h : Cuts (separator C n s f r) s.length 0 pieces) : joined s pieces = s := by
  rw [(h.joined (s := s) (separator_span hr) (Nat.zero_le _)).1, slice_all]

/-- C22, the exception: splitting at a pattern treated as anchored that does not match at the beginning
yields an empty piece forever; nothing of the subject is ever part of a piece. -/
theorem C22_fails_for_anchored (ha : startsWithAnchor f r = true) (hs : s ≠ [])
    (hf : attempt C n s f r 0 = .fail) (k : Nat) :
    ∃ it, splitNth C n s f r k = some it ∧ it.current = 0 ∧ it.isEnd = false ∧
      it.result.get 0 = some ⟨some 0, some 0, true⟩ := by
  have hexec : searchAt C n s f r 0 = .done ((initCaps r).setEnd 0) := by
    simp [searchAt, ha, searchLoop, hf]
  have key : ∀ k, ∃ it, splitNth C n s f r k = some it ∧ it.current = 0 ∧
      it.result = (((initCaps r).setEnd 0).setStart 0).setMatched := by
    intro k
    induction k with
    | zero =>
      refine ⟨⟨0, (((initCaps r).setEnd 0).setStart 0).setMatched, true⟩, ?_, rfl, rfl⟩
      · simp only [splitNth, SIter.nth, SIter.init, hexec, SIter.assign]
        rfl
    | succ k ih =>
      obtain ⟨it, h1, h2, h3⟩ := ih
      have h1' : SIter.nth (searchAt C n s f r) s.length (initCaps r) k = some it := h1
      have hlen : ¬ (0 = s.length) := by
        intro h; exact hs (List.length_eq_zero_iff.1 h.symm)
      refine ⟨⟨0, (((initCaps r).setEnd 0).setStart 0).setMatched, true⟩, ?_, rfl, rfl⟩
      · simp only [splitNth, SIter.nth, h1', SIter.next, h2, hlen, false_and, if_false, hexec, SIter.assign]
        rfl
  obtain ⟨it, h1, h2, h3⟩ := key k
  exact ⟨it, h1, h2, by rw [SIter.isEnd, h3]; rfl, by rw [h3]; rfl⟩

/-! ### C23 -/

/-- C23: the first token is the result of `starts_with`. -/
theorem C23_first_token (hr : r.Numbered) {a : RIter} (h : tokenizeNth C n s f r 0 = some a) (hl : a.isEnd = false) :
    cStartsWith C n s f r = .done a.result ∧ ∃ e, a.result.get 0 = some ⟨some 0, some e, true⟩ := by
  obtain ⟨_, _, h1, _, h2⟩ := RIter.assign_inv (startsWith_spanOK hr) (Nat.zero_le _) h
  obtain ⟨b, h3, _, _⟩ := h2 hl
  refine ⟨h1, a.current, ?_⟩
  have h4 := ((attempt_safe C hr (Nat.zero_le _)).2 _ (toExec_done h1 (by rw [h3]))).2
  rw [h3] at h4
  simp only [Option.some.injEq] at h4
  simp [Caps.get, h3, h4]

/-- C23: every token begins where the previous one ends and is the result of `starts_with` there. -/
theorem C23_tokens_adjacent (hr : r.Numbered) {k : Nat} {a b : RIter}
    (ha : tokenizeNth C n s f r k = some a) (hb : tokenizeNth C n s f r (k+1) = some b) (hl : b.isEnd = false) :
    ∃ b1 e1 e2, a.result.get 0 = some ⟨some b1, some e1, true⟩ ∧ b.result.get 0 = some ⟨some e1, some e2, true⟩ ∧
      b1 ≤ e1 ∧ e1 ≤ e2 ∧ e2 ≤ s.length ∧ startsWithAt C n s f r e1 = .done b.result := by
  obtain ⟨h1, b1, b2, h2, h3, h4, h5, h6, h7⟩ :=
    RIter.nth_apart (startsWith_spanOK hr) (init_unmatched r) (Nat.lt_succ_self k) ha hb hl
  obtain ⟨_, _, _, h8, _⟩ := RIter.nth_succ (startsWith_spanOK hr) (init_unmatched r) ha hb
  obtain ⟨h9, h10, _⟩ := h8 hl
  have h11 := ((attempt_safe C hr (by omega)).2 _ (toExec_done h10 (by rw [h3]))).2
  rw [h3] at h11
  simp only [Option.some.injEq] at h11
  refine ⟨b1, a.current, b.current, by simp [Caps.get, h2], by simp [Caps.get, h3, h11], h4, by omega, h7, h10⟩

/-- C23: tokenizing stops exactly at the end of the subject or where the pattern does not match. -/
theorem C23_stops (hr : r.Numbered) {k : Nat} {a b : RIter}
    (ha : tokenizeNth C n s f r k = some a) (hl : a.isEnd = false) (hb : tokenizeNth C n s f r (k+1) = some b) :
    ∃ b1 e1, a.result.get 0 = some ⟨some b1, some e1, true⟩ ∧
      (b.isEnd = true ↔ e1 = s.length ∨ (startsWithAt C n s f r e1).success = false) := by
  obtain ⟨b1, h1, h2⟩ := (RIter.nth_inv (startsWith_spanOK hr) (init_unmatched r) ha).live hl
  refine ⟨b1, a.current, by simp [Caps.get, h1], ?_⟩
  have h3 := (RIter.nth_inv (startsWith_spanOK hr) (init_unmatched r) ha).le
  obtain ⟨_, _, _, h4, h5⟩ := RIter.nth_succ (startsWith_spanOK hr) (init_unmatched r) ha hb
  by_cases h6 : a.current = s.length
  · simp only [h6, true_or, iff_true]
    cases he : b.isEnd with
    | true => rfl
    | false => have := (h4 he).1; omega
  · simp only [h6, false_or, h5 (by omega), Exec.success, RIter.isEnd]
    simp

/-- C23: the tokens so far, one after the other, are the beginning of the subject. -/
theorem C23_tokens_concat (hr : r.Numbered) : ∀ {k : Nat} {toks : Nat → List Ch} {a : RIter},
    tokenizeNth C n s f r k = some a → a.isEnd = false →
    (∀ i it b e, i ≤ k → tokenizeNth C n s f r i = some it → it.result.get 0 = some ⟨some b, some e, true⟩ →
      toks i = slice s (b, e)) →
    ∃ e, a.result.whole.e = some e ∧ ((List.range (k+1)).map toks).flatten = s.take e
  | 0, toks, a, ha, hl, ht => by
    obtain ⟨_, e, h1⟩ := C23_first_token hr ha hl
    have hw : a.result.whole = ⟨some 0, some e, true⟩ := by simpa [Caps.get] using h1
    have := ht 0 a 0 e (Nat.le_refl _) ha h1
    refine ⟨e, by rw [hw], ?_⟩
    simp [this, slice]
  | k+1, toks, a, ha, hl, ht => by
    obtain ⟨c, hc⟩ := RIter.nth_prefix ha k (by omega)
    have hcl := (RIter.nth_apart (startsWith_spanOK hr) (init_unmatched r) (Nat.lt_succ_self k) hc ha hl).1
    obtain ⟨e, h1, h2⟩ := C23_tokens_concat hr hc hcl (fun i it b e hi => ht i it b e (by omega))
    obtain ⟨b1, e1, e2, h3, h4, h5, h6, h7, _⟩ := C23_tokens_adjacent hr hc ha hl
    have hwc : c.result.whole = ⟨some b1, some e1, true⟩ := by simpa [Caps.get] using h3
    have hwa : a.result.whole = ⟨some e1, some e2, true⟩ := by simpa [Caps.get] using h4
    rw [hwc] at h1
    simp only [Option.some.injEq] at h1
    subst h1
    refine ⟨e2, by rw [hwa], ?_⟩
    have h8 := ht (k+1) a e1 e2 (Nat.le_refl _) ha h4
    rw [List.range_succ, List.map_append, List.flatten_append, h2]
    simp only [List.map_cons, List.map_nil, List.flatten_cons, List.flatten_nil, List.append_nil]
    rw [h8]
    have h9 := slice_append (s := s) (Nat.zero_le e1) h6
    simpa [slice] using h9

/-! ### C24 -/

/-- C24: a loop over a range of subjects piped into a pattern sees exactly the results of the subjects that
match, in order. -/
theorem C24_multi_subject_filters {α ρ : Type} (exec : α → Option ρ) : ∀ (xs : List α) (m : Nat), xs.length < m →
    MIter.collect exec m (MIter.begin exec xs) = some (xs.filterMap exec) := by
  intro xs
  induction xs with
  | nil => 
    intro m hm
    obtain ⟨m, rfl⟩ : ∃ k, m = k + 1 := ⟨m - 1, by simp at hm; omega⟩
    rfl
  | cons x xs ih =>
    intro m hm
    simp only [List.length_cons] at hm
    cases hx : exec x with
    | none =>
      have := ih m (by omega)
      simp only [MIter.begin, MIter.findFirst, hx] at this ⊢
      rw [this]; simp [hx]
    | some y =>
      obtain ⟨m, rfl⟩ : ∃ k, m = k + 1 := ⟨m - 1, by omega⟩
      have := ih m (by omega)
      simp only [MIter.begin] at this
      simp only [MIter.begin, MIter.findFirst, hx, MIter.collect, MIter.neEnd, MIter.next]
      simp [this, hx]

/-- C24: `it == end`, `end == it` and `it != end` agree. -/
theorem C24_comparison_with_end {α ρ : Type} (it : MIter α ρ) : it.neEnd = !it.eqEnd := rfl

/-- C24, the defect: `end != it` gives the same answer as `end == it`. -/
theorem C24_fails_end_not_equal {α ρ : Type} (it : MIter α ρ) : it.endNe = it.eqEnd ∧ it.endNe ≠ it.neEnd := by
  simp [MIter.endNe, MIter.eqEnd, MIter.neEnd]

/-! ### C42 -/

/-- C42: `!=` is the negation of `==`, and the order comparisons agree with them. -/
theorem C42_comparisons (a b : RIter) : a.ne b = !a.eq b ∧ (a.lt b = !a.ge b) ∧ (a.gt b = b.lt a) ∧
    (a.le b = (a.lt b || a.eq b)) ∧ (a.ge b = b.le a) := by
  refine ⟨rfl, ?_, rfl, ?_, rfl⟩ <;> rw [Bool.eq_iff_iff] <;>
    simp [RIter.lt, RIter.ge, RIter.le, RIter.eq] <;> omega

/-- C42: iterators at two results of which the later one is not empty compare unequal. -/
theorem C42_distinct_results (hr : r.Numbered) {i j : Nat} (hij : i < j) {a b : RIter}
    (ha : searchAllNth C n s f r i = some a) (hb : searchAllNth C n s f r j = some b) (hl : b.isEnd = false)
    (hne : b.result.whole.b ≠ b.result.whole.e) : a.eq b = false ∧ a.lt b = true := by
  obtain ⟨_, b1, b2, _, h3, _, h5, h6, _⟩ := RIter.nth_apart (search_spanOK hr) (init_unmatched r) hij ha hb hl
  rw [h3] at hne
  simp only [ne_eq, Option.some.injEq] at hne
  constructor
  · simp only [RIter.eq, beq_eq_false_iff_ne]; omega
  · simp only [RIter.lt, decide_eq_true_eq]; omega

/-- C42: exactly when two iterators of `search_all` compare equal, the second one having passed the first:
everything found in between is empty and lies where the result of the first one ends. -/
theorem C42_equal_exactly (hr : r.Numbered) {i j : Nat} (hij : i ≤ j) {a b : RIter}
    (ha : searchAllNth C n s f r i = some a) (hb : searchAllNth C n s f r j = some b) :
    a.eq b = true ↔ ∀ k c, i < k → k ≤ j → searchAllNth C n s f r k = some c → c.isEnd = false →
      c.result.whole = ⟨some a.current, some a.current, true⟩ := by
  simp only [RIter.eq, beq_iff_eq]
  exact RIter.nth_eq_iff (search_spanOK hr) (init_unmatched r) ha hij hb

/-- C42: the same for `tokenize`. -/
theorem C42_equal_exactly_tokenize (hr : r.Numbered) {i j : Nat} (hij : i ≤ j) {a b : RIter}
    (ha : tokenizeNth C n s f r i = some a) (hb : tokenizeNth C n s f r j = some b) :
    a.eq b = true ↔ ∀ k c, i < k → k ≤ j → tokenizeNth C n s f r k = some c → c.isEnd = false →
      c.result.whole = ⟨some a.current, some a.current, true⟩ := by
  simp only [RIter.eq, beq_iff_eq]
  exact RIter.nth_eq_iff (startsWith_spanOK hr) (init_unmatched r) ha hij hb

/-- C42: where the position of a live iterator is seen from outside: it is the end of its result. -/
theorem C42_position (hr : r.Numbered) {k : Nat} {a : RIter} (ha : searchAllNth C n s f r k = some a)
    (hl : a.isEnd = false) : a.result.whole.e = some a.current := by
  obtain ⟨b, h, _⟩ := (RIter.nth_inv (search_spanOK hr) (init_unmatched r) ha).live hl
  rw [h]

/-- C42, the defect: the iterator at the last result and the exhausted iterator compare equal, although
only one of them equals the end of the range. -/
theorem C42_fails_at_end (hr : r.Numbered) {k : Nat} {a b : RIter}
    (ha : searchAllNth C n s f r k = some a) (hl : a.isEnd = false)
    (hb : searchAllNth C n s f r (k+1) = some b) (he : b.isEnd = true) : a.eq b = true ∧ a.isEnd ≠ b.isEnd := by
  obtain ⟨_, h1, _⟩ := RIter.nth_succ (search_spanOK hr) (init_unmatched r) ha hb
  exact ⟨by simp [RIter.eq, h1 he], by rw [hl, he]; simp⟩

/-! ### Cases -/

/-- `[0-9]+` -/
def sampleNumber : Re := .rep .greedy 1 0 [.cc (.range 48 57)]

example : sampleNumber.Numbered := ⟨by decide, by decide⟩
example : startsWithAnchor {} sampleNumber = false := by decide
-- "12,3": results [0,2) and [3,4), then the end
example : (searchAllNth {} 40 [49, 50, 44, 51] {} sampleNumber 1).map (·.result.whole) = some ⟨some 3, some 4, true⟩ := by
  decide +kernel
example : (searchAllNth {} 40 [49, 50, 44, 51] {} sampleNumber 2).map (·.isEnd) = some true := by decide +kernel
-- of its three iterators the first differs from the others, which are equal
example : (do let a ← searchAllNth {} 40 [49, 50, 44, 51] {} sampleNumber 0
              let b ← searchAllNth {} 40 [49, 50, 44, 51] {} sampleNumber 1
              let c ← searchAllNth {} 40 [49, 50, 44, 51] {} sampleNumber 2
              pure (a.eq b, a.eq c, b.eq c)) = some (false, false, true) := by decide +kernel
-- `,` splits "a,b," into "a", "b", ""
example : (List.range 4).map (fun k => (splitNth {} 40 [97, 44, 98, 44] {} (.cc (.chr 44)) k).map (·.result.whole)) =
    [some ⟨some 0, some 1, true⟩, some ⟨some 2, some 3, true⟩, some ⟨some 4, some 4, true⟩, some {}] := by decide +kernel
-- the searches all return
example : ∀ p, p ≤ 4 → (searchAt {} 40 [97, 44, 98, 44] {} (.cc (.chr 44)) p).span ≠ some (p, p) := by decide +kernel
-- `^x` splits "ab" into empty pieces without end
example : startsWithAnchor {} (.seq [.lBegin, .cc (.chr 120)]) = true ∧
    attempt {} 40 [97, 98] {} (.seq [.lBegin, .cc (.chr 120)]) 0 = .fail := by decide +kernel
-- `a*` on "b": the empty result repeats
example : (searchAllNth {} 40 [98] {} (.rep .greedy 0 0 [.cc (.chr 97)]) 0).map (·.result.whole) =
    some ⟨some 0, some 0, true⟩ := by decide +kernel
-- tokens of `[a-z]|[0-9]` on "a1-"
example : (List.range 3).map (fun k => (tokenizeNth {} 40 [97, 49, 45] {}
      (.sel [.cc (.range 97 122), .cc (.range 48 57)]) k).map (·.result.whole.e)) = [some (some 1), some (some 2), some none] := by
  decide +kernel
example : MIter.collect (fun x : Nat => if x % 2 = 0 then some (x * 10) else none) 9
    (MIter.begin (fun x : Nat => if x % 2 = 0 then some (x * 10) else none) [1, 2, 3, 4]) = some [20, 40] := by
  decide

end Ctre
