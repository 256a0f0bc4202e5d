import Verif.Lemmas.Shift
import Verif.Props.Bounds
import Verif.Props.Iteration

/-
C59: the text before a position does not matter to a pattern that does not look back.
-/
namespace Ctre

variable {C : Cfg} {n : Nat} {s : List Ch} {f : Flags} {r : Re}

/-- C59: a call at position `k + i` of the subject gives, up to the origin of the positions, the result of the call at
position `i` of the text from `k` on. -/
theorem C59_calls (hr : r.Numbered) (hw : r.forward = true) {k i : Nat} (hi : k + i ≤ s.length) :
    matchAt C n s f r (k + i) = (matchAt C n (s.drop k) f r i).moved k ∧
    startsWithAt C n s f r (k + i) = (startsWithAt C n (s.drop k) f r i).moved k ∧
    searchAt C n s f r (k + i) = (searchAt C n (s.drop k) f r i).moved k := by
  have hi' : i ≤ (s.drop k).length := by rw [List.length_drop]; omega
  have hf := Re.forward_fits r hw
  have H := rest_walks s (k := k) (by omega)
  have V := view_walks s ⟨false, true, false, false⟩
  have u := C08_no_out_of_bounds (C := C) (n := n) (f := f) hr hi
  have u' := C08_no_out_of_bounds (C := C) (n := n) (f := f) (s := s.drop k) hr hi'
  have a1 := (matchC_sim C n V hf f hi).resolve_left u.1
  have a2 := (startsWithC_sim C n V hf f hi).resolve_left u.2.1
  have a3 := (searchC_sim C n V hf f hi).resolve_left u.2.2
  have b1 := (matchC_sim C n H hf f hi').resolve_left u'.1
  have b2 := (startsWithC_sim C n H hf f hi').resolve_left u'.2.1
  have b3 := (searchC_sim C n H hf f hi').resolve_left u'.2.2
  rw [mapPos_id] at a1 a2 a3
  exact ⟨a1.symm.trans b1, a2.symm.trans b2, a3.symm.trans b3⟩

/-- C59: `search` finds the first rest of the subject on which `starts_with` succeeds, and reports what `starts_with`
reports there. -/
theorem C59_search_first_rest (hr : r.Numbered) (hw : r.forward = true) (c : Caps) :
    (cSearch C n s f r = .done c ∧ c.whole.matched = true) ↔
      ∃ k d, k ≤ s.length ∧ cStartsWith C n (s.drop k) f r = .done d ∧ d.whole.matched = true ∧ c = d.moved k ∧
        ∀ j, j < k → ∃ e, cStartsWith C n (s.drop j) f r = .done e ∧ e.whole.matched = false := by
  have call : ∀ j, j ≤ s.length → startsWithAt C n s f r j = (cStartsWith C n (s.drop j) f r).moved j := fun j hj =>
    (C59_calls (i := 0) hr hw hj).2.1
  have ha : startsWithAnchor f r = false := Re.forward_anchor f r hw
  constructor
  · rintro ⟨h, hm⟩
    unfold cSearch searchAt at h
    rw [ha] at h
    obtain ⟨k, hk, h1, h2⟩ := searchLoop_ok h hm
    simp only [Bool.false_eq_true, if_false, Nat.zero_add, Nat.sub_zero] at hk h1 h2
    have h3 : startsWithAt C n s f r k = .done c := by unfold startsWithAt; rw [h1]; rfl
    rw [call k hk] at h3
    obtain ⟨d, h4, rfl⟩ := moved_done h3
    refine ⟨k, d, hk, h4, hm, rfl, fun j hj => ?_⟩
    have h5 : startsWithAt C n s f r j = .done (initCaps r) := by unfold startsWithAt; rw [h2 j hj]; rfl
    rw [call j (by omega)] at h5
    obtain ⟨e, h6, h7⟩ := moved_done h5
    exact ⟨e, h6, by rw [← Caps.moved_matched j e, ← h7]; rfl⟩
  · rintro ⟨k, d, hk, h1, h2, rfl, h3⟩
    refine ⟨?_, h2⟩
    have h4 : attempt C n s f r k = .ok (d.moved k) := by
      refine toExec_done (r := r) ?_ h2
      show startsWithAt C n s f r k = _
      rw [call k hk, h1]
      rfl
    have h5 : ∀ j, j < k → attempt C n s f r j = .fail := by
      intro j hj
      obtain ⟨e, h6, h7⟩ := h3 j hj
      have h8 := call j (by omega)
      rw [h6] at h8
      unfold startsWithAt at h8
      cases ho : attempt C n s f r j with
      | fail => rfl
      | ok c' =>
        have h9 := attempt_matched hr (by omega) ho
        rw [ho] at h8
        simp only [Out.toExec, Exec.moved, Exec.mapPos, Exec.done.injEq] at h8
        rw [h8] at h9
        have h10 : (e.mapPos (j + ·)).whole.matched = e.whole.matched := rfl
        rw [h10, h7] at h9
        cases h9
      | _ => rw [ho] at h8; simp [Out.toExec, Exec.moved, Exec.mapPos] at h8
    have key : ∀ m i, i + m = s.length → i ≤ k → searchLoop C n s f r m i = .done (d.moved k) := by
      intro m
      induction m with
      | zero =>
        intro i h6 h7
        have : i = k := by omega
        subst this
        simp [searchLoop, h4, Out.toExec]
      | succ m ih =>
        intro i h6 h7
        by_cases h8 : i = k
        · subst h8; simp [searchLoop, h4, Out.toExec]
        · simp only [searchLoop, h5 i (by omega)]
          exact ih (i + 1) (by omega) (by omega)
    unfold cSearch searchAt
    rw [ha]
    exact key _ 0 (by simp) (Nat.zero_le _)

theorem initCaps_moved (r : Re) (k : Nat) : (initCaps r).moved k = initCaps r := initCaps_mapPos r _

/-- C59: the results of `search_all` after one that ends at `k`, before the end of the subject, are the results of
`search_all` over the text from `k` on. -/
theorem C59_search_all (hr : r.Numbered) (hw : r.forward = true) {m k : Nat} {a : RIter}
    (ha : searchAllNth C n s f r m = some a) (hk : a.current = k) (hlt : k < s.length) (j : Nat) :
    searchAllNth C n s f r (m + 1 + j) = (searchAllNth C n (s.drop k) f r j).map (RIter.moved k) := by
  refine RIter.nth_moved (by rw [List.length_drop]; omega) (fun i hi => ?_) (initCaps_moved r k) (fun j it h => ?_) ha hk hlt j
  · rw [List.length_drop] at hi
    exact (C59_calls hr hw (by omega)).2.2
  · exact (RIter.nth_inv (search_spanOK hr) (init_unmatched r) h).le

/-- C59: the same for `tokenize`. -/
theorem C59_tokenize (hr : r.Numbered) (hw : r.forward = true) {m k : Nat} {a : RIter}
    (ha : tokenizeNth C n s f r m = some a) (hk : a.current = k) (hlt : k < s.length) (j : Nat) :
    tokenizeNth C n s f r (m + 1 + j) = (tokenizeNth C n (s.drop k) f r j).map (RIter.moved k) := by
  refine RIter.nth_moved (by rw [List.length_drop]; omega) (fun i hi => ?_) (initCaps_moved r k) (fun j it h => ?_) ha hk hlt j
  · rw [List.length_drop] at hi
    exact (C59_calls hr hw (by omega)).2.1
  · exact (RIter.nth_inv (startsWith_spanOK hr) (init_unmatched r) h).le

/-- C59: the pieces of `split` after a separator that ends at `k` are the pieces of the text from `k` on. -/
theorem C59_split (hr : r.Numbered) (hw : r.forward = true) {m k : Nat} {a : SIter}
    (ha : splitNth C n s f r m = some a) (hk : a.current = k) (hlt : a.lastMatch = false) (j : Nat) :
    splitNth C n s f r (m + 1 + j) = (splitNth C n (s.drop k) f r j).map (SIter.moved k) := by
  have hle : ∀ (t : List Ch) p c q, p ≤ t.length → searchAt C n t f r p = .done c → c.whole.e = some q → q ≤ t.length := by
    intro t p c q hp h hq
    cases hm : c.whole.matched with
    | true =>
      obtain ⟨b, e, h1, _, _, h2⟩ := search_spanOK hr p c hp h hm
      rw [h1] at hq
      simp only [Option.some.injEq] at hq
      omega
    | false =>
      unfold searchAt at h
      have h1 := (searchLoop_fail' hr (by split <;> omega) h hm).1
      subst h1
      simp only [Caps.setEnd, Option.some.injEq] at hq
      split at hq <;> omega
  have hk' : k ≤ s.length := hk ▸ SIter.nth_le (hle s) m a ha
  refine SIter.nth_moved (by rw [List.length_drop]; omega) (fun i hi => ?_) (initCaps_moved r k)
    (SIter.nth_le (hle (s.drop k))) ha hk hlt j
  rw [List.length_drop] at hi
  exact (C59_calls hr hw (by omega)).2.2

/-- C59: the restriction is needed.  `^` in the default mode, `\b` and a lookbehind see the text before. -/
theorem C59_fails_looking_back :
    (∃ k, k ≤ 2 ∧ startsWithAt {} 20 [97, 98] {} (.seq [.lBegin, .cc (.chr 98)]) k ≠
      (cStartsWith {} 20 ([97, 98].drop k) {} (.seq [.lBegin, .cc (.chr 98)])).moved k) ∧
    (∃ k, k ≤ 2 ∧ startsWithAt {} 20 [97, 98] {} (.seq [.boundary (.range 97 122), .cc (.chr 98)]) k ≠
      (cStartsWith {} 20 ([97, 98].drop k) {} (.seq [.boundary (.range 97 122), .cc (.chr 98)])).moved k) ∧
    (∃ k, k ≤ 2 ∧ startsWithAt {} 20 [97, 98] {} (.seq [.behind true [.cc (.chr 97)], .cc (.chr 98)]) k ≠
      (cStartsWith {} 20 ([97, 98].drop k) {} (.seq [.behind true [.cc (.chr 97)], .cc (.chr 98)])).moved k) :=
  ⟨⟨1, by decide, by decide +kernel⟩, ⟨1, by decide, by decide +kernel⟩, ⟨1, by decide, by decide +kernel⟩⟩

/-! ### Case: `([a-b])\1(?=c|$)` on "ababbcaa" -/

def sampleForward : Re :=
  .seq [.cap 1 none [.cc (.set [.range 97 98])], .bref 1, .ahead true [.sel [.cc (.chr 99), .lEnd]]]

example : sampleForward.forward = true := by decide
example : sampleForward.Numbered := ⟨by decide, by decide⟩
example : (cStartsWith {} 40 ([97, 98, 97, 98, 98, 99, 97, 97].drop 3) {} sampleForward).success = true := by decide +kernel
example : cSearch {} 40 [97, 98, 97, 98, 98, 99, 97, 97] {} sampleForward =
    .done { whole := ⟨some 3, some 5, true⟩, groups := [{ id := 1, slot := ⟨some 3, some 4, true⟩ }] } := by decide +kernel
example : (searchAllNth {} 40 [97, 98, 97, 98, 98, 99, 97, 97] {} sampleForward 0).map RIter.current = some 5 := by decide +kernel
example : (searchAllNth {} 40 [97, 98, 97, 98, 98, 99, 97, 97] {} sampleForward 1).map RIter.current = some 8 := by decide +kernel
example : (searchAllNth {} 40 ([97, 98, 97, 98, 98, 99, 97, 97].drop 5) {} sampleForward 0).map RIter.current = some 3 := by
  decide +kernel
example : (splitNth {} 40 [97, 98, 97, 98, 98, 99, 97, 97] {} sampleForward 0).map SIter.lastMatch = some false := by
  decide +kernel
-- `[a-b]` tokenises "abc" into two tokens
example : (tokenizeNth {} 40 [97, 98, 99] {} (.cc (.range 97 98)) 0).map RIter.current = some 1 := by decide +kernel
example : (Re.cc (.range 97 98)).forward = true := rfl

end Ctre
