import Verif.Lemmas.IterSteps
import Verif.Props.Steps
import Verif.Props.Iteration

/-
C68: the amount of work of a loop over `search_all`, `tokenize` and `split`.
-/
namespace Ctre

/-- The attempts of a loop: one constant for all subjects. -/
theorem attempts_le (C : Cfg) {r : Re} (hp : r.progressive = true) :
    ∃ K, ∀ (s : List Ch) (f : Flags) (n : Nat), r.weight + s.length + 7 ≤ n → ∀ p, p ≤ s.length →
      startsWithSteps C n s f r p ≤ K * (s.length + 1) ^ r.prefixDegree C := by
  obtain ⟨K, hK⟩ := C64_starts_with C hp
  exact ⟨K, fun s f n hn p hp => hK s f p n hp hn⟩

/-- C68: the work of a loop over `search_all`, up to the `k`-th increment and as long as the loop has not ended before, takes
no more than one attempt for every position and every result. -/
theorem C68_search_all (C : Cfg) {r : Re} (hr : r.Numbered) (hp : r.progressive = true) :
    ∃ K, ∀ (s : List Ch) (f : Flags) (n k : Nat), r.weight + s.length + 7 ≤ n →
      (∀ i, i < k → ∃ it, searchAllNth C n s f r i = some it ∧ it.isEnd = false) →
      searchAllSteps C n s f r k ≤ (s.length + k + 1) * (K * (s.length + 1) ^ r.prefixDegree C) := by
  obtain ⟨K, hK⟩ := attempts_le C hp
  exact ⟨K, fun s f n k hn hk => searchAllSteps_total hr (hK s f n hn) hk⟩

theorem one_power_more {K a l d : Nat} (h : a ≤ 2 * (l + 1)) : a * (K * (l + 1) ^ d) ≤ 2 * K * (l + 1) ^ (d + 1) := by
  refine Nat.le_trans (Nat.mul_le_mul_right _ h) (Nat.le_of_eq ?_)
  rw [Nat.pow_succ]
  simp only [Nat.mul_assoc, Nat.mul_left_comm, Nat.mul_comm]

/-- C68: if the pattern matches nothing empty, a whole loop over `search_all` takes, apart from a constant factor, no more work
than a single search may take (C64). -/
theorem C68_search_all_total (C : Cfg) {r : Re} (hr : r.Numbered) (hp : r.progressive = true) (hm : r.moves = true) :
    ∃ K, ∀ (s : List Ch) (f : Flags) (n k : Nat), r.weight + s.length + 7 ≤ n →
      (∀ i, i < k → ∃ it, searchAllNth C n s f r i = some it ∧ it.isEnd = false) →
      k ≤ s.length ∧ searchAllSteps C n s f r k ≤ K * (s.length + 1) ^ (r.prefixDegree C + 1) := by
  obtain ⟨K, hK⟩ := C68_search_all C hr hp
  refine ⟨2 * K, fun s f n k hn hk => ?_⟩
  have h : k ≤ s.length := by
    cases k with
    | zero => exact Nat.zero_le _
    | succ k =>
      obtain ⟨a, h1, h2⟩ := hk k (Nat.lt_succ_self k)
      have h3 := RIter.nth_count (search_spanOK hr) rfl (search_nonempty hr hm) h1 h2
      have h4 := (RIter.nth_inv (search_spanOK hr) rfl h1).le
      omega
  exact ⟨h, Nat.le_trans (hK s f n k hn hk) (one_power_more (by omega))⟩

/-- C68: the work of a loop over `tokenize` takes one attempt for every token, and one more. -/
theorem C68_tokenize (C : Cfg) {r : Re} (hr : r.Numbered) (hp : r.progressive = true) :
    ∃ K, ∀ (s : List Ch) (f : Flags) (n k : Nat), r.weight + s.length + 7 ≤ n →
      tokenizeSteps C n s f r k ≤ (k + 1) * (K * (s.length + 1) ^ r.prefixDegree C) := by
  obtain ⟨K, hK⟩ := attempts_le C hp
  exact ⟨K, fun s f n k hn => tokenizeSteps_le hr (hK s f n hn) k⟩

/-- C68: if the pattern matches nothing empty, a whole loop over `tokenize` takes at most one power more than a call of
`starts_with`. -/
theorem C68_tokenize_total (C : Cfg) {r : Re} (hr : r.Numbered) (hp : r.progressive = true) (hm : r.moves = true) :
    ∃ K, ∀ (s : List Ch) (f : Flags) (n k : Nat), r.weight + s.length + 7 ≤ n →
      (∀ i, i < k → ∃ it, tokenizeNth C n s f r i = some it ∧ it.isEnd = false) →
      k ≤ s.length ∧ tokenizeSteps C n s f r k ≤ K * (s.length + 1) ^ (r.prefixDegree C + 1) := by
  obtain ⟨K, hK⟩ := C68_tokenize C hr hp
  refine ⟨2 * K, fun s f n k hn hk => ?_⟩
  have h : k ≤ s.length := by
    cases k with
    | zero => exact Nat.zero_le _
    | succ k =>
      obtain ⟨a, h1, h2⟩ := hk k (Nat.lt_succ_self k)
      have h3 := RIter.nth_count (startsWith_spanOK hr) rfl
        (fun p c hp h hm' => attempt_nonempty hr hm hp (toExec_done h hm')) h1 h2
      have h4 := (RIter.nth_inv (startsWith_spanOK hr) rfl h1).le
      omega
  exact ⟨h, Nat.le_trans (hK s f n k hn) (one_power_more (by omega))⟩

/-- C68: the work of a loop over `split` takes no more than one attempt for every position and every piece. -/
theorem C68_split (C : Cfg) {r : Re} (hr : r.Numbered) (hp : r.progressive = true) :
    ∃ K, ∀ (s : List Ch) (f : Flags) (n k : Nat) (it : SIter), r.weight + s.length + 7 ≤ n → splitNth C n s f r k = some it →
      splitSteps C n s f r k ≤ (s.length + k + 1) * (K * (s.length + 1) ^ r.prefixDegree C) := by
  obtain ⟨K, hK⟩ := attempts_le C hp
  refine ⟨K, fun s f n k it hn h => ?_⟩
  obtain ⟨h1, h2⟩ := splitSteps_le hr (hK s f n hn) h
  exact Nat.le_trans h2 (Nat.mul_le_mul_right _ (by omega))

/-- C68: if the pattern is not anchored and matches nothing empty, a whole loop over `split` has at most one piece more than
there are characters, and takes no more work than a single search may take, apart from a constant factor. -/
theorem C68_split_total (C : Cfg) {r : Re} (hr : r.Numbered) (hp : r.progressive = true) (hm : r.moves = true) :
    ∃ K, ∀ (s : List Ch) (f : Flags) (n k : Nat) (it : SIter), startsWithAnchor f r = false → r.weight + s.length + 7 ≤ n →
      splitNth C n s f r k = some it → it.isEnd = false →
      k ≤ s.length ∧ splitSteps C n s f r k ≤ K * (s.length + 1) ^ (r.prefixDegree C + 1) := by
  obtain ⟨K, hK⟩ := C68_split C hr hp
  refine ⟨2 * K, fun s f n k it ha hn h hl => ?_⟩
  obtain ⟨h1, _, h2⟩ := split_count hr hm ha h
  have h3 : k ≤ s.length := by
    rcases h2 hl with h | h
    · omega
    · exact h.2.2
  exact ⟨h3, Nat.le_trans (hK s f n k it hn h) (one_power_more (by omega))⟩

/-- C68 fails for patterns with empty matches, because the same result is found again and again (C21): the loop over
`search_all<"a*">("b")` takes any amount of work. -/
theorem C68_fails_empty (k : Nat) :
    (∀ i, i < k → ∃ it, searchAllNth {} 40 [98] {} (.rep .greedy 0 0 [.cc (.chr 97)]) i = some it ∧ it.isEnd = false) ∧
    k < searchAllSteps {} 40 [98] {} (.rep .greedy 0 0 [.cc (.chr 97)]) k := by
  have h0 : ∃ it, searchAllNth {} 40 [98] {} (.rep .greedy 0 0 [.cc (.chr 97)]) 0 = some it ∧
      it.result.get 0 = some ⟨some 0, some 0, true⟩ ∧ it.isEnd = false ∧ it.current = 0 :=
    ⟨_, rfl, by decide +kernel, by decide +kernel, by decide +kernel⟩
  obtain ⟨it, h1, h2, h3, h4⟩ := h0
  have h5 : ∀ j, searchAllNth {} 40 [98] {} (.rep .greedy 0 0 [.cc (.chr 97)]) j = some it := fun j => by
    have := C21_empty_result_repeats (hr := ⟨by decide, by decide⟩) h1 h2 (by decide) j
    rwa [Nat.zero_add] at this
  refine ⟨fun i _ => ⟨it, h5 i, h3⟩, ?_⟩
  induction k with
  | zero => decide +kernel
  | succ k ih =>
    have e : searchAllSteps {} 40 [98] {} (.rep .greedy 0 0 [.cc (.chr 97)]) (k + 1) =
        searchAllSteps {} 40 [98] {} (.rep .greedy 0 0 [.cc (.chr 97)]) k +
          searchSteps {} 40 [98] {} (.rep .greedy 0 0 [.cc (.chr 97)]) 0 := by
      show RIter.work _ _ _ _ (k + 1) = _
      rw [RIter.work, show RIter.nth (searchAt {} 40 [98] {} (.rep .greedy 0 0 [.cc (.chr 97)])) _ _ k = some it from h5 k]
      dsimp only
      rw [h4, if_neg (by decide)]
      rfl
    have h6 : 1 ≤ searchSteps {} 40 [98] {} (.rep .greedy 0 0 [.cc (.chr 97)]) 0 := by decide +kernel
    rw [e]
    omega

/-! ### Concrete cases -/

/-- `[0-9]+` satisfies the hypotheses -/
example : sampleNumber.Numbered ∧ sampleNumber.progressive = true ∧ sampleNumber.moves = true ∧
    startsWithAnchor {} sampleNumber = false := ⟨⟨by decide, by decide⟩, by decide, by decide, by decide⟩

/-- "12,3": two results; with the search behind each of them -/
example : (∀ i, i < 2 → ((searchAllNth {} 40 [49, 50, 44, 51] {} sampleNumber i).map (·.isEnd)) = some false) ∧
    (List.range 3).map (searchAllSteps {} 40 [49, 50, 44, 51] {} sampleNumber) = [10, 22, 22] ∧
    (List.range 2).map (splitSteps {} 40 [49, 50, 44, 51] {} sampleNumber) = [10, 22] ∧
    (List.range 2).map (tokenizeSteps {} 40 [49, 50, 44, 51] {} sampleNumber) = [10, 14] := by decide +kernel

end Ctre
