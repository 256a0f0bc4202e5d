import Verif.Model.Steps
import Verif.Lemmas.EvalEqs

/-
Patterns that need as many steps as the exponent says.
-/
namespace Ctre

/-- `a*?` -/
def lazyA : Re := .rep .lazy 0 0 [.cc (.chr 97)]

/-- `a*?a*?…a*?b` with `d` repetitions. -/
def lazyRow (d : Nat) : List Re := List.replicate d lazyA ++ [.cc (.chr 98)]

/-- Ways to divide `j` letters among `d` repetitions, some letters left over. -/
def ways : Nat → Nat → Nat
  | 0, _ => 1
  | d + 1, 0 => ways d 0
  | d + 1, j + 1 => ways d (j + 1) + ways (d + 1) j

theorem ways_pos : ∀ d j, 1 ≤ ways d j
  | 0, _ => by simp [ways]
  | d + 1, 0 => by rw [ways]; exact ways_pos d 0
  | d + 1, j + 1 => by rw [ways]; have := ways_pos d (j + 1); omega

theorem ways_succ : ∀ d j, ways d j ≤ ways d (j + 1)
  | 0, _ => by simp [ways]
  | d + 1, j => by rw [ways.eq_3]; omega

theorem ways_mono (d j : Nat) : ∀ k, ways d j ≤ ways d (j + k)
  | 0 => Nat.le_refl _
  | k + 1 => Nat.le_trans (ways_mono d j k) (ways_succ d (j + k))

theorem ways_ge (d j : Nat) : ∀ k, (k + 1) * ways d j ≤ ways (d + 1) (j + k)
  | 0 => by
    cases j with
    | zero => rw [ways]; omega
    | succ j => rw [Nat.add_zero, ways]; omega
  | k + 1 => by
    have h1 := ways_ge d j k
    have h2 := ways_mono d j (k + 1)
    rw [← Nat.add_assoc, ways.eq_3, Nat.add_assoc j k 1, Nat.succ_mul]
    omega

theorem pow_le_ways (k : Nat) : ∀ d, k ^ d ≤ ways d (d * k)
  | 0 => by simp [ways]
  | d + 1 => by
    have h1 := pow_le_ways k d
    have h2 := ways_ge d (d * k) k
    rw [Nat.succ_mul, Nat.pow_succ, Nat.mul_comm]
    exact Nat.le_trans (Nat.mul_le_mul (by omega) h1) h2

section
variable (C : Cfg) (N : Nat)

theorem getElem?_as {p : Nat} (h : p < N) : (List.replicate N (97 : Ch))[p]? = some 97 := by
  simp [List.getElem?_replicate, h]

theorem body_a {n p : Nat} (f : Flags) (c : Caps) (h : p < N) :
    ∃ c', step (fun p c' => eval C (n + 2) (List.replicate N (97 : Ch)) false p f.notEmpty c' (items [.cc (.chr 97)] [.endCycle])) p c
      = .go (p + 1) c' := by
  have hm : (CC.chr 97).matchChar C.uni f.notEmpty.ci 97 = true := by
    cases f.notEmpty.ci <;> simp [CC.matchChar] <;> decide +kernel
  simp only [step, items, List.map_cons, List.map_nil, List.cons_append, List.nil_append]
  rw [eval_cc, if_neg (by simp; omega), getElem?_as N h]
  simp only [hm, if_true]
  rw [eval_endCycle]
  simp [Flags.consumed, Flags.notEmpty, Caps.setEnd, Caps.setMatched]

theorem body_end {n p : Nat} (f : Flags) (c : Caps) (h : p = N) :
    step (fun p c' => eval C (n + 2) (List.replicate N (97 : Ch)) false p f.notEmpty c' (items [.cc (.chr 97)] [.endCycle])) p c
      = .stop .fail := by
  simp only [step, items, List.map_cons, List.map_nil, List.cons_append, List.nil_append]
  rw [eval_cc, if_pos (by simp [h])]

theorem lazy_loop {n d : Nat} {t : Stack} {f : Flags} (hn : N + 2 ≤ n + 2)
    (ih : ∀ p f c, p ≤ N → eval C (n + 2) (List.replicate N (97 : Ch)) false p f c t = .fail ∧
      ways d (N - p) ≤ steps C (n + 2) (List.replicate N (97 : Ch)) false p f c t) :
    ∀ j m i p c, p + j = N → j + 1 ≤ m →
      lazyLoop (fun p c' => eval C (n + 2) (List.replicate N (97 : Ch)) false p f.notEmpty c' (items [.cc (.chr 97)] [.endCycle]))
        (fun p c' => eval C (n + 2) (List.replicate N (97 : Ch)) false p (f.consumed true) c' t) 0 m i p c = .fail ∧
      ways (d + 1) j ≤ ways d j +
        lazySteps (fun p c' => eval C (n + 2) (List.replicate N (97 : Ch)) false p f.notEmpty c' (items [.cc (.chr 97)] [.endCycle]))
        (fun p c' => eval C (n + 2) (List.replicate N (97 : Ch)) false p (f.consumed true) c' t)
        (fun p c' => steps C (n + 2) (List.replicate N (97 : Ch)) false p f.notEmpty c' (items [.cc (.chr 97)] [.endCycle]))
        (fun p c' => steps C (n + 2) (List.replicate N (97 : Ch)) false p (f.consumed true) c' t) 0 m i p c
  | 0, m + 1, i, p, c, hp, _ => by
    rw [lazyLoop, lazySteps, if_pos (by simp [lessInf]), if_pos (by simp [lessInf]), body_end C N f c (by omega), ways]
    exact ⟨rfl, by omega⟩
  | j + 1, m + 1, i, p, c, hp, hm => by
    obtain ⟨c', hc⟩ := body_a C N (n := n) f c (by omega : p < N)
    obtain ⟨h1, h2⟩ := ih (p + 1) (f.consumed true) c' (by omega)
    obtain ⟨h3, h4⟩ := lazy_loop hn ih j m (i + 1) (p + 1) c' (by omega) (by omega)
    rw [lazyLoop, lazySteps, if_pos (by simp [lessInf]), if_pos (by simp [lessInf]), hc]
    simp only [h1, Out.ifFail]
    have : N - (p + 1) = j := by omega
    rw [this] at h2
    rw [ways.eq_3]
    exact ⟨h3, by omega⟩

/-- The row of repetitions fails on a row of `a`, after trying all ways to divide the letters. -/
theorem lazyRow_steps : ∀ d n p f c (K : Stack), p ≤ N → 2 * d + N + 4 ≤ n →
    eval C n (List.replicate N (97 : Ch)) false p f c (.re (.seq (lazyRow d)) :: K) = .fail ∧
    ways d (N - p) ≤ steps C n (List.replicate N (97 : Ch)) false p f c (.re (.seq (lazyRow d)) :: K)
  | 0, n + 2, p, f, c, K, hp, hn => by
    have hm : (CC.chr 98).matchChar C.uni f.ci 97 = false := by
      cases f.ci <;> simp [CC.matchChar] <;> decide +kernel
    constructor
    · simp only [lazyRow, List.replicate_zero, List.nil_append]
      rw [eval_seq_one, eval_cc]
      split
      · rfl
      · rename_i h
        rw [getElem?_as N (by simp at h; omega)]
        simp [hm]
    · simp only [ways]
      rw [steps.eq_def]
      simp only
      omega
  | d + 1, n + 4, p, f, c, K, hp, hn => by
    have ih := fun p f c hp => lazyRow_steps d (n + 2) p f c K hp (by omega)
    have hr : lazyRow (d + 1) = lazyA :: lazyRow d := by simp [lazyRow, List.replicate_succ]
    obtain ⟨x, l, hl⟩ : ∃ x l, lazyRow d = x :: l := by
      cases d with
      | zero => exact ⟨_, _, rfl⟩
      | succ d => exact ⟨lazyA, lazyRow d, by simp [lazyRow, List.replicate_succ]⟩
    obtain ⟨h1, h2⟩ := ih p (f.consumed (decide (p ≠ p))) c hp
    obtain ⟨h3, h4⟩ := lazy_loop C N (n := n) (f := f) (by omega) (fun p f c hp => ih p f c hp) (N - p) (n + 2) 0 p c (by omega) (by omega)
    rw [hr, hl, eval_seq_cons, steps]
    · rw [← hl]
      simp only [lazyA]
      rw [eval_lazy, steps, if_neg (by simp), if_neg (by simp), if_neg (by simp), if_neg (by simp)]
      simp only [mandLoop, mandSteps]
      rw [h1]
      simp only [Out.orElse_fail, Out.ifFail]
      have key : ∀ x y z w : Nat, w ≤ z + y → z ≤ x → w ≤ 1 + (1 + (0 + (x + y))) := by omega
      exact ⟨h3, key _ _ _ _ h4 h2⟩
    all_goals simp
end

end Ctre
