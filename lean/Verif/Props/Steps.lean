import Verif.Lemmas.StepsPoly
import Verif.Lemmas.StepsMono
import Verif.Lemmas.StepsSharp
import Verif.Lemmas.Terminates
import Verif.Spec.Steps

/-
C64: how the amount of work grows with the length of the subject.
-/
namespace Ctre

theorem scale_bound {K d w l N : Nat} (h : N = w + l) : K * (N + 1) ^ d ≤ K * (w + 1) ^ d * (l + 1) ^ d := by
  rw [Nat.mul_assoc, ← Nat.mul_pow]
  refine Nat.mul_le_mul_left _ (Nat.pow_le_pow_left ?_ _)
  rw [Nat.add_mul, Nat.mul_add]
  omega

/-- C64: the work of `match` is bounded by a power of the length of the subject; the exponent is computed from the
pattern, the constant does not depend on the subject, the flags or the position. -/
theorem C64_match (C : Cfg) {r : Re} (hr : r.progressive = true) :
    ∃ K, ∀ (s : List Ch) (f : Flags) (p n : Nat), p ≤ s.length → r.weight + s.length + 7 ≤ n →
      matchSteps C n s f r p ≤ K * (s.length + 1) ^ r.fullDegree C := by
  have hk : Poly (fun N => mostSt C N [.re .sEnd, .endMark, .accept]) 0 := by
    simp only [mostSt, Re.most]; exact Poly.const _ _
  obtain ⟨K, hK⟩ := (most_poly C r _ _ 0 hk).add_const 1
  refine ⟨K * (r.weight + 7 + 1) ^ r.fullDegree C, fun s f p n hp hn => ?_⟩
  have hx : eval C (r.weight + s.length + 7) s false p f (initCaps r) [.startMark, .re r, .re .sEnd, .endMark, .accept] ≠ .timeout :=
    eval_terminates C _ _ _ _ _ _ _ hp (.inr (by simp [progressiveSt, hr, Re.progressive]))
      (by simp only [weightSt, Re.weight]; omega)
  unfold matchSteps
  rw [steps_mono C hn hx]
  refine Nat.le_trans (steps_le C (r.weight + s.length + 7) _ _ _ _ _ _ _ (Nat.le_refl _) (by omega)) ?_
  refine Nat.le_trans ?_ (Nat.le_trans (hK (r.weight + s.length + 7)) (scale_bound (by omega)))
  exact Nat.le_refl _

/-- C64: the same for `starts_with`. -/
theorem C64_starts_with (C : Cfg) {r : Re} (hr : r.progressive = true) :
    ∃ K, ∀ (s : List Ch) (f : Flags) (p n : Nat), p ≤ s.length → r.weight + s.length + 7 ≤ n →
      startsWithSteps C n s f r p ≤ K * (s.length + 1) ^ r.prefixDegree C := by
  have hk : Poly (fun N => mostSt C N [.endMark, .accept]) 0 := by
    simp only [mostSt]; exact Poly.const _ _
  obtain ⟨K, hK⟩ := (most_poly C r _ _ 0 hk).add_const 1
  refine ⟨K * (r.weight + 7 + 1) ^ r.prefixDegree C, fun s f p n hp hn => ?_⟩
  have hx : eval C (r.weight + s.length + 7) s false p f (initCaps r) [.startMark, .re r, .endMark, .accept] ≠ .timeout :=
    eval_terminates C _ _ _ _ _ _ _ hp (.inr (by simp [progressiveSt, hr])) (by simp only [weightSt]; omega)
  unfold startsWithSteps
  rw [steps_mono C hn hx]
  refine Nat.le_trans (steps_le C (r.weight + s.length + 7) _ _ _ _ _ _ _ (Nat.le_refl _) (by omega)) ?_
  refine Nat.le_trans ?_ (Nat.le_trans (hK (r.weight + s.length + 7)) (scale_bound (by omega)))
  exact Nat.le_refl _

/-- C64: `search` tries at most every position, which adds one to the exponent. -/
theorem C64_search (C : Cfg) {r : Re} (hr : r.progressive = true) :
    ∃ K, ∀ (s : List Ch) (f : Flags) (p n : Nat), p ≤ s.length → r.weight + s.length + 7 ≤ n →
      searchSteps C n s f r p ≤ K * (s.length + 1) ^ (r.prefixDegree C + 1) := by
  obtain ⟨K, hK⟩ := C64_starts_with C hr
  refine ⟨K, fun s f p n hp hn => ?_⟩
  have loop : ∀ k it, it + k ≤ s.length →
      searchLoopSteps C n s f r k it ≤ (k + 1) * (K * (s.length + 1) ^ r.prefixDegree C) := by
    intro k
    induction k with
    | zero => intro it h; rw [searchLoopSteps, Nat.zero_add, Nat.one_mul]; exact hK s f it n (by omega) hn
    | succ k ih =>
      intro it h
      rw [searchLoopSteps, Nat.succ_mul, Nat.add_comm]
      exact Nat.add_le_add (Nat.le_trans (ifFail_le _ _) (ih (it + 1) (by omega))) (hK s f it n (by omega) hn)
  have h1 : searchSteps C n s f r p ≤ (s.length + 1) * (K * (s.length + 1) ^ r.prefixDegree C) := by
    unfold searchSteps
    split
    · exact Nat.le_trans (loop 0 p (by omega)) (Nat.mul_le_mul_right _ (by omega))
    · exact Nat.le_trans (loop _ p (by omega)) (Nat.mul_le_mul_right _ (by omega))
  refine Nat.le_trans h1 (Nat.le_of_eq ?_)
  rw [Nat.pow_succ, ← Nat.mul_assoc, ← Nat.mul_assoc, Nat.mul_comm (s.length + 1) K, Nat.mul_assoc, Nat.mul_assoc,
    Nat.mul_comm (s.length + 1)]

/-- C64: whatever the configuration, the exponent is at most the number of unlimited repetitions and back references;
nesting repetitions does not make the work exponential. -/
theorem C64_exponent (C : Cfg) (r : Re) : r.fullDegree C ≤ r.loops ∧ r.prefixDegree C ≤ r.loops :=
  ⟨degree_le_loops C r _ 0, degree_le_loops C r _ 0⟩

/-- C64: without unlimited repetitions and back references an attempt takes a bounded number of steps, on subjects of
any length. -/
theorem C64_constant (C : Cfg) {r : Re} (hb : r.bounded = true) (hr : r.progressive = true) :
    ∃ K, ∀ (s : List Ch) (f : Flags) (p n : Nat), p ≤ s.length → r.weight + s.length + 7 ≤ n →
      matchSteps C n s f r p ≤ K ∧ startsWithSteps C n s f r p ≤ K := by
  have h1 : r.fullDegree C = 0 := Nat.le_zero.1 (degree_bounded C r _ 0 hb)
  have h2 : r.prefixDegree C = 0 := Nat.le_zero.1 (degree_bounded C r _ 0 hb)
  obtain ⟨K, hK⟩ := C64_match C hr
  obtain ⟨L, hL⟩ := C64_starts_with C hr
  refine ⟨K + L, fun s f p n hp hn => ?_⟩
  have h3 := hK s f p n hp hn
  have h4 := hL s f p n hp hn
  rw [h1, Nat.pow_zero, Nat.mul_one] at h3
  rw [h2, Nat.pow_zero, Nat.mul_one] at h4
  omega

/-- C64: when all unlimited repetitions are possessive and none is inside another, an attempt takes time linear in the
length of the subject, in every configuration. -/
theorem C64_linear (C : Cfg) {r : Re} (hs : r.swift = true) (hr : r.progressive = true) :
    ∃ K, ∀ (s : List Ch) (f : Flags) (p n : Nat), p ≤ s.length → r.weight + s.length + 7 ≤ n →
      matchSteps C n s f r p ≤ K * (s.length + 1) ∧ startsWithSteps C n s f r p ≤ K * (s.length + 1) := by
  have h1 : r.fullDegree C ≤ 1 := degree_swift C r _ 0 hs
  have h2 : r.prefixDegree C ≤ 1 := degree_swift C r _ 0 hs
  obtain ⟨K, hK⟩ := C64_match C hr
  obtain ⟨L, hL⟩ := C64_starts_with C hr
  refine ⟨K + L, fun s f p n hp hn => ?_⟩
  have h3 := Nat.le_trans (hK s f p n hp hn) (Nat.mul_le_mul_left K (pow_mono h1))
  have h4 := Nat.le_trans (hL s f p n hp hn) (Nat.mul_le_mul_left L (pow_mono h2))
  rw [Nat.pow_one] at h3 h4
  rw [Nat.add_mul]
  omega

theorem weight_lazyRow : ∀ d, 2 * d + 2 ≤ weightAll (lazyRow d)
  | 0 => by decide
  | d + 1 => by
    have := weight_lazyRow d
    have hr : lazyRow (d + 1) = lazyA :: lazyRow d := by simp [lazyRow, List.replicate_succ]
    rw [hr]
    simp only [weightAll, lazyA, Re.weight]
    omega

theorem anchor_lazyRow (f : Flags) : ∀ d, anchorSeq f false (lazyRow d) = false
  | 0 => rfl
  | d + 1 => by
    have := anchor_lazyRow f d
    have hr : lazyRow (d + 1) = lazyA :: lazyRow d := by simp [lazyRow, List.replicate_succ]
    rw [hr, anchorSeq, this]
    simp [lazyA, anchorRe, anchorSeq]

/-- The work of one attempt of the row of repetitions. -/
theorem lazyRow_attempt (C : Cfg) (f : Flags) (d N : Nat) {p n : Nat} (hp : p ≤ N) (hn : (Re.seq (lazyRow d)).weight + N + 7 ≤ n) :
    attempt C n (List.replicate N 97) f (.seq (lazyRow d)) p = .fail ∧
    ways d (N - p) ≤ startsWithSteps C n (List.replicate N 97) f (.seq (lazyRow d)) p := by
  have hw := weight_lazyRow d
  simp only [Re.weight] at hn
  obtain ⟨n, rfl⟩ : ∃ k, n = k + 1 := ⟨n - 1, by omega⟩
  obtain ⟨h1, h2⟩ := lazyRow_steps C N d n p f ((initCaps (.seq (lazyRow d))).setStart p) [.endMark, .accept] hp (by omega)
  unfold attempt startsWithSteps
  rw [eval_startMark, if_neg (by simp), steps, if_neg (by simp)]
  exact ⟨h1, Nat.le_trans h2 (by omega)⟩

/-- C64: the exponent cannot be improved: `d` lazy repetitions before a letter that does not occur take at least `kᵈ`
steps on `d·k` letters. -/
theorem C64_needed (C : Cfg) (f : Flags) (d k : Nat) {n : Nat} (hn : (Re.seq (lazyRow d)).weight + d * k + 7 ≤ n) :
    (Re.seq (lazyRow d)).loops = d ∧
    k ^ d ≤ startsWithSteps C n (List.replicate (d * k) 97) f (.seq (lazyRow d)) 0 := by
  refine ⟨?_, Nat.le_trans (pow_le_ways k d) (lazyRow_attempt C f d (d * k) (Nat.zero_le _) hn).2⟩
  simp only [Re.loops]
  induction d with
  | zero => rfl
  | succ d ih =>
    have hr : lazyRow (d + 1) = lazyA :: lazyRow d := by simp [lazyRow, List.replicate_succ]
    have key : ∀ d, loopsAll (lazyRow d) = d := by
      intro d
      induction d with
      | zero => rfl
      | succ d ih =>
        have hr : lazyRow (d + 1) = lazyA :: lazyRow d := by simp [lazyRow, List.replicate_succ]
        rw [hr, loopsAll, ih]
        simp [lazyA, Re.loops, loopsAll]
        omega
    exact key _

/-- C64: nor can the additional one of `search`. -/
theorem C64_search_needed (C : Cfg) (f : Flags) (d k : Nat) {n : Nat}
    (hn : (Re.seq (lazyRow d)).weight + (d + 1) * k + 7 ≤ n) :
    k ^ (d + 1) ≤ searchSteps C n (List.replicate ((d + 1) * k) 97) f (.seq (lazyRow d)) 0 := by
  refine Nat.le_trans (pow_le_ways k (d + 1)) ?_
  generalize (d + 1) * k = N at hn ⊢
  have loop : ∀ j it, it + j = N → ways (d + 1) j ≤ searchLoopSteps C n (List.replicate N 97) f (.seq (lazyRow d)) j it := by
    intro j
    induction j with
    | zero =>
      intro it h
      have := (lazyRow_attempt C f d N (p := it) (by omega) hn).2
      rw [show N - it = 0 from by omega] at this
      rw [ways, searchLoopSteps]
      exact this
    | succ j ih =>
      intro it h
      obtain ⟨h1, h2⟩ := lazyRow_attempt C f d N (p := it) (by omega) hn
      rw [show N - it = j + 1 from by omega] at h2
      rw [ways.eq_3, searchLoopSteps, h1]
      exact Nat.add_le_add h2 (ih (it + 1) (by omega))
  unfold searchSteps
  have ha : startsWithAnchor f (.seq (lazyRow d)) = false := by
    simp only [startsWithAnchor, anchorRe]; exact anchor_lazyRow f d
  rw [ha]
  simp only [Bool.false_eq_true, if_false, List.length_replicate, Nat.sub_zero]
  exact loop N 0 (by omega)

/-! ### Examples -/

/-- `a+` -/
def aPlus : Re := .rep .greedy 1 0 [.cc (.chr 97)]
/-- `(a+)+b`: exponential in engines that backtrack into the body of a repetition -/
def evilPlus : Re := .seq [.rep .greedy 1 0 [.cap 1 none [aPlus]], .cc (.chr 98)]
/-- `(?:a|a)*b` -/
def evilAlt : Re := .seq [.rep .greedy 0 0 [.sel [.cc (.chr 97), .cc (.chr 97)]], .cc (.chr 98)]
/-- `a*a*b` -/
def twoStars : Re := .seq [.rep .greedy 0 0 [.cc (.chr 97)], .rep .greedy 0 0 [.cc (.chr 97)], .cc (.chr 98)]
/-- `[a-z]+=[0-9]++` -/
def keyValue : Re :=
  .seq [.rep .greedy 1 0 [.cc (.set [.range 97 122])], .cc (.chr 61), .rep .poss 1 0 [.cc (.set [.range 48 57])]]

example : evilPlus.progressive = true ∧ evilAlt.progressive = true ∧ twoStars.progressive = true ∧
    keyValue.progressive = true := by decide +kernel

/-- The exponents with the greedy optimisation, and without it. -/
example : evilPlus.prefixDegree {} = 2 ∧ evilAlt.prefixDegree {} = 1 ∧ twoStars.prefixDegree {} = 2 ∧
    keyValue.prefixDegree {} = 1 ∧ keyValue.fullDegree {} = 1 ∧
    keyValue.prefixDegree { greedyOpt := false } = 2 := by decide +kernel

example : (Re.seq [.rep .poss 0 0 [.cc (.chr 97)], .rep .poss 0 0 [.sel [.cc (.chr 98), .str [99, 100]]]]).swift = true ∧
    (Re.seq [.rep .greedy 0 9 [.cc (.chr 97)], .cc (.chr 98)]).bounded = true ∧ keyValue.swift = false := by decide +kernel

/-- Step counts of `(a+)+b` and `a*a*b` on 5, 10 and 20 letters. -/
example : [5, 10, 20].map (fun k => startsWithSteps {} (k + 100) (List.replicate k 97) {} evilPlus 0) = [28, 38, 58] ∧
    [5, 10, 20].map (fun k => startsWithSteps {} (k + 100) (List.replicate k 97) {} twoStars 0) = [86, 211, 611] := by
  decide +kernel

/-- Step counts of `search` with `[a-z]+=[0-9]++` on letters: every position is tried. -/
example : [5, 10, 20].map (fun k => searchSteps {} (k + 100) (List.replicate k 97) {} keyValue 0) = [70, 185, 565] := by
  decide +kernel

/-- The hypotheses of the lower bounds, `a*?a*?b` on six letters. -/
example : (Re.seq (lazyRow 2)).weight + 2 * 3 + 7 ≤ 60 ∧
    9 ≤ startsWithSteps {} 60 (List.replicate 6 97) {} (.seq (lazyRow 2)) 0 := by decide +kernel

end Ctre
