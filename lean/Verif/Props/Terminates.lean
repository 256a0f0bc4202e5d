import Verif.Lemmas.Terminates
import Verif.Model.Wrapper

/-
C09: matching terminates.
-/
namespace Ctre

/-- C09: every attempt returns, for every pattern in which each successful iteration of an unbounded repetition
consumes something (`Re.progressive`). The fuel needed is linear in the pattern and the subject. -/
theorem C09_terminates (C : Cfg) (s : List Ch) (f : Flags) {r : Re} (hr : r.progressive = true) {p n : Nat}
    (hp : p ≤ s.length) (hn : r.weight + s.length + 7 ≤ n) :
    matchAt C n s f r p ≠ .timeout ∧ startsWithAt C n s f r p ≠ .timeout ∧ searchAt C n s f r p ≠ .timeout := by
  have exec : ∀ o : Out, o ≠ .timeout → o.toExec r ≠ .timeout := by intro o; cases o <;> simp [Out.toExec]
  have h1 : attemptFull C n s f r p ≠ .timeout :=
    eval_terminates C _ _ _ _ _ _ _ hp (.inr (by simp [progressiveSt, hr, Re.progressive])) (by simp only [weightSt, Re.weight]; omega)
  have h2 : ∀ p, p ≤ s.length → attempt C n s f r p ≠ .timeout := fun p hp =>
    eval_terminates C _ _ _ _ _ _ _ hp (.inr (by simp [progressiveSt, hr])) (by simp only [weightSt]; omega)
  refine ⟨exec _ h1, exec _ (h2 p hp), ?_⟩
  have loop : ∀ k p, p + k ≤ s.length → searchLoop C n s f r k p ≠ .timeout := by
    intro k
    induction k with
    | zero =>
      intro p hp
      have := h2 p (by omega)
      unfold searchLoop
      split
      · simp
      · exact exec _ this
    | succ k ih =>
      intro p hp
      have := h2 p (by omega)
      unfold searchLoop
      split
      · exact ih _ (by omega)
      · exact exec _ this
  unfold searchAt
  apply loop
  split <;> omega

/-- C09, without the model's fuel: there is a result, and it is the result for every larger amount of fuel. -/
theorem C09_defined (C : Cfg) (s : List Ch) (f : Flags) {r : Re} (hr : r.progressive = true) {p : Nat} (hp : p ≤ s.length) :
    ∃ o, o ≠ .timeout ∧ ∀ n, r.weight + s.length + 7 ≤ n → matchAt C n s f r p = o := by
  refine ⟨_, (C09_terminates C s f hr hp (Nat.le_refl _)).1, fun n hn => ?_⟩
  unfold matchAt
  congr 1
  exact eval_of_le C hn rfl (fun h => (C09_terminates C s f hr hp (Nat.le_refl _)).1 (by unfold matchAt; rw [h]; rfl))

/-- `(?:a*a?)*` -/
def divergent : Re := .rep .greedy 0 0 [.rep .greedy 0 0 [.cc (.chr 97)], .rep .greedy 0 1 [.cc (.chr 97)]]

theorem divergent_stays (C : Cfg) (n : Nat) (f : Flags) (c : Caps) (hf : f.ci = false) :
    let body := fun p c' => eval C n [98] false p f.notEmpty c'
      (items [.rep .greedy 0 0 [.cc (.chr 97)], .rep .greedy 0 1 [.cc (.chr 97)]] [.endCycle])
    step body 0 c = .stop .timeout ∨ ∃ c', step body 0 c = .go 0 c' := by
  intro body
  have h : eval C 12 [98] false 0 f.notEmpty c
      (items [.rep .greedy 0 0 [.cc (.chr 97)], .rep .greedy 0 1 [.cc (.chr 97)]] [.endCycle]) =
      .ok (c.setEnd 0).setMatched := by
    obtain ⟨blk, ml, ci⟩ := f
    obtain ⟨opt, msvc, uni⟩ := C
    simp only at hf
    subst hf
    cases opt <;> cases msvc <;> rfl
  have hb : body 0 c = .timeout ∨ body 0 c = .ok (c.setEnd 0).setMatched := by
    rcases Nat.le_total n 12 with hn | hn
    · rcases eval_mono C hn [98] false 0 f.notEmpty c _ with h' | h'
      · exact .inl h'
      · exact .inr (h'.trans h)
    · exact .inr (eval_of_le C hn h (by simp))
  unfold step
  rcases hb with hb | hb
  · rw [hb]; exact .inl rfl
  · rw [hb]; exact .inr ⟨_, rfl⟩

/-- C09 is false in general: matching `(?:a*a?)*` against "b" does not return, with and without the optimisation of
greedy repetitions. -/
theorem C09_diverges (C : Cfg) (n : Nat) : cMatch C n [98] {} divergent = .timeout := by
  unfold cMatch matchAt attemptFull divergent
  rcases n with _ | _ | n
  · rfl
  · rfl
  · rw [eval_startMark, if_neg (by simp), eval_greedy, if_neg (by simp), if_neg (by simp)]
    have hL : loopCollides [.rep .greedy 0 0 [.cc (.chr 97)], .rep .greedy 0 1 [.cc (.chr 97)]]
        [.re .sEnd, .endMark, .accept] = some false := by decide +kernel
    rw [hL]
    cases C.greedyOpt
    · simp only [Bool.false_eq_true, if_false, mandLoop, greedyRecRef_eq, ite_self]
      rw [greedyRec_stuck (fun c => divergent_stays C n {} c rfl)]
      rfl
    · simp only [if_true]
      cases n with
      | zero => rfl
      | succ n =>
        rw [eval_poss, if_neg (by simp), if_neg (by simp), possLoop_stuck (fun c => divergent_stays C n {} c rfl)]
        rfl

-- `(?:a|b+?c?)*(?:x*y)+(?=(?:z{2,3})*)`
def sampleProgressive : Re := .seq [
  .rep .greedy 0 0 [.sel [.cc (.chr 97), .seq [.rep .lazy 1 0 [.cc (.chr 98)], .rep .lazy 0 1 [.cc (.chr 99)]]]],
  .rep .greedy 1 0 [.rep .greedy 0 0 [.cc (.chr 120)], .cc (.chr 121)],
  .ahead true [.rep .greedy 0 0 [.rep .greedy 2 3 [.cc (.chr 122)]]]]

example : sampleProgressive.progressive = true := by decide
example : divergent.progressive = false := by decide
example : (cSearch {} 60 [97, 98, 99, 120, 121, 121, 122, 122] {} sampleProgressive).success = true := by decide +kernel

end Ctre
