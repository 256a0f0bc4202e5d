import Verif.Lemmas.Mono
import Verif.Model.Wrapper

/-
C43: the loop used for greedy repetition when CTRE_MSVC_GREEDY_WORKAROUND is defined.
-/
namespace Ctre

/-- C43: the evaluation gives the same outcome with and without the workaround, for every amount of fuel. -/
theorem C43_msvc_eval (C : Cfg) : ∀ n, eval { C with msvc := true } n = eval { C with msvc := false } n := by
  intro n
  induction n with
  | zero => rfl
  | succ n ih =>
    funext s lb cur f c st
    unfold eval
    simp only [ih, greedyRecRef_eq, if_true, Bool.false_eq_true, if_false]

/-- C43: all entry points give the same result with and without the workaround. -/
theorem C43_msvc_same_results (C : Cfg) (n : Nat) (s : List Ch) (f : Flags) (r : Re) (p : Nat) :
    matchAt { C with msvc := true } n s f r p = matchAt { C with msvc := false } n s f r p ∧
    startsWithAt { C with msvc := true } n s f r p = startsWithAt { C with msvc := false } n s f r p ∧
    searchAt { C with msvc := true } n s f r p = searchAt { C with msvc := false } n s f r p := by
  have ha : ∀ p, attempt { C with msvc := true } n s f r p = attempt { C with msvc := false } n s f r p := by
    intro p; unfold attempt; rw [C43_msvc_eval]
  refine ⟨?_, ?_, ?_⟩
  · unfold matchAt attemptFull; rw [C43_msvc_eval]
  · unfold startsWithAt; rw [ha]
  · unfold searchAt
    generalize (if startsWithAnchor f r = true then 0 else s.length - p) = k
    induction k generalizing p with
    | zero => unfold searchLoop; rw [ha]
    | succ k ih => unfold searchLoop; rw [ha, ih]

-- a pattern where the loop gives characters back: `[ab]*b` on "abab"
example : cMatch { msvc := true } 40 [97, 98, 97, 98] {} (.seq [.rep .greedy 0 0 [.cc (.range 97 98)], .cc (.chr 98)]) =
    .done { whole := ⟨some 0, some 4, true⟩ } := by decide +kernel

end Ctre
