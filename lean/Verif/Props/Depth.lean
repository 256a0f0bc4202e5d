import Verif.Lemmas.Depth
import Verif.Lemmas.DepthMono
import Verif.Lemmas.StepsSharp

/-
C65: how deeply the calls of the matcher are nested.
-/
namespace Ctre

/-- C65: the calls of the matcher are nested at most as deep as the size of the pattern plus the length of the rest of
the subject, however long they run. -/
theorem C65_depth (C : Cfg) {r : Re} (hr : r.progressive = true) (n : Nat) (s : List Ch) (f : Flags) {p : Nat}
    (hp : p ≤ s.length) :
    matchDepth C n s f r p ≤ r.weight + 5 + (s.length - p) ∧
    startsWithDepth C n s f r p ≤ r.weight + 4 + (s.length - p) ∧
    searchDepth C n s f r p ≤ r.weight + 4 + (s.length - p) := by
  have hc : ∀ t, r.calm true C t = true := fun t => calm_progressive C r t hr
  have h1 := depth_le true C n s false p f (initCaps r) [.startMark, .re r, .re .sEnd, .endMark, .accept] hp
    (.inr (by simp [calmSt, hc, Re.calm]))
  have h2 : ∀ p, p ≤ s.length → startsWithDepth C n s f r p ≤ r.weight + 4 + (s.length - p) := by
    intro p hp
    have h2 := depth_le true C n s false p f (initCaps r) [.startMark, .re r, .endMark, .accept] hp
      (.inr (by simp [calmSt, hc]))
    simp only [weightSt, extra, Bool.not_false, Bool.and_self, if_true] at h2
    unfold startsWithDepth; omega
  simp only [weightSt, Re.weight, extra, Bool.not_false, Bool.and_self, if_true] at h1
  refine ⟨by unfold matchDepth; omega, h2 p hp, ?_⟩
  have loop : ∀ k it, p ≤ it → it + k ≤ s.length → searchLoopDepth C n s f r k it ≤ r.weight + 4 + (s.length - p) := by
    intro k
    induction k with
    | zero => intro it h h'; rw [searchLoopDepth]; have := h2 it (by omega); omega
    | succ k ih =>
      intro it h h'
      rw [searchLoopDepth]
      have h3 := h2 it (by omega)
      have h4 := ih (it + 1) (by omega) (by omega)
      have h5 := ifFail_le (attempt C n s f r it) (searchLoopDepth C n s f r k (it + 1))
      omega
  unfold searchDepth
  split
  · exact loop 0 p (Nat.le_refl _) (by omega)
  · exact loop _ p (Nat.le_refl _) (by omega)

/-- C65: when all unlimited greedy repetitions are replaced by possessive ones, the depth does not depend on the
subject. -/
theorem C65_shallow (C : Cfg) {r : Re} (n : Nat) (s : List Ch) (f : Flags) {p : Nat} (hp : p ≤ s.length) :
    (r.shallow C [.re .sEnd, .endMark, .accept] = true → matchDepth C n s f r p ≤ r.weight + 5) ∧
    (r.shallow C [.endMark, .accept] = true → startsWithDepth C n s f r p ≤ r.weight + 4 ∧ searchDepth C n s f r p ≤ r.weight + 4) := by
  refine ⟨fun hr => ?_, fun hr => ?_⟩
  · have h1 := depth_le false C n s false p f (initCaps r) [.startMark, .re r, .re .sEnd, .endMark, .accept] hp
      (.inr (by simp [calmSt, calm_shallow, hr, Re.calm, Re.shallow]))
    simp only [weightSt, Re.weight, extra, Bool.false_and, Bool.false_eq_true, if_false] at h1
    unfold matchDepth; omega
  · have h2 : ∀ p, p ≤ s.length → startsWithDepth C n s f r p ≤ r.weight + 4 := by
      intro p hp
      have h2 := depth_le false C n s false p f (initCaps r) [.startMark, .re r, .endMark, .accept] hp
        (.inr (by simp [calmSt, calm_shallow, hr]))
      simp only [weightSt, extra, Bool.false_and, Bool.false_eq_true, if_false] at h2
      unfold startsWithDepth; omega
    refine ⟨h2 p hp, ?_⟩
    have loop : ∀ k it, it + k ≤ s.length → searchLoopDepth C n s f r k it ≤ r.weight + 4 := by
      intro k
      induction k with
      | zero => intro it h; rw [searchLoopDepth]; exact h2 it (by omega)
      | succ k ih =>
        intro it h
        rw [searchLoopDepth]
        have h3 := h2 it (by omega)
        have h4 := ih (it + 1) (by omega)
        have h5 := ifFail_le (attempt C n s f r it) (searchLoopDepth C n s f r k (it + 1))
        omega
    unfold searchDepth
    split
    · exact loop 0 p (by omega)
    · exact loop _ p (by omega)

/-- C65: in particular for patterns in which the unlimited repetitions are lazy or possessive, in every configuration. -/
theorem C65_ungreedy (C : Cfg) {r : Re} (hr : r.ungreedy = true) (n : Nat) (s : List Ch) (f : Flags) {p : Nat}
    (hp : p ≤ s.length) :
    matchDepth C n s f r p ≤ r.weight + 5 ∧ startsWithDepth C n s f r p ≤ r.weight + 4 ∧
    searchDepth C n s f r p ≤ r.weight + 4 :=
  ⟨(C65_shallow C n s f hp).1 (shallow_ungreedy C r _ hr), (C65_shallow C n s f hp).2 (shallow_ungreedy C r _ hr)⟩

/-- C65: with the fuel that suffices for termination the depth is that of the finished call. -/
theorem C65_finished (C : Cfg) {r : Re} (hr : r.progressive = true) (s : List Ch) (f : Flags) {p n : Nat}
    (hp : p ≤ s.length) (hn : r.weight + s.length + 7 ≤ n) :
    matchDepth C n s f r p = matchDepth C (r.weight + s.length + 7) s f r p ∧
    startsWithDepth C n s f r p = startsWithDepth C (r.weight + s.length + 7) s f r p :=
  ⟨depth_mono C hn (eval_terminates C _ _ _ _ _ _ _ hp (.inr (by simp [progressiveSt, hr, Re.progressive]))
      (by simp only [weightSt, Re.weight]; omega)),
   depth_mono C hn (eval_terminates C _ _ _ _ _ _ _ hp (.inr (by simp [progressiveSt, hr])) (by simp only [weightSt]; omega))⟩

/-- `a*a` -/
def starA : Re := .seq [.rep .greedy 0 0 [.cc (.chr 97)], .cc (.chr 97)]

theorem greedyDepth_ge (C : Cfg) (N n : Nat) (t : Stack) (f : Flags) : ∀ j m i p c, p + j = N → j + 1 ≤ m →
    j + 1 ≤ greedyDepth
      (fun p c' => eval C (n + 2) (List.replicate N (97 : Ch)) false p f.notEmpty c' (items [.cc (.chr 97)] [.endCycle]))
      (fun p c' => eval C (n + 2) (List.replicate N (97 : Ch)) false p (f.consumed true) c' t)
      (fun p c' => depth C (n + 2) (List.replicate N (97 : Ch)) false p f.notEmpty c' (items [.cc (.chr 97)] [.endCycle]))
      (fun p c' => depth C (n + 2) (List.replicate N (97 : Ch)) false p (f.consumed true) c' t) 0 m i p c
  | 0, m + 1, i, p, c, _, _ => by rw [greedyDepth]; omega
  | j + 1, m + 1, i, p, c, hp, hm => by
    obtain ⟨c', hc⟩ := body_a C N (n := n) f c (by omega : p < N)
    have h1 := greedyDepth_ge C N n t f j m (i + 1) (p + 1) c' (by omega) (by omega)
    rw [greedyDepth, if_pos (by simp [lessInf]), hc]
    simp only
    have key : ∀ x y z : Nat, j + 1 ≤ y → j + 1 + 1 ≤ 1 + max x (max y z) := by intros; omega
    exact key _ _ _ h1

/-- C65: the linear depth is needed: `a*a` on `N` letters nests at least `N` calls, with and without the greedy
optimisation. -/
theorem C65_needed (C : Cfg) (f : Flags) (N : Nat) {n : Nat} (hn : starA.weight + N + 7 ≤ n) :
    N ≤ startsWithDepth C n (List.replicate N 97) f starA 0 := by
  have hw : starA.weight = 10 := by decide +kernel
  obtain ⟨n, rfl⟩ : ∃ k, n = k + 5 := ⟨n - 5, by omega⟩
  have hL : (if C.greedyOpt = true then loopCollides [.cc (.chr 97)] [.re (.seq [.cc (.chr 97)]), .endMark, .accept] else some true)
      = some true := by
    split
    · decide +kernel
    · rfl
  unfold startsWithDepth
  rw [depth, if_neg (by simp), starA, depth]
  · rw [depth, if_neg (by simp), if_neg (by simp), hL]
    simp only [mandLoop, mandDepth]
    have h1 := greedyDepth_ge C N n [.re (.seq [.cc (.chr 97)]), .endMark, .accept] f N (n + 2) 0 0
      ((initCaps starA).setStart 0) (by omega) (by omega)
    have key : ∀ x : Nat, N + 1 ≤ x → N ≤ 1 + (1 + (1 + max 0 x)) := by intros; omega
    exact key _ h1
  all_goals simp

/-! ### Examples -/

/-- `[a-z]+=[0-9]+;` -/
def assignment : Re :=
  .seq [.rep .greedy 1 0 [.cc (.set [.range 97 122])], .cc (.chr 61), .rep .greedy 1 0 [.cc (.set [.range 48 57])], .cc (.chr 59)]

/-- With the optimisation the repetitions do not nest calls, without it they do. -/
example : assignment.progressive = true ∧ assignment.shallow {} [.endMark, .accept] = true ∧
    assignment.shallow {} [.re .sEnd, .endMark, .accept] = true ∧
    assignment.shallow { greedyOpt := false } [.endMark, .accept] = false ∧ starA.shallow {} [.endMark, .accept] = false := by
  decide +kernel

example : (Re.seq [.rep .lazy 0 0 [.any], .cc (.chr 98), .rep .poss 0 0 [.any], .rep .greedy 0 5 [.any]]).ungreedy = true := by
  decide +kernel

/-- Depths on 10 and 20 letters. -/
example : [10, 20].map (fun k => startsWithDepth {} (k + 100) (List.replicate k 97) {} assignment 0) = [6, 6] ∧
    [10, 20].map (fun k => startsWithDepth { greedyOpt := false } (k + 100) (List.replicate k 97) {} assignment 0) = [15, 25] ∧
    [10, 20].map (fun k => startsWithDepth {} (k + 100) (List.replicate k 97) {} starA 0) = [17, 27] := by decide +kernel

end Ctre
