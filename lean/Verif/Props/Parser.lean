import Verif.Lemmas.ParserFuel

/-
C28: the parser decides.
-/
namespace Ctre
open Parse

/-- C28: the rules of the grammar do not overlap: for every nonterminal and every current symbol at most one declared
rule applies, so that choosing a rule (C++: overload resolution) is never ambiguous, and the chosen one is the declared
one. -/
theorem C28_unambiguous (x : NT) (v : Option Nat) {p q : Pat} {r r' : Rhs} (h : (p, r) ∈ rules x) (h' : (q, r') ∈ rules x)
    (ha : p.accepts v = true) (ha' : q.accepts v = true) : r = r' := by
  rw [← rule_of_mem h ha, ← rule_of_mem h' ha']

/-- C28: on every pattern string the parser stops, after a number of steps linear in the length. -/
theorem C28_terminates (P : PropTable) (input : List Nat) {n : Nat} (hn : 12 * input.length + 3 ≤ n) :
    Parse.decide P n none input [.nt .s] {} ≠ .timeout ∧ Parse.decide P n none input [.nt .s] {} = parse P input := by
  have h := parse_terminates P input (n := 12 * input.length + 3) (by omega)
  refine ⟨parse_terminates P input (by omega), ?_⟩
  rw [parse, parseFuel, decide_of_le P hn h,
    decide_of_le P (show 12 * input.length + 3 ≤ 32 * input.length + 32 by omega) h]

/-- C28: building a pattern never runs forever. -/
theorem C28_build_terminates (P : PropTable) (input : List Nat) : build P input ≠ .timeout := by
  have h := (C28_terminates P input (n := 12 * input.length + 3) (Nat.le_refl _))
  unfold build
  rw [← h.2]
  split
  · split <;> simp
  · simp
  · simp
  · rename_i h'; exact (h.1 h').elim

/-- C28: a syntax error is reported at a position inside or at the end of the pattern; when it is inside, every pattern
that agrees up to and including this position is rejected at the same position, whatever follows. -/
theorem C28_error_position (P : PropTable) (input : List Nat) {p : Nat} (h : build P input = .syntaxError p) :
    p ≤ input.length ∧ ∀ input', p < input.length → input'.take (p + 1) = input.take (p + 1) →
      build P input' = .syntaxError p := by
  have key : ∃ rest, parse P input = .reject rest ∧ p = input.length - rest.length := by
    unfold build at h
    split at h
    · split at h <;> simp at h
    · rename_i rest hr; simp only [Built.syntaxError.injEq] at h; exact ⟨rest, hr, h.symm⟩
    · simp at h
    · simp at h
  obtain ⟨rest, hr, rfl⟩ := key
  refine ⟨by omega, ?_⟩
  intro input' hp ht
  obtain ⟨u, hu⟩ := decide_reject_suffix P _ _ _ _ _ _ hr
  cases rest with
  | nil => simp at hp
  | cons v w =>
    subst hu
    have e : (u ++ v :: w).length - (v :: w).length = u.length := by simp
    rw [e] at ht ⊢
    have ht' : (u ++ v :: w).take (u.length + 1) = u ++ [v] := by
      rw [show u ++ v :: w = (u ++ [v]) ++ w by simp, List.take_left' (by simp)]
    rw [ht'] at ht
    obtain ⟨w', rfl⟩ : ∃ w', input' = u ++ v :: w' :=
      ⟨input'.drop (u.length + 1), by rw [← List.take_append_drop (u.length + 1) input', ht]; simp⟩
    have h1 := C28_terminates P (u ++ v :: w) (n := 12 * (u ++ v :: w).length + 12 * (u ++ v :: w').length + 3) (by omega)
    have h2 := C28_terminates P (u ++ v :: w') (n := 12 * (u ++ v :: w).length + 12 * (u ++ v :: w').length + 3) (by omega)
    rw [hr] at h1
    have := decide_reject_local P _ _ _ _ _ w' _ _ h1.2
    rw [this] at h2
    unfold build
    rw [← h2.2]
    simp

/-- C28, the claim "every pattern is accepted or rejected" fails: for some patterns no semantic action applies and the
program does not compile for another reason than the syntax check: `[[:alpha:]-z]`, `((?im)a)`, `\x{100000000}`,
`(?<n>\g{m})`. -/
theorem C28_fails_undecided :
    build {} [91, 91, 58, 97, 108, 112, 104, 97, 58, 93, 45, 122, 93] = .ill ∧
    build {} [40, 40, 63, 105, 109, 41, 97, 41] = .ill ∧
    build {} [92, 120, 123, 49, 48, 48, 48, 48, 48, 48, 48, 48, 125] = .ill ∧
    build {} [40, 63, 60, 110, 62, 92, 103, 123, 109, 125, 41] = .ill := by
  exact ⟨rfl, rfl, rfl, rfl⟩

/-! ### Cases -/

-- `a(b|c)*` is accepted, `a(b` and `a)b` are rejected at the end and at the parenthesis
example : build {} [97, 40, 98, 124, 99, 41, 42] =
    .pattern (.seq [.cc (.chr 97), .rep .greedy 0 0 [.cap 1 none [.sel [.cc (.chr 98), .cc (.chr 99)]]]]) := rfl
example : build {} [97, 40, 98] = .syntaxError 3 := rfl
example : build {} [97, 41, 98] = .syntaxError 1 := rfl
-- two rules of one nonterminal, and the symbol `[` to which only one of them applies
example : (Pat.term 91, Rhs.push [.any, .nt .c, .nt .rept, .nt .string2, .nt .content2]) ∈ rules .s ∧
    (Pat.term 91).accepts (some 91) = true := by decide

end Ctre
