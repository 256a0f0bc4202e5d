import Verif.Lemmas.Compiles
import Verif.Lemmas.SafeApi
import Verif.Props.Terminates
import Verif.Props.Bounds

/-
C44: every call yields a result.
-/
namespace Ctre

/-- The pattern compiles under `C`: every group and back reference refers to a group of the result, nothing
unsupported is inside a lookbehind, and, if greedy repetitions are optimised, they can be analysed. -/
structure Compiles (C : Cfg) (r : Re) : Prop where
  tame : r.tame (groupIds r.captures) (groupNames r.captures) false = true
  scans : C.greedyOpt = false ∨ r.scannable true = true

theorem attempt_ne_ill {C : Cfg} {r : Re} (h : Compiles C r) (n : Nat) (s : List Ch) (f : Flags) (p : Nat) :
    attempt C n s f r p ≠ .ill := by
  refine (eval_fine (sh := shape r.captures) _ _ _ _ _ _ _ ?_ ?_ rfl).1
  · rw [← groupIds_shape, ← groupNames_shape]
    simp [tameSt, h.tame]
  · rcases h.scans with h | h
    · exact .inl h
    · exact .inr (.inr (by simp [scannableSt, scansSt, h]))

theorem attemptFull_ne_ill {C : Cfg} {r : Re} (h : Compiles C r) (n : Nat) (s : List Ch) (f : Flags) (p : Nat) :
    attemptFull C n s f r p ≠ .ill := by
  refine (eval_fine (sh := shape r.captures) _ _ _ _ _ _ _ ?_ ?_ rfl).1
  · rw [← groupIds_shape, ← groupNames_shape]
    simp [tameSt, h.tame, Re.tame]
  · rcases h.scans with h | h
    · exact .inl h
    · exact .inr (.inr (by simp [scannableSt, scansSt, Re.scans, Re.scannable, h]))

theorem searchLoop_ne_ill {C : Cfg} {r : Re} (h : Compiles C r) (n : Nat) (s : List Ch) (f : Flags) :
    ∀ k p, searchLoop C n s f r k p ≠ .ill := by
  intro k
  induction k with
  | zero =>
    intro p
    have := attempt_ne_ill h n s f p
    unfold searchLoop
    cases ho : attempt C n s f r p <;> simp_all [Out.toExec]
  | succ k ih =>
    intro p
    have := attempt_ne_ill h n s f p
    unfold searchLoop
    cases ho : attempt C n s f r p <;> simp_all [Out.toExec]

/-- C44, compilation: no call instantiates something that does not compile. -/
theorem C44_compiles {C : Cfg} {r : Re} (h : Compiles C r) (n : Nat) (s : List Ch) (f : Flags) (p : Nat) :
    matchAt C n s f r p ≠ .ill ∧ startsWithAt C n s f r p ≠ .ill ∧ searchAt C n s f r p ≠ .ill := by
  refine ⟨?_, ?_, searchLoop_ne_ill h n s f _ _⟩
  · have := attemptFull_ne_ill h n s f p
    unfold matchAt
    cases ho : attemptFull C n s f r p <;> simp_all [Out.toExec]
  · have := attempt_ne_ill h n s f p
    unfold startsWithAt
    cases ho : attempt C n s f r p <;> simp_all [Out.toExec]

/-- C44: every `match`, `starts_with` and `search` compiles, reads only the subject, and returns. -/
theorem C44_every_call_yields_a_result {C : Cfg} {r : Re} (hc : Compiles C r) (hr : r.Numbered)
    (hp : r.progressive = true) (s : List Ch) (f : Flags) {p n : Nat} (hs : p ≤ s.length) (hn : r.weight + s.length + 7 ≤ n) :
    (∃ c, matchAt C n s f r p = .done c) ∧ (∃ c, startsWithAt C n s f r p = .done c) ∧
      ∃ c, searchAt C n s f r p = .done c := by
  obtain ⟨a1, a2, a3⟩ := C44_compiles hc n s f p
  obtain ⟨b1, b2, b3⟩ := C08_no_out_of_bounds (C := C) (n := n) (f := f) hr hs
  obtain ⟨c1, c2, c3⟩ := C09_terminates C s f hp hs hn
  refine ⟨?_, ?_, ?_⟩
  · cases ho : matchAt C n s f r p <;> simp_all
  · cases ho : startsWithAt C n s f r p <;> simp_all
  · cases ho : searchAt C n s f r p <;> simp_all

/-! ### Cases -/

/-- `(?<x>[^a-f]+)(?<=z)\k{x}(?=a*)(b|c)*\2\b` with a lookbehind, a named and a numbered back reference. -/
def sampleCompiles : Re := .seq [
  .cap 1 (some [120]) [.rep .greedy 1 0 [.cc (.negSet [.range 97 102])]],
  .behind true [.cc (.chr 122)], .brefName [120], .ahead true [.rep .greedy 0 0 [.cc (.chr 97)]],
  .rep .greedy 0 0 [.cap 2 none [.sel [.cc (.chr 98), .cc (.chr 99)]]], .bref 2, .boundary wordChars]

example : Compiles {} sampleCompiles := ⟨by decide +kernel, .inr (by decide +kernel)⟩
example : sampleCompiles.Numbered := ⟨by decide +kernel, by decide +kernel⟩
example : sampleCompiles.progressive = true := by decide +kernel
-- on "zzbb"
example : (cSearch {} 200 [122, 122, 98, 98] {} sampleCompiles).success = true := by decide +kernel

/-- `a*(?i)b` does not compile, unless the optimisation is disabled: the analysis of first characters does not know
mode switches. -/
theorem C44_fails_mode :
    cMatch {} 20 [97] {} (.seq [.rep .greedy 0 0 [.cc (.chr 97)], .mode .caseInsensitive, .cc (.chr 98)]) = .ill ∧
    Compiles { greedyOpt := false } (.seq [.rep .greedy 0 0 [.cc (.chr 97)], .mode .caseInsensitive, .cc (.chr 98)]) :=
  ⟨by decide +kernel, by decide +kernel, .inl rfl⟩

/-- `[^\W]*b` does not compile, unless the optimisation is disabled: the analysis does not know negative sets inside
negative sets. -/
theorem C44_fails_negative_set :
    cMatch {} 20 [97] {} (.seq [.rep .greedy 0 0 [.cc (.negSet [.negSet [wordChars]])], .cc (.chr 98)]) = .ill ∧
    Compiles { greedyOpt := false } (.seq [.rep .greedy 0 0 [.cc (.negSet [.negSet [wordChars]])], .cc (.chr 98)]) :=
  ⟨by decide +kernel, by decide +kernel, .inl rfl⟩

/-- `(?<=a*)` and `(?<=(a))` do not compile. -/
theorem C44_fails_lookbehind :
    cMatch {} 20 [97] {} (.behind true [.rep .greedy 0 0 [.cc (.chr 97)]]) = .ill ∧
    cMatch {} 20 [97] {} (.behind true [.cap 1 none [.cc (.chr 97)]]) = .ill := ⟨by decide +kernel, by decide +kernel⟩

/-- `(?>(a))` does not compile. -/
theorem C44_fails_atomic : cMatch {} 20 [97] {} (.atomic [.cap 1 none [.cc (.chr 97)]]) = .ill := by decide +kernel

end Ctre
