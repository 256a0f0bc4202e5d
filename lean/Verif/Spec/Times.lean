import Verif.Spec.Semantics
import Verif.Spec.Runs

/-
How often a repetition is repeated.
-/
namespace Ctre

/-- A character class or the dot takes the character at position `p`. -/
def takes (U : Uni) (s : List Ch) (f : Flags) (p : Nat) : Re → Prop
  | .cc c => inClass U f.ci s p c
  | .any => p < s.length ∧ ¬ (f.ml = true ∧ newlineAt s p)
  | _ => False

/-- Single-character patterns. -/
def Re.isSingle : Re → Bool
  | .cc _ => true
  | .any => true
  | _ => false

/-- `k` characters from `p` can be taken, and `a` to `b` are wanted (`b = 0`: no upper limit). -/
def CanTake (U : Uni) (s : List Ch) (f : Flags) (x : Re) (a b p k : Nat) : Prop :=
  a ≤ k ∧ (b = 0 ∨ k ≤ b) ∧ ∀ j, j < k → takes U s f (p + j) x

/-- The outcome of the largest number of iterations whose continuation does not fail, or failure if all
continuations fail.  `K k o`: the continuation after `k` iterations has outcome `o`. -/
def MostTimes (adm : Nat → Prop) (K : Nat → Out → Prop) (o : Out) : Prop :=
  (o = .fail ∧ ∀ k, adm k → K k .fail) ∨
  (o ≠ .fail ∧ ∃ k, adm k ∧ K k o ∧ ∀ k', k < k' → adm k' → K k' .fail)

/-- The outcome of the smallest number of iterations whose continuation does not fail. -/
def FewestTimes (adm : Nat → Prop) (K : Nat → Out → Prop) (o : Out) : Prop :=
  (o = .fail ∧ ∀ k, adm k → K k .fail) ∨
  (o ≠ .fail ∧ ∃ k, adm k ∧ K k o ∧ ∀ k', k' < k → adm k' → K k' .fail)

/-- The outcome of the largest number of iterations, whatever the continuation says. -/
def AllTimes (adm : Nat → Prop) (K : Nat → Out → Prop) (o : Out) : Prop :=
  (o = .fail ∧ ∀ k, ¬ adm k) ∨
  (∃ k, adm k ∧ K k o ∧ ∀ k', adm k' → k' ≤ k)

/-- The captures after an iteration of a loop that ends at `p`: nothing but the internal end position
changes, which is overwritten when the attempt succeeds. -/
def Caps.endedAt (c : Caps) (p : Nat) : Caps := { c with whole := { c.whole with e := some p, matched := false } }

/-- Captures after `k` iterations of one character each, starting at `p`. -/
def Caps.afterChars (c : Caps) (p k : Nat) : Caps := if k = 0 then c else c.endedAt (p + k)

end Ctre
