import Verif.Model.Atoms
import Verif.Spec.Iterate

/-
Declarative meaning of patterns: which stretches of the subject a pattern matches.

This file is the specification used by the soundness and completeness theorems.  It does not mention
the evaluation machine.  `Re.Match E r s σ τ` says: started in state `σ`, the pattern `r` can match the
stretch of the subject `s` from `σ.pos` to `τ.pos` and then the captures are `τ.cap`.
-/
namespace Ctre

/-- A point in the matching process: position, the two modes, and for every group number the span it
has captured last. -/
structure MState where
  pos : Nat
  multiline : Bool
  caseless : Bool
  cap : Nat → Option (Nat × Nat)

/-- What a pattern refers to: the meaning of Unicode properties and the number of a named group. -/
structure Env where
  uni : Uni := fun _ _ => false
  number : List Nat → Option Nat := fun _ => none

/-- The text between two positions. -/
def text (s : List Ch) (b e : Nat) : List Ch := (s.drop b).take (e - b)

/-- The character at position `i` belongs to the class. -/
def inClass (U : Uni) (ci : Bool) (s : List Ch) (i : Nat) (c : CC) : Prop :=
  ∃ v, s[i]? = some v ∧ c.matchChar U ci v = true

/-- At position `p`, exactly one of the two neighbouring characters belongs to the class; a missing
neighbour does not belong. -/
def atBoundary (U : Uni) (ci : Bool) (s : List Ch) (p : Nat) (c : CC) : Prop :=
  ¬ ((0 < p ∧ inClass U ci s (p - 1) c) ↔ inClass U ci s p c)

/-- A newline character at position `i`. -/
def newlineAt (s : List Ch) (i : Nat) : Prop := s[i]? = some 10

/-- Zero-width conditions. -/
def Holds (U : Uni) (s : List Ch) (σ : MState) : Re → Prop
  | .sBegin => σ.pos = 0
  | .sEnd => σ.pos = s.length
  | .sEndLine => σ.pos = s.length ∨ (σ.multiline = true ∧ newlineAt s σ.pos ∧ σ.pos + 1 = s.length)
  | .lBegin => σ.pos = 0 ∨ (σ.multiline = true ∧ newlineAt s (σ.pos - 1))
  | .lEnd => σ.pos = s.length ∨ (σ.multiline = true ∧ newlineAt s σ.pos)
  | .boundary c => atBoundary U σ.caseless s σ.pos c
  | .notBoundary c => ¬ atBoundary U σ.caseless s σ.pos c
  | _ => False

/-- An inline mode. -/
def MState.setMode (σ : MState) : Mode → MState
  | .caseInsensitive => { σ with caseless := true }
  | .caseSensitive => { σ with caseless := false }
  | .singleline => { σ with multiline := false }
  | .multiline => { σ with multiline := true }

/-- Group `id` has captured the span from `b` to `e`. -/
def MState.setCap (σ : MState) (id b e : Nat) : MState :=
  { σ with cap := fun i => if i = id then some (b, e) else σ.cap i }

/-- The text of group `id` occurs again at the current position. -/
def Again (s : List Ch) (σ τ : MState) (id : Nat) : Prop :=
  ∃ b e, σ.cap id = some (b, e) ∧ b ≤ e ∧ σ.pos + (e - b) ≤ s.length ∧
    text s b e = text s σ.pos (σ.pos + (e - b)) ∧ τ = { σ with pos := σ.pos + (e - b) }

mutual
/-- `r` matches from `σ` to `τ`.  Greedy, lazy and possessive repetition have the same matches; they
differ in which one is preferred.  The content of a lookbehind is stored mirrored and describes the
text before the position read from right to left, so it is matched against the reversed subject. -/
def Re.Match (E : Env) : Re → List Ch → MState → MState → Prop
  | .cc c, s, σ, τ => inClass E.uni σ.caseless s σ.pos c ∧ τ = { σ with pos := σ.pos + 1 }
  | .any, s, σ, τ => σ.pos < s.length ∧ ¬ (σ.multiline = true ∧ newlineAt s σ.pos) ∧
      τ = { σ with pos := σ.pos + 1 }
  | .str cs, s, σ, τ => (∀ (i : Nat) (h : i < cs.length), inClass E.uni σ.caseless s (σ.pos + i) (.chr cs[i])) ∧
      τ = { σ with pos := σ.pos + cs.length }
  | .sel l, s, σ, τ => MatchAny E l s σ τ
  | .seq l, s, σ, τ => MatchAll E l s σ τ
  | .empty, _, σ, τ => τ = σ
  | .rep _ a b l, s, σ, τ => ∃ k, a ≤ k ∧ (b = 0 ∨ k ≤ b) ∧
      Iterate (fun σ τ => ∃ ρ, MatchAll E l s σ ρ ∧
        τ = { ρ with multiline := σ.multiline, caseless := σ.caseless }) k σ τ
  | .cap id _ l, s, σ, τ => ∃ ρ, MatchAll E l s σ ρ ∧ τ = ρ.setCap id σ.pos ρ.pos
  | .bref id, s, σ, τ => Again s σ τ id
  | .brefName n, s, σ, τ => ∃ id, E.number n = some id ∧ Again s σ τ id
  | .ahead true l, s, σ, τ => ∃ ρ, MatchAll E l s σ ρ ∧ τ = { σ with cap := ρ.cap }
  | .ahead false l, s, σ, τ => (¬ ∃ ρ, MatchAll E l s σ ρ) ∧ τ = σ
  | .behind true l, s, σ, τ => ∃ ρ, MatchAll E l s.reverse { σ with pos := s.length - σ.pos } ρ ∧
      τ = { σ with cap := ρ.cap }
  | .behind false l, s, σ, τ =>
      (¬ ∃ ρ, MatchAll E l s.reverse { σ with pos := s.length - σ.pos } ρ) ∧ τ = σ
  | .atomic l, s, σ, τ => ∃ ρ, MatchAll E l s σ ρ ∧
      τ = { ρ with multiline := σ.multiline, caseless := σ.caseless }
  | .mode m, _, σ, τ => τ = σ.setMode m
  | .reject _, _, _, _ => False
  | .boundary c, s, σ, τ => Holds E.uni s σ (.boundary c) ∧ τ = σ
  | .notBoundary c, s, σ, τ => Holds E.uni s σ (.notBoundary c) ∧ τ = σ
  | .sBegin, s, σ, τ => Holds E.uni s σ .sBegin ∧ τ = σ
  | .sEnd, s, σ, τ => Holds E.uni s σ .sEnd ∧ τ = σ
  | .sEndLine, s, σ, τ => Holds E.uni s σ .sEndLine ∧ τ = σ
  | .lBegin, s, σ, τ => Holds E.uni s σ .lBegin ∧ τ = σ
  | .lEnd, s, σ, τ => Holds E.uni s σ .lEnd ∧ τ = σ

/-- Concatenation. -/
def MatchAll (E : Env) : List Re → List Ch → MState → MState → Prop
  | [], _, σ, τ => τ = σ
  | r :: l, s, σ, τ => ∃ ρ, Re.Match E r s σ ρ ∧ MatchAll E l s ρ τ

/-- Alternation. -/
def MatchAny (E : Env) : List Re → List Ch → MState → MState → Prop
  | [], _, _, _ => False
  | r :: l, s, σ, τ => Re.Match E r s σ τ ∨ MatchAny E l s σ τ
end

/-- The state a match attempt starts in. -/
def MState.start (p : Nat) (f : Flags) : MState :=
  { pos := p, multiline := f.ml, caseless := f.ci, cap := fun _ => none }

end Ctre
