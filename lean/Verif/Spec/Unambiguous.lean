import Verif.Spec.Semantics

/-
Patterns in which every repeated part is unambiguous, in terms of the declarative semantics.
-/
namespace Ctre

/-- From any state there is at most one way to match. -/
def Unambiguous (E : Env) (l : List Re) : Prop :=
  ∀ s σ τ τ', σ.pos ≤ s.length → MatchAll E l s σ τ → MatchAll E l s σ τ' → τ = τ'

/-- Every match consumes at least one character. -/
def Consuming (E : Env) (l : List Re) : Prop :=
  ∀ s σ τ, σ.pos ≤ s.length → MatchAll E l s σ τ → σ.pos < τ.pos

/-- All ways to match leave the same captures. -/
def SameCaptures (E : Env) (l : List Re) : Prop :=
  ∀ s σ τ τ', σ.pos ≤ s.length → MatchAll E l s σ τ → MatchAll E l s σ τ' → τ.cap = τ'.cap

mutual
/-- Repeated and atomic parts are unambiguous and consume; the content of a positive lookaround
determines the captures; a possessive repetition has a fixed count; no group is empty. -/
def Re.Plain (E : Env) : Re → Prop
  | .sel l => PlainList E l
  | .seq l => l ≠ [] ∧ PlainList E l
  | .rep k a b l => (k = .poss → a = b ∧ 0 < b) ∧ Unambiguous E l ∧ Consuming E l ∧ PlainList E l
  | .cap _ _ l => l ≠ [] ∧ PlainList E l
  | .ahead pos l => (pos = true → SameCaptures E l) ∧ l ≠ [] ∧ PlainList E l
  | .behind pos l => (pos = true → SameCaptures E l) ∧ l ≠ [] ∧ PlainList E l
  | .atomic l => Unambiguous E l ∧ Consuming E l ∧ PlainList E l
  | _ => True

def PlainList (E : Env) : List Re → Prop
  | [] => True
  | r :: l => Re.Plain E r ∧ PlainList E l
end

mutual
/-- The content of every negative lookaround is `Plain`. -/
def Re.NegPlain (E : Env) : Re → Prop
  | .sel l => NegPlainList E l
  | .seq l => NegPlainList E l
  | .rep _ _ _ l => NegPlainList E l
  | .cap _ _ l => NegPlainList E l
  | .ahead pos l => NegPlainList E l ∧ (pos = false → l ≠ [] ∧ PlainList E l)
  | .behind pos l => NegPlainList E l ∧ (pos = false → l ≠ [] ∧ PlainList E l)
  | .atomic l => NegPlainList E l
  | _ => True

def NegPlainList (E : Env) : List Re → Prop
  | [] => True
  | r :: l => Re.NegPlain E r ∧ NegPlainList E l
end

end Ctre
