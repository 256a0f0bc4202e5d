import Verif.Spec.Respell

/-
Pattern texts that differ only in the order of their alternatives, in repeated alternatives, and in which repetitions are greedy or lazy.
-/
namespace Ctre.Surface

/-- The alternatives; `none` is the empty one. -/
def Alt.choices : Alt → List (Option Cat)
  | .empty => [none]
  | .one c => [some c]
  | .bar c l => some c :: l.choices

def Body.choices : Body → List (Option Cat)
  | .alt l => l.choices
  | .lead l => none :: l.choices

/-- Both quantifiers are missing, or both allow the same numbers of iterations. -/
def SameCounts (q q' : Quant) : Prop := (q = .none ↔ q' = .none) ∧ ∀ k, q.admits k ↔ q'.admits k

/-- The texts are the same up to the order of alternatives and the kinds of repetitions. -/
inductive Reorder : Piece → Piece → Prop
  | same (a : Atom) : Reorder (.atom a) (.atom a)
  | cap {id : Nat} {b b' : Body} : Reorder (.body b) (.body b') → Reorder (.atom (.cap id b)) (.atom (.cap id b'))
  | named {id : Nat} {n : List Nat} {b b' : Body} : Reorder (.body b) (.body b') → Reorder (.atom (.named id n b)) (.atom (.named id n b'))
  | group {b b' : Body} : Reorder (.body b) (.body b') → Reorder (.atom (.group b)) (.atom (.group b'))
  | ahead {pos : Bool} {b b' : Body} : Reorder (.body b) (.body b') → Reorder (.atom (.ahead pos b)) (.atom (.ahead pos b'))
  | behind {pos : Bool} {b b' : Body} : Reorder (.body b) (.body b') → Reorder (.atom (.behind pos b)) (.atom (.behind pos b'))
  | one {a a' : Atom} {q q' : Quant} : SameCounts q q' → Reorder (.atom a) (.atom a') → Reorder (.cat (.one a q)) (.cat (.one a' q'))
  | cons {a a' : Atom} {q q' : Quant} {l l' : Cat} : SameCounts q q' → Reorder (.atom a) (.atom a') → Reorder (.cat l) (.cat l') →
      Reorder (.cat (.cons a q l)) (.cat (.cons a' q' l'))
  /-- Every alternative of the one has a partner (`m`) among those of the other one, and the other way round (`m'`). -/
  | body {b b' : Body} (m m' : Cat → Cat) : (none ∈ b.choices ↔ none ∈ b'.choices) →
      (∀ c, some c ∈ b.choices → some (m c) ∈ b'.choices) → (∀ c, some c ∈ b'.choices → some (m' c) ∈ b.choices) →
      (∀ c, some c ∈ b.choices → Reorder (.cat c) (.cat (m c))) → (∀ c, some c ∈ b'.choices → Reorder (.cat (m' c)) (.cat c)) →
      Reorder (.body b) (.body b')

end Ctre.Surface
