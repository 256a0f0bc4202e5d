import Verif.Spec.Reorder

/-
Pattern texts one of which allows everything the other one does: it has further alternatives, larger sets of characters, wider counts, and
fewer assertions; inside of negative lookarounds it is the other way round.
-/
namespace Ctre.Surface

/-- One character is matched. -/
def Atom.oneChar : Atom → Bool
  | .ch _ | .cls _ | .set _ _ | .dot => true
  | _ => false

/-- The character `v` is one of those.  `ml`, `ci`: multiline mode is on, case is ignored. -/
def Atom.takes (U : Uni) (ml ci : Bool) (v : Ch) : Atom → Prop
  | .ch c => (CC.chr c.code).matchChar U ci v = true
  | .cls c => c.has U ci v
  | .set neg l => (∃ i ∈ l, i.has U ci v) ↔ neg = false
  | .dot => ¬ (ml = true ∧ v = 10)
  | _ => False

/-- Nothing is consumed and nothing is captured. -/
def Atom.asserts : Atom → Bool
  | .bol | .eol | .subjectBegin | .subjectEnd | .subjectEndLine | .wordBoundary | .notWordBoundary | .ahead false _ | .behind _ _ => true
  | _ => false

/-- The second text allows everything that the first one allows. -/
inductive Widen (U : Uni) : Piece → Piece → Prop
  | same (a : Atom) : Widen U (.atom a) (.atom a)
  /-- More characters. -/
  | chars {a a' : Atom} : a.oneChar = true → a'.oneChar = true → (∀ ml ci v, a.takes U ml ci v → a'.takes U ml ci v) → Widen U (.atom a) (.atom a')
  /-- One of several alternatives instead. -/
  | enclose {a : Atom} {b : Body} : Widen U (.body (.alt (.one (.one a .none)))) (.body b) → Widen U (.atom a) (.atom (.group b))
  | cap {id : Nat} {b b' : Body} : Widen U (.body b) (.body b') → Widen U (.atom (.cap id b)) (.atom (.cap id b'))
  | named {id : Nat} {n : List Nat} {b b' : Body} : Widen U (.body b) (.body b') → Widen U (.atom (.named id n b)) (.atom (.named id n b'))
  | group {b b' : Body} : Widen U (.body b) (.body b') → Widen U (.atom (.group b)) (.atom (.group b'))
  | ahead {b b' : Body} : Widen U (.body b) (.body b') → Widen U (.atom (.ahead true b)) (.atom (.ahead true b'))
  | behind {b b' : Body} : Widen U (.body b) (.body b') → Widen U (.atom (.behind true b)) (.atom (.behind true b'))
  /-- What must not follow, or stand before, is narrower. -/
  | notAhead {b b' : Body} : Widen U (.body b') (.body b) → Widen U (.atom (.ahead false b)) (.atom (.ahead false b'))
  | notBehind {b b' : Body} : Widen U (.body b') (.body b) → Widen U (.atom (.behind false b)) (.atom (.behind false b'))
  /-- Wider counts. -/
  | one {a a' : Atom} {q q' : Quant} : (q = .none ↔ q' = .none) → (∀ k, q.admits k → q'.admits k) → Widen U (.atom a) (.atom a') →
      Widen U (.cat (.one a q)) (.cat (.one a' q'))
  | cons {a a' : Atom} {q q' : Quant} {l l' : Cat} : (q = .none ↔ q' = .none) → (∀ k, q.admits k → q'.admits k) → Widen U (.atom a) (.atom a') →
      Widen U (.cat l) (.cat l') → Widen U (.cat (.cons a q l)) (.cat (.cons a' q' l'))
  /-- An assertion is left out, in front of something. -/
  | drop {a : Atom} {l l' : Cat} : a.asserts = true → Widen U (.cat l) (.cat l') → Widen U (.cat (.cons a .none l)) (.cat l')
  /-- An assertion is left out behind an item. -/
  | dropLast {a a' e : Atom} {q q' : Quant} : e.asserts = true → Widen U (.cat (.one a q)) (.cat (.one a' q')) →
      Widen U (.cat (.cons a q (.one e .none))) (.cat (.one a' q'))
  /-- Every alternative of the first text has a partner (`m`) among those of the second one. -/
  | body {b b' : Body} (m : Cat → Cat) : (none ∈ b.choices → none ∈ b'.choices) →
      (∀ c, some c ∈ b.choices → some (m c) ∈ b'.choices) → (∀ c, some c ∈ b.choices → Widen U (.cat c) (.cat (m c))) →
      Widen U (.body b) (.body b')

end Ctre.Surface
