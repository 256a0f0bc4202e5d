import Verif.Spec.Respell

/-
Pattern texts that differ only in which of their groups capture, in the numbers and names of the groups, and in the way back
references are written.

`ρ i j` says that the group `i` of the first text is the group `j` of the second one.
-/
namespace Ctre.Surface

/-- What is written in parentheses for the sake of grouping: the number of the group, if it captures, and the content. -/
def Atom.enclosed : Atom → Option (Option Nat × Body)
  | .cap id b => some (some id, b)
  | .named id _ b => some (some id, b)
  | .group b => some (none, b)
  | _ => none

/-- The group a back reference refers to. -/
def Atom.target (number : List Nat → Option Nat) : Atom → Option Nat
  | .ref d => some (d - 48)
  | .refNumber ds => some (decimal ds)
  | .refRelative _ id => some id
  | .refName n => number n
  | _ => none

/-- Neither a group nor a back reference. -/
def Atom.leaf : Atom → Bool
  | .ch _ | .cls _ | .unknown _ _ | .set _ _ | .dot | .bol | .eol | .subjectBegin | .subjectEnd | .subjectEndLine
  | .wordBoundary | .notWordBoundary | .mode _ => true
  | _ => false

/-- Each group of one text is at most one group of the other one. -/
structure OneToOne (ρ : Nat → Nat → Prop) : Prop where
  right : ∀ {i j k}, ρ i j → ρ i k → j = k
  left : ∀ {i j k}, ρ i k → ρ j k → i = j

/-- A group stands where its partner stands; a group without a partner stands where a non-capturing one, or another one without a
partner, stands. -/
def Partners (ρ : Nat → Nat → Prop) (o o' : Option Nat) : Prop :=
  (∃ i j, o = some i ∧ o' = some j ∧ ρ i j) ∨ ((∀ i, o = some i → ∀ j, ¬ ρ i j) ∧ ∀ j, o' = some j → ∀ i, ¬ ρ i j)

/-- The texts are the same up to groups and references. -/
inductive Regroup (ρ : Nat → Nat → Prop) (number number' : List Nat → Option Nat) : Piece → Piece → Prop
  | leaf {a : Atom} : a.leaf = true → Regroup ρ number number' (.atom a) (.atom a)
  | ref {a a' : Atom} {i j : Nat} : a.target number = some i → a'.target number' = some j → ρ i j →
      Regroup ρ number number' (.atom a) (.atom a')
  | group {a a' : Atom} {o o' : Option Nat} {b b' : Body} : a.enclosed = some (o, b) → a'.enclosed = some (o', b') → Partners ρ o o' →
      Regroup ρ number number' (.body b) (.body b') → Regroup ρ number number' (.atom a) (.atom a')
  | ahead {pos : Bool} {b b' : Body} : Regroup ρ number number' (.body b) (.body b') →
      Regroup ρ number number' (.atom (.ahead pos b)) (.atom (.ahead pos b'))
  | behind {pos : Bool} {b b' : Body} : Regroup ρ number number' (.body b) (.body b') →
      Regroup ρ number number' (.atom (.behind pos b)) (.atom (.behind pos b'))
  | atomic {b b' : Body} : Regroup ρ number number' (.body b) (.body b') →
      Regroup ρ number number' (.atom (.atomic b)) (.atom (.atomic b'))
  | one {a a' : Atom} {q : Quant} : Regroup ρ number number' (.atom a) (.atom a') →
      Regroup ρ number number' (.cat (.one a q)) (.cat (.one a' q))
  | cons {a a' : Atom} {q : Quant} {l l' : Cat} : Regroup ρ number number' (.atom a) (.atom a') →
      Regroup ρ number number' (.cat l) (.cat l') → Regroup ρ number number' (.cat (.cons a q l)) (.cat (.cons a' q l'))
  | altEmpty : Regroup ρ number number' (.alt .empty) (.alt .empty)
  | altOne {c c' : Cat} : Regroup ρ number number' (.cat c) (.cat c') → Regroup ρ number number' (.alt (.one c)) (.alt (.one c'))
  | altBar {c c' : Cat} {l l' : Alt} : Regroup ρ number number' (.cat c) (.cat c') → Regroup ρ number number' (.alt l) (.alt l') →
      Regroup ρ number number' (.alt (.bar c l)) (.alt (.bar c' l'))
  | bodyAlt {l l' : Alt} : Regroup ρ number number' (.alt l) (.alt l') → Regroup ρ number number' (.body (.alt l)) (.body (.alt l'))
  | bodyLead {l l' : Alt} : Regroup ρ number number' (.alt l) (.alt l') → Regroup ρ number number' (.body (.lead l)) (.body (.lead l'))

end Ctre.Surface
