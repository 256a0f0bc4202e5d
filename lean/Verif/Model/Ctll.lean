import Verif.Model.Ll1

/-
The parser library `ctll` for any grammar and any actions: symbols, choice of a rule by overload resolution, the machine with
its rounds, and the operations on type lists.  Source: /repo/include/ctll/grammars.hpp, /repo/include/ctll/parser.hpp,
/repo/include/ctll/actions.hpp, /repo/include/ctll/list.hpp, /repo/include/ctll/utilities.hpp.

A grammar is a class with a type `_start` and overloaded functions `rule`, actions are a class with overloaded functions
`apply`.  Characters are numbers (`get_current_term` converts the values up to 127 to `char`, larger values keep the type of
the input; a grammar has to name them with that type).  Types are compared by `=`.
-/
namespace Ctre.Ctll
open Parse (Decision AOut currentTerm previousTerm)

/-- What can stand on the stack: a nonterminal, an action (a type derived from `ctll::action`), `term`, `anything`, `range`,
`set`, `neg_set` (/repo/include/ctll/grammars.hpp:6-9, 27-30, 48-88). -/
inductive Sym (N A : Type) where
  | nt (x : N)
  | act (a : A)
  | term (v : Nat)
  | anything
  | range (a b : Nat)
  | set (l : List Nat)
  | negSet (l : List Nat)

/-- Second parameter of a function `rule` of the grammar: `epsilon` or one of the terminals
(/repo/include/ctll/grammars.hpp:6-15, 50-88). -/
inductive Look where
  | eps
  | term (v : Nat)
  | anything
  | range (a b : Nat)
  | set (l : List Nat)
  | negSet (l : List Nat)
deriving DecidableEq

/-- The fold `((Def == V) || ... || false)` (/repo/include/ctll/grammars.hpp:64-66, 75, 87). -/
def contains (l : List Nat) (v : Nat) : Bool := l.foldr (fun d r => (d == v) || r) false

/-- Result of a function `rule`: `push<...>`, `epsilon`, `pop_input`, `accept`, `reject`
(/repo/include/ctll/grammars.hpp:11-35). -/
inductive Rule (N A : Type) where
  | push (l : List (Sym N A))
  | epsilon
  | popInput
  | accept
  | reject

/-- A grammar: `_start` and the overloads of `rule`, by their first parameter (/repo/include/ctll/grammars.hpp:91-97, 111). -/
structure Grammar (N A : Type) where
  start : Sym N A
  rules : N → List (Look × Rule N A)

/-- The second parameter has the type of the current symbol (/repo/include/ctll/grammars.hpp:6-15). -/
def Look.same : Look → Option Nat → Bool
  | .eps, none => true
  | .term a, some v => a == v
  | _, _ => false

/-- The second parameter is constructed from the current symbol by a converting constructor
(/repo/include/ctll/grammars.hpp:50-88); `epsilon` converts to nothing. -/
def Look.converts : Look → Option Nat → Bool
  | .anything, some _ => true
  | .range a b, some v => Nat.ble a v && Nat.ble v b
  | .set l, some v => contains l v
  | .negSet l, some v => !contains l v
  | _, _ => false

/-- `grammar::rule(Nonterminal, current term)` (/repo/include/ctll/grammars.hpp:91-112): overload resolution prefers a
parameter of the same type, then a parameter constructed by conversion, then `rule(...)`, which gives `reject`.  `none`: two
equally good candidates, which does not compile. -/
def choose {N A : Type} (l : List (Look × Rule N A)) (v : Option Nat) : Option (Rule N A) :=
  match l.filter fun d => d.1.same v with
  | [d] => some d.2
  | _ :: _ :: _ => none
  | [] =>
    match l.filter fun d => d.1.converts v with
    | [d] => some d.2
    | _ :: _ :: _ => none
    | [] => some .reject

/-- `std::is_constructible_v<Expected, term<V>>` (/repo/include/ctll/grammars.hpp:99-102, 50-88): by copying for `term`. -/
def Sym.constructible {N A : Type} : Sym N A → Nat → Bool
  | .term a, v => a == v
  | .anything, _ => true
  | .range a b, v => Nat.ble a v && Nat.ble v b
  | .set l, v => contains l v
  | .negSet l, v => !contains l v
  | .nt _, _ => false
  | .act _, _ => false

/-- `grammar::rule(top_symbol, current_term)` of the augmented grammar (/repo/include/ctll/grammars.hpp:91-112); the top
symbol `none` is `empty_stack_symbol`. -/
def Grammar.rule {N A : Type} (G : Grammar N A) : Option (Sym N A) → Option Nat → Option (Rule N A)
  | none, none => some .accept
  | none, some _ => some .reject
  | some (.nt x), v => choose (G.rules x) v
  | some s, some v => some (if s.constructible v then .popInput else .reject)
  | some _, none => some .reject

/-- `parser::results<Pos, Stack, Subject, Decision>` (/repo/include/ctll/parser.hpp:45-75). -/
structure Results (N A σ : Type) where
  position : Nat
  stack : List (Sym N A)
  subject : σ
  decision : Decision

/-- What the type of a call is: a `results`, an error of the compiler (ambiguous rule, no suitable action), or fuel exhausted
(/repo/include/ctll/parser.hpp:146-168). -/
inductive LRes (N A σ : Type) where
  | res (r : Results N A σ)
  | ill
  | timeout

/-- `ActionSelector::apply(action, previous term, subject)` (/repo/include/ctll/parser.hpp:154); `ill`: no overload fits. -/
abbrev Selector (A σ : Type) := Option Nat → σ → A → AOut σ

/-- `empty_actions` (/repo/include/ctll/actions.hpp:7-12). -/
def emptyActions (A σ : Type) : Selector A σ := fun _ c _ => .ok c

/-- `identity<Actions>` (/repo/include/ctll/actions.hpp:14-19) for a subject that is not `empty_subject`: the given
actions only. -/
def identity {A σ : Type} (S : Selector A σ) : Selector A σ := S

/-- `ignore_unknown<Actions>` (/repo/include/ctll/actions.hpp:21-26): the additional overloads fit every action and are worse
than those of `Actions`; they leave the subject. -/
def ignoreUnknown {A σ : Type} (S : Selector A σ) : Selector A σ := fun p c a =>
  match S p c a with
  | .ill => .ok c
  | x => x

/-- `ctll::conditional` (/repo/include/ctll/utilities.hpp:54-64). -/
def conditional {α : Type} : Bool → α → α → α
  | true, a, _ => a
  | false, _, b => b

/-- `parser::Actions` (/repo/include/ctll/parser.hpp:42). -/
def actionsOf {A σ : Type} (ignore : Bool) (S : Selector A σ) : Selector A σ :=
  conditional ignore (ignoreUnknown S) (identity S)

variable {N A σ : Type}

/-- `parser::decide<Pos>` and `move<Pos>` (/repo/include/ctll/parser.hpp:106-168).  The overload of `move` for
`push<anything, ...>` (/repo/include/ctll/parser.hpp:140-144) has a template parameter that cannot be deduced and is never
chosen. -/
def decide (S : Selector A σ) (G : Grammar N A) (input : List Nat) : Nat → Nat → List (Sym N A) → σ → LRes N A σ
  | 0, _, _, _ => .timeout
  | n + 1, pos, stack, c =>
    match stack.head? with
    | some (.act a) =>
      match S (previousTerm input pos) c a with
      | .ok c' => decide S G input n pos stack.tail c'
      | .reject => .res ⟨pos, stack, c, .reject⟩
      | .ill => .ill
    | top =>
      match G.rule top (currentTerm input pos) with
      | none => .ill
      | some .accept => .res ⟨pos, stack.tail, c, .accept⟩
      | some .reject => .res ⟨pos, stack.tail, c, .reject⟩
      | some .popInput => .res ⟨pos + 1, stack.tail, c, .undecided⟩
      | some .epsilon => decide S G input n pos stack.tail c
      | some (.push (.term t :: l)) =>
        if currentTerm input pos = some t then .res ⟨pos + 1, l ++ stack.tail, c, .undecided⟩
        else decide S G input n pos (.term t :: l ++ stack.tail) c
      | some (.push l) => decide S G input n pos (l ++ stack.tail) c

/-- `results::operator+(placeholder)` (/repo/include/ctll/parser.hpp:66-74). -/
def LRes.round (S : Selector A σ) (G : Grammar N A) (input : List Nat) (fuel : Nat) : LRes N A σ → LRes N A σ
  | .res r =>
    match r.decision with
    | .undecided => decide S G input fuel r.position r.stack r.subject
    | _ => .res r
  | x => x

/-- The fold expression with `k` placeholders (/repo/include/ctll/parser.hpp:174). -/
def LRes.rounds (S : Selector A σ) (G : Grammar N A) (input : List Nat) (fuel : Nat) : Nat → LRes N A σ → LRes N A σ
  | 0, r => r
  | k + 1, r => LRes.rounds S G input fuel k (r.round S G input fuel)

/-- `parser<Grammar, input, ActionSelector, IgnoreUnknownActions>::output<Subject>`: `trampoline_decide`
(/repo/include/ctll/parser.hpp:170-183).  The recursion of the code is bounded only by the compiler, `fuel` stands for this
bound in each round. -/
def output (S : Selector A σ) (ignore : Bool) (G : Grammar N A) (input : List Nat) (fuel : Nat) (c : σ) : LRes N A σ :=
  LRes.rounds (actionsOf ignore S) G input fuel input.length (decide (actionsOf ignore S) G input fuel 0 [G.start] c)

/-- `correct_with<Subject>` (/repo/include/ctll/parser.hpp:184, 47-51); `none`: not compiled. -/
def LRes.correct : LRes N A σ → Option Bool
  | .res r => some (r.decision == .accept)
  | _ => none

/-- `parser<Grammar, input>::correct_with<>`: `empty_actions` and `empty_subject` (/repo/include/ctll/parser.hpp:27, 184). -/
def correct (G : Grammar N A) (input : List Nat) (fuel : Nat) : Option Bool :=
  (output (emptyActions A Unit) false G input fuel ()).correct

end Ctre.Ctll
