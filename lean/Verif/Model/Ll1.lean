import Verif.Model.Parser
import Verif.Model.FixedString

/-
The parser machine as it is written: the `results` type, one round per character (the trampoline), any set of actions;
and the literals that use it.  Source: /repo/include/ctll/parser.hpp, /repo/include/ctll/grammars.hpp,
/repo/include/ctll/actions.hpp, /repo/include/ctre/literals.hpp.  `Parse.decide` (Model/Parser.lean) is the same machine
without the rounds; that the two agree is C70.
-/
namespace Ctre.Parse

/-- `ctll::decision` (/repo/include/ctll/parser.hpp:16-20). -/
inductive Decision where
  | reject
  | accept
  | undecided
deriving Repr, DecidableEq

/-- `parser::results<Pos, Stack, Subject, Decision>` (/repo/include/ctll/parser.hpp:45-75). -/
structure Results (σ : Type) where
  position : Nat
  stack : List Sym
  subject : σ
  decision : Decision

/-- What `decltype(...)` of a call gives: a `results` type, no viable overload of an action (does not compile), or fuel
exhausted (/repo/include/ctll/parser.hpp:146-168). -/
inductive LRes (σ : Type) where
  | res (r : Results σ)
  | ill
  | timeout

/-- Result of `Actions::apply` (/repo/include/ctll/parser.hpp:153-161): a subject, `ctll::reject`, no viable overload. -/
inductive AOut (σ : Type) where
  | ok (c : σ)
  | reject
  | ill

/-- `Actions::apply(action, previous term, subject)` (/repo/include/ctll/parser.hpp:154). -/
abbrev Selector (σ : Type) := Option Nat → σ → Act → AOut σ

/-- `pcre_actions` (/repo/include/ctre/pcre_actions.hpp:36-61, see `apply` in Model/Actions.lean) with a `pcre_context`. -/
def pcreActions (P : PropTable) : Selector Ctx := fun prev c a =>
  match apply P prev c a with
  | .ok c' => .ok c'
  | .reject => .reject
  | .ill => .ill

/-- `identity<empty_actions>` with `empty_subject` (/repo/include/ctll/actions.hpp:5-19): every action leaves the subject. -/
def emptyActions : Selector Unit := fun _ c _ => .ok c

/-- `get_current_term<Pos>` (/repo/include/ctll/parser.hpp:77-90); `none` is `epsilon`. -/
def currentTerm (input : List Nat) (pos : Nat) : Option Nat := if pos < input.length then input[pos]? else none

/-- `get_previous_term<Pos>` (/repo/include/ctll/parser.hpp:91-105). -/
def previousTerm (input : List Nat) (pos : Nat) : Option Nat :=
  if pos = 0 then none else if pos - 1 < input.length then input[pos - 1]? else none

/-- `rule(term<A>, term<A>)` and `rule(Expected, term<V>)` with `std::is_constructible_v<Expected, term<V>>`, for the
symbols that are matched with a character (/repo/include/ctll/grammars.hpp:98-103, 50-88). -/
def Sym.pops (s : Sym) (v : Nat) : Bool :=
  match s with
  | .term c => c == v
  | .any => true
  | .set l => l.contains v
  | _ => false

/-- `parser::decide<Pos>` and `move<Pos>` (/repo/include/ctll/parser.hpp:106-168), `augment_grammar::rule`
(/repo/include/ctll/grammars.hpp:91-112).  A rule whose first symbol is the current character consumes it at once
(/repo/include/ctll/parser.hpp:133-137); the overload for `anything` (/repo/include/ctll/parser.hpp:140-144) has a template
parameter `V` that cannot be deduced and is never chosen. -/
def decideAt {σ : Type} (A : Selector σ) (input : List Nat) : Nat → Nat → List Sym → σ → LRes σ
  | 0, _, _, _ => .timeout
  | n + 1, pos, stack, c =>
    match stack with
    | [] =>
      match currentTerm input pos with
      | none => .res ⟨pos, [], c, .accept⟩
      | some _ => .res ⟨pos, [], c, .reject⟩
    | .act a :: st =>
      match A (previousTerm input pos) c a with
      | .ok c' => decideAt A input n pos st c'
      | .reject => .res ⟨pos, .act a :: st, c, .reject⟩
      | .ill => .ill
    | .nt x :: st =>
      match rule x (currentTerm input pos) with
      | .push (.term t :: l) =>
        if currentTerm input pos = some t then .res ⟨pos + 1, l ++ st, c, .undecided⟩
        else decideAt A input n pos (.term t :: l ++ st) c
      | .push l => decideAt A input n pos (l ++ st) c
      | .eps => decideAt A input n pos st c
      | .reject => .res ⟨pos, st, c, .reject⟩
    | s :: st =>
      match currentTerm input pos with
      | some v => if s.pops v then .res ⟨pos + 1, st, c, .undecided⟩ else .res ⟨pos, st, c, .reject⟩
      | none => .res ⟨pos, st, c, .reject⟩

/-- `results::operator+(placeholder)` (/repo/include/ctll/parser.hpp:66-74). -/
def LRes.round {σ : Type} (A : Selector σ) (input : List Nat) (fuel : Nat) : LRes σ → LRes σ
  | .res r =>
    match r.decision with
    | .undecided => decideAt A input fuel r.position r.stack r.subject
    | _ => .res r
  | x => x

/-- The fold expression: `k` more rounds (/repo/include/ctll/parser.hpp:174). -/
def LRes.rounds {σ : Type} (A : Selector σ) (input : List Nat) (fuel : Nat) : Nat → LRes σ → LRes σ
  | 0, r => r
  | k + 1, r => LRes.rounds A input fuel k (r.round A input fuel)

/-- `trampoline_decide<Subject>` (/repo/include/ctll/parser.hpp:170-181): one round, and one more for every character of the
input. -/
def trampoline {σ : Type} (A : Selector σ) (input : List Nat) (c : σ) : LRes σ :=
  LRes.rounds A input (parseFuel input.length) input.length
    (decideAt A input (parseFuel input.length) 0 [.nt .s] c)

/-- `correct_with<Subject>`, the conversion of the result to `bool` (/repo/include/ctll/parser.hpp:183-184, 47-51); `none`:
does not compile. -/
def LRes.isCorrect {σ : Type} : LRes σ → Option Bool
  | .res r => some (r.decision == .accept)
  | _ => none

/-- `"..."_ctre_test`: `parser<pcre, input>::correct_with<>` (/repo/include/ctre/literals.hpp:92-101). -/
def ctreTest (input : List Nat) : Option Bool := (trampoline emptyActions input ()).isCorrect

/-- `"..."_ctre_syntax`: `parser<pcre, input, pcre_actions>::correct_with<pcre_context<>>`
(/repo/include/ctre/literals.hpp:116-124). -/
def ctreSyntax (P : PropTable) (input : List Nat) : Option Bool := (trampoline (pcreActions P) input {}).isCorrect

/-- `"..."_ctre_gen`: the stack at the end (/repo/include/ctre/literals.hpp:103-113); `none`: does not compile, because of
the `static_assert` or another error. -/
def ctreGen (P : PropTable) (input : List Nat) : Option (List PItem) :=
  match trampoline (pcreActions P) input {} with
  | .res r => if r.decision = .accept then some r.subject.stack else none
  | _ => none

/-- `"..."_ctre` (/repo/include/ctre/literals.hpp:64-76) and `regex_builder` (/repo/include/ctre/wrapper.hpp:296-305):
the front of the stack at the end; the position of the error is the one of the `results`. -/
def buildLiteral (P : PropTable) (input : List Nat) : Built :=
  match trampoline (pcreActions P) input {} with
  | .res r =>
    if r.decision = .accept then
      match r.subject.stack with
      | .re x :: _ => .pattern x
      | _ => .ill
    else .syntaxError r.position
  | .ill => .ill
  | .timeout => .timeout

end Ctre.Parse
