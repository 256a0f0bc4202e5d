import Verif.Model.Actions

/-
The LL(1) parser.  Source: /repo/include/ctll/parser.hpp, /repo/include/ctll/grammars.hpp,
/repo/include/ctre/wrapper.hpp:296-305
-/
namespace Ctre.Parse

/-- Result of parsing: `decision::accept` with the final context, `decision::reject` with the unread
input (its length gives `position`), no viable action (does not compile), or fuel exhausted
(/repo/include/ctll/parser.hpp:16-20, 45-64). -/
inductive PRes where
  | accept (c : Ctx)
  | reject (rest : List Nat)
  | ill
  | timeout

/-- `parser::decide` and `move` (/repo/include/ctll/parser.hpp:107-168) together with
`augment_grammar::rule` (/repo/include/ctll/grammars.hpp:91-112).  The trampoline
(/repo/include/ctll/parser.hpp:171-181) restarts `decide` after every consumed character, which is
the recursive call with the shorter input.  `prev` is `get_previous_term`, the head of the input
`get_current_term`. -/
def decide (P : PropTable) : Nat → Option Nat → List Nat → List Sym → Ctx → PRes
  | 0, _, _, _, _ => .timeout
  | _ + 1, _, [], [], c => .accept c
  | _ + 1, _, inp@(_ :: _), [], _ => .reject inp
  | n + 1, prev, inp, .act a :: st, c =>
    match apply P prev c a with
    | .ok c' => decide P n prev inp st c'
    | .reject => .reject inp
    | .ill => .ill
  | n + 1, _, v :: inp, .any :: st, c => decide P n (some v) inp st c
  | _ + 1, _, [], .any :: _, _ => .reject []
  | n + 1, _, v :: inp, .term t :: st, c =>
    if t = v then decide P n (some v) inp st c else .reject (v :: inp)
  | _ + 1, _, [], .term _ :: _, _ => .reject []
  | n + 1, _, v :: inp, .set l :: st, c =>
    if l.contains v then decide P n (some v) inp st c else .reject (v :: inp)
  | _ + 1, _, [], .set _ :: _, _ => .reject []
  | n + 1, prev, inp, .nt x :: st, c =>
    match rule x inp.head? with
    | .push l => decide P n prev inp (l ++ st) c
    | .eps => decide P n prev inp st c
    | .reject => .reject inp

/-- Enough steps for an input of the given length (proved in `Verif.Props.Parser`)
(the C++ recursion has no bound, /repo/include/ctll/parser.hpp:166-178). -/
def parseFuel (len : Nat) : Nat := 32 * len + 32

/-- `parser<pcre, input, pcre_actions>::output<pcre_context<>>`
(/repo/include/ctre/wrapper.hpp:298, /repo/include/ctll/parser.hpp:171-183). -/
def parse (P : PropTable) (input : List Nat) : PRes :=
  decide P (parseFuel input.length) none input [.nt .s] {}

/-- Result of `regex_builder` (/repo/include/ctre/wrapper.hpp:296-305): the pattern, a syntax error at
a position (the `static_assert`), or another compilation error. -/
inductive Built where
  | pattern (r : Re)
  | syntaxError (position : Nat)
  | ill
  | timeout

/-- `regex_builder<input>::type` (/repo/include/ctre/wrapper.hpp:296-305): the top of the final
stack. -/
def build (P : PropTable) (input : List Nat) : Built :=
  match parse P input with
  | .accept c =>
    match c.stack with
    | .re r :: _ => .pattern r
    | _ => .ill
  | .reject rest => .syntaxError (input.length - rest.length)
  | .ill => .ill
  | .timeout => .timeout

end Ctre.Parse
