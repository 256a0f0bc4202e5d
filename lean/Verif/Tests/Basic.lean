import Verif.Model.Api
import Verif.Model.Access
import Verif.Model.Unicode
/-
Tests, not proofs: helpers for the evaluation of the assertions of /repo/tests in the model.  The other modules of this
directory are generated from the test files, one line for each assertion.
-/
namespace Ctre.Tests

/-- The configuration of the tests: with `CTRE_MSVC_GREEDY_WORKAROUND` or without; Unicode properties as in the repository. -/
def cfg (msvc : Bool) : Cfg := { greedyOpt := true, msvc := msvc, uni := Ucd.uni }

/-- The result object of a call. -/
def answer : Option Answer → Option Caps
  | some (.one (.done c)) => some c
  | _ => none

/-- Whether `ctre::match<pattern, mods...>(subject)` and the like convert to true. -/
def found (msvc : Bool) (mods : List Mode) (m : Method) (p : PatLit) (x : Subject) : Option Bool :=
  (answer (call Ucd.table (cfg msvc) 3000 false m mods p x)).map (·.whole.matched)

/-- The characters of a subject. -/
def chars : Subject → List Ch
  | .view s => s
  | .cstr s => s
  | .u8 b => b.map Int.ofNat

/-- The text of a group of the result. -/
def group (msvc : Bool) (m : Method) (p : PatLit) (x : Subject) (k : Nat) : Option (List Ch) :=
  (answer (call Ucd.table (cfg msvc) 3000 false m [] p x)).bind fun c =>
    if c.whole.matched then (c.get k).bind (Slot.toView false (chars x)) else none

/-- Whether the pattern is accepted; none if the parser does not decide. -/
def accepted (p : PatLit) : Option Bool :=
  match p.build Ucd.table with
  | .pattern _ => some true
  | .syntaxError _ => some false
  | _ => none

/-- Whether the syntax tree of the pattern is `r`. -/
def sameTree (p : PatLit) (r : Re) : Option Bool :=
  match p.build Ucd.table with
  | .pattern r' => some (Re.same r' r)
  | _ => none

/-- Two patterns combined with `>>` or `|`. -/
def combined (op : Re → Re → Re) (msvc : Bool) (p q : PatLit) (x : Subject) : Option Bool :=
  match p.build Ucd.table, q.build Ucd.table with
  | .pattern a, .pattern b => (answer (some (Method.exec (cfg msvc) 3000 {} (op a b) (x.cursor true) .match_))).map (·.whole.matched)
  | _, _ => none

/-- A pattern given as a type. -/
def runs (multiline : Bool) (m : Method) (r : Re) (x : Subject) : Option Caps :=
  answer (some (m.exec (cfg false) 3000 { ml := multiline } r (x.cursor true)))

/-- The texts of the first iterators of `search_all`, up to the end. -/
def firsts (p : PatLit) (x : Subject) : List (List Ch) :=
  match call Ucd.table (cfg false) 3000 false .searchAll [] p x with
  | some (.many it) =>
    (List.range 20).filterMap fun k => (it k).bind fun i => if i.isEnd then none else Slot.toView false (chars x) i.result.whole
  | _ => []

end Ctre.Tests
