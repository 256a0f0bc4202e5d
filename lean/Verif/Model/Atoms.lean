import Verif.Model.Chars

/-
Pattern tree and flags.  Source: /repo/include/ctre/atoms.hpp, /repo/include/ctre/flags_and_modes.hpp
-/
namespace Ctre

/-- The mode types `mode_case_insensitive`, `mode_case_sensitive`, `mode_singleline`,
`mode_multiline` (/repo/include/ctre/pcre.hpp:98-101) used in `mode_switch<>`. -/
inductive Mode where
  | caseInsensitive | caseSensitive | singleline | multiline
deriving Repr, DecidableEq

/-- `struct flags` (/repo/include/ctre/flags_and_modes.hpp:17-20). -/
structure Flags where
  /-- `block_empty_match` -/
  blk : Bool := false
  /-- `multiline` -/
  ml : Bool := false
  /-- `case_insensitive` -/
  ci : Bool := false
deriving Repr, DecidableEq

/-- `operator+(flags, Mode)` (/repo/include/ctre/flags_and_modes.hpp:36-54) and the `set_flag`
overloads (lines 56-70), which do the same for the user-facing flag types. -/
def Flags.add (f : Flags) : Mode → Flags
  | .caseInsensitive => { f with ci := true }
  | .caseSensitive => { f with ci := false }
  | .singleline => { f with ml := false }
  | .multiline => { f with ml := true }

/-- `flags(ctll::list<Args...>)`: `(this->set_flag(Args{}), ...)`
(/repo/include/ctre/flags_and_modes.hpp:32-34). -/
def Flags.ofList (l : List Mode) : Flags := l.foldl Flags.add {}

/-- `not_empty_match` (/repo/include/ctre/flags_and_modes.hpp:73-76). -/
def Flags.notEmpty (f : Flags) : Flags := { f with blk := true }

/-- `consumed_something(f, condition)` (/repo/include/ctre/flags_and_modes.hpp:78-81). -/
def Flags.consumed (f : Flags) (condition : Bool) : Flags :=
  if condition then { f with blk := false } else f

/-- The three repetition templates (/repo/include/ctre/atoms.hpp:29-43). -/
inductive RepKind where
  | greedy | lazy | poss
deriving Repr, DecidableEq

/-- The pattern tree (/repo/include/ctre/atoms.hpp:21-76).  The abbreviations of lines 30-43
(`plus`, `star`, `optional`, ...) are instances of `rep`; an upper bound 0 means "unbounded".
`look_start`, `atomic_start` are parser-internal and live in the model of the parser. -/
inductive Re where
  /-- every type with `match_char` -/
  | cc (c : CC)
  /-- `any` -/
  | any
  /-- `string<Str...>` -/
  | str (s : List Nat)
  /-- `select<Opts...>` -/
  | sel (l : List Re)
  /-- `sequence<Content...>` -/
  | seq (l : List Re)
  /-- `empty` -/
  | empty
  /-- `repeat<a,b,Content...>`, `lazy_repeat`, `possessive_repeat` -/
  | rep (k : RepKind) (a b : Nat) (l : List Re)
  /-- `capture<Index, Content...>` / `capture_with_name<Index, Name, Content...>` -/
  | cap (id : Nat) (name : Option (List Nat)) (l : List Re)
  /-- `back_reference<Index>` -/
  | bref (id : Nat)
  /-- `back_reference_with_name<Name>` -/
  | brefName (name : List Nat)
  /-- `lookahead_positive` (`true`) / `lookahead_negative` (`false`) -/
  | ahead (pos : Bool) (l : List Re)
  /-- `lookbehind_positive` (`true`) / `lookbehind_negative` (`false`) -/
  | behind (pos : Bool) (l : List Re)
  /-- `atomic_group<Content...>` -/
  | atomic (l : List Re)
  /-- `boundary<CharacterLike>` -/
  | boundary (c : CC)
  /-- `not_boundary<CharacterLike>` -/
  | notBoundary (c : CC)
  /-- `assert_subject_begin` -/
  | sBegin
  /-- `assert_subject_end` -/
  | sEnd
  /-- `assert_subject_end_line` -/
  | sEndLine
  /-- `assert_line_begin` -/
  | lBegin
  /-- `assert_line_end` -/
  | lEnd
  /-- `mode_switch<Mode>` -/
  | mode (m : Mode)
  /-- `ctre::reject` (`true`), or `ctll::reject` (`false`), which the parser leaves in the pattern for an unknown
  `\p{name=value}` -/
  | reject (own : Bool)
deriving Repr

/-- Entries of the evaluation stack `ctll::list<...>`: pattern nodes and the marks of
/repo/include/ctre/atoms.hpp:12-19. -/
inductive Item where
  | re (r : Re)
  /-- `accept` -/
  | accept
  /-- `start_mark` -/
  | startMark
  /-- `end_mark` -/
  | endMark
  /-- `end_cycle_mark` -/
  | endCycle
  /-- `end_lookahead_mark` -/
  | endAhead
  /-- `end_lookbehind_mark` -/
  | endBehind
  /-- `numeric_mark<Id>` -/
  | numMark (id : Nat)
deriving Repr

/-- The evaluation stack: the `ctll::list<...>` argument of `evaluate` (/repo/include/ctre/evaluation.hpp:48-561). -/
abbrev Stack := List Item

/-- `Content..., rest` for a pack `Content` of pattern nodes
(e.g. /repo/include/ctre/evaluation.hpp:281). -/
def items (l : List Re) (rest : Stack) : Stack := l.map Item.re ++ rest

end Ctre
