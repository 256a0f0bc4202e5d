import Verif.Model.Parser
import Verif.Model.FixedString
import Verif.Model.Iterators
import Verif.Model.Utf8

/-
Calls as they are written: pattern literals of every character type, the function templates of the interface with their
modifiers, subjects of every kind.  Source: /repo/include/ctre/wrapper.hpp, /repo/include/ctre/range.hpp,
/repo/include/ctre/functions.hpp, /repo/include/ctre/literals.hpp
-/
namespace Ctre

/-- A pattern literal, by its character type (/repo/include/ctll/fixed_string.hpp:53-144): `char`, `char8_t` (and `char`
with `CTRE_STRING_IS_UTF8`), `char16_t`, `char32_t` (and `wchar_t` of 32 bits).  Code units without the final NUL. -/
inductive PatLit where
  | narrow (l : List Int)
  | utf8 (l : List Nat)
  | utf16 (l : List Nat)
  | utf32 (l : List Nat)
deriving Repr, DecidableEq

/-- The conversion to `ctll::fixed_string` (/repo/include/ctll/fixed_string.hpp:53-144). -/
def PatLit.decode : PatLit → FixedString
  | .narrow l => fixedNarrow l
  | .utf8 l => fixedUtf8 l
  | .utf16 l => fixedUtf16 l
  | .utf32 l => fixedUtf32 l

/-- `regex_builder<input>` (/repo/include/ctre/wrapper.hpp:296-305), `re<input>` (/repo/include/ctre/functions.hpp:34-45)
and `operator""_ctre` (/repo/include/ctre/literals.hpp:62-76).  The parser reads `input[Pos]` for `Pos < input.size()`
(/repo/include/ctll/parser.hpp:77-90); nobody asks `input.correct()`. -/
def PatLit.build (P : Parse.PropTable) (l : PatLit) : Parse.Built := Parse.build P l.decode.content

/-- A subject: a pair of iterators, a `std::string_view`, `std::wstring_view`, `std::u16string_view`,
`std::u32string_view` or another range (wrapper.hpp:175-177, 184-189, 195-203; the values are the code units); a
zero-terminated string (wrapper.hpp:178-183); a `std::u8string_view` (wrapper.hpp:190-194).
(/repo/include/ctre/wrapper.hpp:175-203) -/
inductive Subject where
  | view (s : List Ch)
  | cstr (arr : List Ch)
  | u8 (b : List Nat)
deriving Repr, DecidableEq

/-- The iterators the overloads of `exec` pass on (/repo/include/ctre/wrapper.hpp:175-203). -/
def Subject.cursor (lib20 : Bool) : Subject → Cursor
  | .view s => viewCursor s
  | .cstr arr => zeroCursor arr
  | .u8 b => utf8Cursor lib20 b

/-- `operator++` of `regex_iterator` for any iterator type: `current == end` is the comparison of the iterators
(/repo/include/ctre/iterators.hpp:46-58). -/
def RIter.nextC (K : Cursor) (exec : Nat → Exec) (dflt : Caps) (it : RIter) : Option RIter :=
  match K.atEnd it.current with
  | none => none
  | some true => some { it with result := dflt }
  | some false => RIter.assign it.current (exec it.current)

/-- The iterator after `k` increments of `begin()` (/repo/include/ctre/range.hpp:16-18). -/
def RIter.nthC (K : Cursor) (exec : Nat → Exec) (dflt : Caps) : Nat → Option RIter
  | 0 => RIter.init exec
  | k + 1 =>
    match RIter.nthC K exec dflt k with
    | some it => it.nextC K exec dflt
    | none => none

/-- `operator++` of `regex_split_iterator` for any iterator type (/repo/include/ctre/iterators.hpp:142-156). -/
def SIter.nextC (K : Cursor) (exec : Nat → Exec) (dflt : Caps) (it : SIter) : Option SIter :=
  match K.atEnd it.current with
  | none => none
  | some e =>
    if e = true ∧ it.lastMatch = true then some { it with result := dflt }
    else SIter.assign it.current it.lastMatch (exec it.current)

/-- The iterator after `k` increments of `begin()` (/repo/include/ctre/range.hpp:32-34). -/
def SIter.nthC (K : Cursor) (exec : Nat → Exec) (dflt : Caps) : Nat → Option SIter
  | 0 => SIter.init exec
  | k + 1 =>
    match SIter.nthC K exec dflt k with
    | some it => it.nextC K exec dflt
    | none => none

/-- The template parameter `Method` of `regular_expression` (/repo/include/ctre/wrapper.hpp:68-158). -/
inductive Method where
  | match_ | search | startsWith | searchAll | tokenize | split | iterator
deriving Repr, DecidableEq

/-- What a call returns: a result object, or a range or iterator, given by the iterators after `k` increments
(/repo/include/ctre/wrapper.hpp:68-157). -/
inductive Answer where
  | one (e : Exec)
  | many (it : Nat → Option RIter)
  | pieces (it : Nat → Option SIter)

/-- `regular_expression<RE, Method, Modifier>::exec(subject)` (/repo/include/ctre/wrapper.hpp:160-203 with 68-158).
`range_method` and `iterator_method` both begin with `regex_iterator` over `search_method` (wrapper.hpp:120-128,
147-153, range.hpp:16-18). -/
def Method.exec (C : Cfg) (n : Nat) (f : Flags) (r : Re) (K : Cursor) : Method → Answer
  | .match_ => .one (matchC C n K f r 0)
  | .search => .one (searchC C n K f r 0)
  | .startsWith => .one (startsWithC C n K f r 0)
  | .searchAll => .many (RIter.nthC K (searchC C n K f r) (initCaps r))
  | .iterator => .many (RIter.nthC K (searchC C n K f r) (initCaps r))
  | .tokenize => .many (RIter.nthC K (startsWithC C n K f r) (initCaps r))
  | .split => .pieces (SIter.nthC K (searchC C n K f r) (initCaps r))

/-- `ctre::match<"...", Modifiers...>(subject)` and the other function templates, `multiline_` or not
(/repo/include/ctre/wrapper.hpp:309-345).  `none`: the call does not compile because the pattern is not accepted. -/
def call (P : Parse.PropTable) (C : Cfg) (n : Nat) (ml : Bool) (m : Method) (mods : List Mode) (lit : PatLit)
    (x : Subject) : Option Answer :=
  match lit.build P with
  | .pattern r => some (m.exec C n (Flags.ofList ((if ml then .multiline else .singleline) :: mods)) r (x.cursor C.lib20))
  | _ => none

/-- `"..."_ctre.match(subject)` and the other members, `multiline_` or not: the modifier is `singleline` or `multiline`
alone (/repo/include/ctre/wrapper.hpp:214-257, /repo/include/ctre/literals.hpp:62-76). -/
def callLiteral (P : Parse.PropTable) (C : Cfg) (n : Nat) (ml : Bool) (m : Method) (lit : PatLit) (x : Subject) :
    Option Answer :=
  match lit.build P with
  | .pattern r => some (m.exec C n (Flags.ofList [if ml then .multiline else .singleline]) r (x.cursor C.lib20))
  | _ => none

/-- `operator|` (/repo/include/ctre/wrapper.hpp:260-279): `subject | ctre::search_all<...>` and the like call `exec`; for
the other methods the left operand is a range of subjects, which gives a `multi_subject_range` (wrapper.hpp:169-171).
`none`: deleted for `iterator_method`, or, for a single subject, not a range of subjects. -/
def pipeSubject (C : Cfg) (n : Nat) (f : Flags) (r : Re) (x : Subject) : Method → Option Answer
  | .searchAll => some (Method.exec C n f r (x.cursor C.lib20) .searchAll)
  | .tokenize => some (Method.exec C n f r (x.cursor C.lib20) .tokenize)
  | .split => some (Method.exec C n f r (x.cursor C.lib20) .split)
  | _ => none

/-- The result of `RE::exec(*first)` as `find_first` looks at it: the result when it tests true
(/repo/include/ctre/range.hpp:62-68). -/
def Answer.found : Answer → Option Caps
  | .one (.done c) => if c.whole.matched then some c else none
  | _ => none

/-- `subjects | ctre::match<...>` and the like (/repo/include/ctre/wrapper.hpp:277-279, 169-171): `begin()` of the
`multi_subject_range` (/repo/include/ctre/range.hpp:60, 126-128). -/
def pipeSubjects (C : Cfg) (n : Nat) (f : Flags) (r : Re) (m : Method) (xs : List Subject) : MIter Subject Caps :=
  MIter.begin (fun x => (Method.exec C n f r (x.cursor C.lib20) m).found) xs

end Ctre
