import Verif.Model.Results
import Verif.Model.Utf8

/-
Access to the text of captures and results, conversion to numbers, and the operators on patterns.
Sources: /repo/include/ctre/return_type.hpp, /repo/include/ctre/operators.hpp

The subject is contiguous (pointers, `std::string_view`, `std::string`, …) unless said otherwise.  `none` is undefined
behaviour.  The conversion operators (return_type.hpp:186-200, 415-429) return what `to_view`, `to_string`,
`to_optional_view` and `to_optional_string` return.
-/
namespace Ctre

/-- `std::distance` of two positions converted to `size_t`.  Two value-initialised iterators have the distance 0, the
distance of a value-initialised one and another one is undefined
(as at /repo/include/ctre/return_type.hpp:111-122). -/
def distance : Option Nat → Option Nat → Option Nat
  | some b, some e => some (((e : Int) - (b : Int)) % 18446744073709551616).toNat
  | none, none => some 0
  | _, _ => none

/-- `size()` and `unit_size()` (/repo/include/ctre/return_type.hpp:108-122). -/
def Slot.size (sl : Slot) : Option Nat := distance sl.b sl.e

/-- `data_unsafe()` and `data()` (/repo/include/ctre/return_type.hpp:79-106): the position of the first character.
`&*_begin` dereferences `_begin`, which must be the position of a character; with MSVC, `std::to_address` is used. -/
def Slot.data (msvc : Bool) (s : List Ch) (sl : Slot) : Option Nat :=
  match sl.b with
  | none => none
  | some b => if msvc ∨ b < s.length then some b else none

/-- `to_view()` and `view()` (/repo/include/ctre/return_type.hpp:143-154): `unit_size()` characters from `data_unsafe()`. -/
def Slot.toView (msvc : Bool) (s : List Ch) (sl : Slot) : Option (List Ch) :=
  match sl.data msvc s, sl.size with
  | some b, some n => if b + n ≤ s.length then some ((s.drop b).take n) else none
  | _, _ => none

/-- `std::basic_string(begin(), end())` for positions: the characters met from `b` until `e` is reached.  The first
argument bounds the number of characters (as at /repo/include/ctre/return_type.hpp:168, 171). -/
def copyFrom (s : List Ch) (e : Nat) : Nat → Nat → Option (List Ch)
  | n, b =>
    if b = e then some []
    else
      match n, s[b]? with
      | n' + 1, some v => (copyFrom s e n' (b + 1)).map (v :: ·)
      | _, _ => none

/-- `to_string()` and `str()` (/repo/include/ctre/return_type.hpp:163-177).  A string made from two value-initialised
iterators is empty. -/
def Slot.toString (s : List Ch) (sl : Slot) : Option (List Ch) :=
  match sl.b, sl.e with
  | some b, some e => copyFrom s e s.length b
  | none, none => some []
  | _, _ => none

/-- `to_optional_view()` (/repo/include/ctre/return_type.hpp:156-161); the inner `none` is `std::nullopt`. -/
def Slot.toOptionalView (msvc : Bool) (s : List Ch) (sl : Slot) : Option (Option (List Ch)) :=
  if !sl.matched then some none else (sl.toView msvc s).map some

/-- `to_optional_string()` (/repo/include/ctre/return_type.hpp:179-184). -/
def Slot.toOptionalString (s : List Ch) (sl : Slot) : Option (Option (List Ch)) :=
  if !sl.matched then some none else (sl.toString s).map some

/-- `operator==(storage, view)` (/repo/include/ctre/return_type.hpp:206-208).
`none`: undefined behaviour. -/
def Slot.eqView (msvc : Bool) (s : List Ch) (sl : Slot) (v : List Ch) : Option Bool :=
  if sl.matched then (sl.toView msvc s).map (fun w => decide (w = v)) else some false

/-- `operator!=(storage, view)` (/repo/include/ctre/return_type.hpp:209-211). -/
def Slot.neView (msvc : Bool) (s : List Ch) (sl : Slot) (v : List Ch) : Option Bool :=
  if sl.matched then (sl.toView msvc s).map (fun w => decide (w ≠ v)) else some false

/-- `operator==(view, storage)` (/repo/include/ctre/return_type.hpp:212-214). -/
def Slot.viewEq (msvc : Bool) (s : List Ch) (v : List Ch) (sl : Slot) : Option Bool :=
  if sl.matched then (sl.toView msvc s).map (fun w => decide (v = w)) else some false

/-- `operator!=(view, storage)` (/repo/include/ctre/return_type.hpp:215-217). -/
def Slot.viewNe (msvc : Bool) (s : List Ch) (v : List Ch) (sl : Slot) : Option Bool :=
  if sl.matched then (sl.toView msvc s).map (fun w => decide (v ≠ w)) else some false

/-- `operator==(regex_results, view)` (/repo/include/ctre/return_type.hpp:505-507). -/
def Caps.eqView (msvc : Bool) (s : List Ch) (c : Caps) (v : List Ch) : Option Bool :=
  if c.whole.matched then (c.whole.toView msvc s).map (fun w => decide (w = v)) else some false

/-- `operator!=(regex_results, view)` (/repo/include/ctre/return_type.hpp:508-510). -/
def Caps.neView (msvc : Bool) (s : List Ch) (c : Caps) (v : List Ch) : Option Bool :=
  if c.whole.matched then (c.whole.toView msvc s).map (fun w => decide (w ≠ v)) else some true

/-- `operator==(view, regex_results)` (/repo/include/ctre/return_type.hpp:511-513). -/
def Caps.viewEq (msvc : Bool) (s : List Ch) (v : List Ch) (c : Caps) : Option Bool :=
  if c.whole.matched then (c.whole.toView msvc s).map (fun w => decide (v = w)) else some false

/-- `operator!=(view, regex_results)` (/repo/include/ctre/return_type.hpp:514-516). -/
def Caps.viewNe (msvc : Bool) (s : List Ch) (v : List Ch) (c : Caps) : Option Bool :=
  if c.whole.matched then (c.whole.toView msvc s).map (fun w => decide (v ≠ w)) else some true

/-- `stream << capture` (/repo/include/ctre/return_type.hpp:218-220): the characters that are written; `none` is undefined
behaviour. -/
def Slot.output (msvc : Bool) (s : List Ch) (sl : Slot) : Option (List Ch) := sl.toView msvc s

/-- `stream << result` (/repo/include/ctre/return_type.hpp:517-525). -/
def Caps.output (msvc : Bool) (s : List Ch) (c : Caps) : Option (List Ch) := c.whole.toView msvc s

/-- `auto [x0, x1, …] = result;` (/repo/include/ctre/return_type.hpp:528-530, 557-566): `get<0>` to `get<count() - 1>`.  `none`: does
not compile, because a number is not that of a group. -/
def Caps.bindings (c : Caps) : Option (List Slot) := (List.range c.count).mapM c.get

/-- The value of a character as a digit, as `std::from_chars` of the standard library takes it
(called at /repo/include/ctre/return_type.hpp:130). -/
def digitOf (base : Nat) (v : Int) : Option Nat :=
  let d : Option Nat :=
    if 48 ≤ v ∧ v ≤ 57 then some (v - 48).toNat
    else if 97 ≤ v ∧ v ≤ 122 then some (v - 87).toNat
    else if 65 ≤ v ∧ v ≤ 90 then some (v - 55).toNat
    else none
  match d with
  | some x => if x < base then some x else none
  | none => none

/-- The longest sequence of digits in front of a text, accumulated into a number
(`std::from_chars`, called at /repo/include/ctre/return_type.hpp:130). -/
def digitsFrom (base : Nat) : Nat → List Ch → Nat
  | acc, [] => acc
  | acc, v :: l =>
    match digitOf base v with
    | some d => digitsFrom base (acc * base + d) l
    | none => acc

/-- `std::from_chars` of the standard library for an integer type with the values from `lo` to `hi`: the value stored, `none`
when nothing is stored (no number in front of the text, or a number that is not a value of the type).  A minus sign
is recognised for signed types only (called at /repo/include/ctre/return_type.hpp:130). -/
def fromChars (lo hi : Int) (base : Nat) (v : List Ch) : Option Int :=
  let neg := decide (lo < 0) && decide (v.head? = some 45)
  let w := if neg then v.tail else v
  match w with
  | [] => none
  | x :: _ =>
    if (digitOf base x).isSome then
      let m : Int := digitsFrom base 0 w
      let m := if neg then -m else m
      if lo ≤ m ∧ m ≤ hi then some m else none
    else none

/-- `to_number<R>(base)` (/repo/include/ctre/return_type.hpp:125-130): `R result{0}` is left alone when `from_chars` stores
nothing; its error code is ignored. -/
def Slot.toNumber (msvc : Bool) (lo hi : Int) (base : Nat) (s : List Ch) (sl : Slot) : Option Int :=
  (sl.toView msvc s).map fun v => (fromChars lo hi base v).getD 0

/-- `to_optional_number<R>(base)` (/repo/include/ctre/return_type.hpp:132-138). -/
def Slot.toOptionalNumber (msvc : Bool) (lo hi : Int) (base : Nat) (s : List Ch) (sl : Slot) : Option (Option Int) :=
  if !sl.matched then some none else (sl.toNumber msvc lo hi base s).map some

/-- The members of `regex_results` with the same names (/repo/include/ctre/return_type.hpp:431-474) call those of
`_captures.select<0>()`. -/
def Caps.self (c : Caps) : Slot := c.whole

/-- `size()` of a capture whose iterators are `utf8_iterator`s (/repo/include/ctre/return_type.hpp:108-110): the number of
increments from `_begin` to `_end` (/repo/include/ctre/utf8.hpp:116-126).  The first argument bounds their number. -/
def utf8Distance (u : List Nat) (e : Nat) : Nat → Nat → Option Nat
  | n, b =>
    if b = e then some 0
    else
      match n, utf8Next u b with
      | n' + 1, some p => (utf8Distance u e n' p).map (· + 1)
      | _, _ => none

/-- `size()` for `utf8_iterator`s (/repo/include/ctre/return_type.hpp:108-110). -/
def Slot.size8 (u : List Nat) (sl : Slot) : Option Nat :=
  match sl.b, sl.e with
  | some b, some e => utf8Distance u e u.length b
  | none, none => some 0
  | _, _ => none

/-- `operator|` of two patterns (/repo/include/ctre/operators.hpp:4-6). -/
def orPattern (a b : Re) : Re := .sel [a, b]

/-- `operator>>` of two patterns (/repo/include/ctre/operators.hpp:8-10). -/
def andThen (a b : Re) : Re := .seq [a, b]

end Ctre
