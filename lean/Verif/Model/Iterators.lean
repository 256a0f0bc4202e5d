import Verif.Model.Wrapper

/-
Iterating interfaces.  Source: /repo/include/ctre/iterators.hpp, /repo/include/ctre/range.hpp

The iterators are modelled over an arbitrary function `exec : Nat → Exec`, the call
`RE::exec_with_result_iterator(orig_begin, current, end)`; the constructors call the two-argument
form, which is the same with `current = orig_begin` (/repo/include/ctre/wrapper.hpp:75-77, 103-105,
114-116).
-/
namespace Ctre

/-- `regex_iterator` (/repo/include/ctre/iterators.hpp:18-28); `end` is the subject length. -/
structure RIter where
  current : Nat
  result : Caps
deriving Repr, DecidableEq

/-- Common part of constructor and `operator++`
(/repo/include/ctre/iterators.hpp:34-38, 52-56).  `none`: the call does not return. -/
def RIter.assign (current : Nat) : Exec → Option RIter
  | .done c =>
    if c.whole.matched then
      match c.whole.e with
      | some p => some { current := p, result := c }
      | none => none
    else some { current := current, result := c }
  | _ => none

/-- Constructor (/repo/include/ctre/iterators.hpp:34-38). -/
def RIter.init (exec : Nat → Exec) : Option RIter := RIter.assign 0 (exec 0)

/-- `operator++` (/repo/include/ctre/iterators.hpp:46-58). `len` is the subject length, `dflt` the
value-initialised result object. -/
def RIter.next (exec : Nat → Exec) (len : Nat) (dflt : Caps) (it : RIter) : Option RIter :=
  if it.current = len then some { it with result := dflt }
  else RIter.assign it.current (exec it.current)

/-- `it == regex_end_iterator` (/repo/include/ctre/iterators.hpp:82-87). -/
def RIter.isEnd (it : RIter) : Bool := !it.result.whole.matched

/-- `it == it2` (/repo/include/ctre/iterators.hpp:64-66). -/
def RIter.eq (a b : RIter) : Bool := a.current == b.current

/-- `it != it2` (/repo/include/ctre/iterators.hpp:67-69). -/
def RIter.ne (a b : RIter) : Bool := !(a.current == b.current)

/-- The iterator after `k` increments of `begin()` (/repo/include/ctre/range.hpp:16-18). -/
def RIter.nth (exec : Nat → Exec) (len : Nat) (dflt : Caps) : Nat → Option RIter
  | 0 => RIter.init exec
  | k + 1 =>
    match RIter.nth exec len dflt k with
    | some it => it.next exec len dflt
    | none => none

/-- `it < it2`, `it > it2`, `it <= it2`, `it >= it2` (/repo/include/ctre/iterators.hpp:70-81). -/
def RIter.lt (a b : RIter) : Bool := decide (a.current < b.current)
/-- `it > it2` (/repo/include/ctre/iterators.hpp:73-75). -/
def RIter.gt (a b : RIter) : Bool := decide (a.current > b.current)
/-- `it <= it2` (/repo/include/ctre/iterators.hpp:76-78). -/
def RIter.le (a b : RIter) : Bool := decide (a.current ≤ b.current)
/-- `it >= it2` (/repo/include/ctre/iterators.hpp:79-81). -/
def RIter.ge (a b : RIter) : Bool := decide (a.current ≥ b.current)

/-- `search_all<...>(subject)` (formerly `range`): the iterator after `k` increments
(/repo/include/ctre/wrapper.hpp:120-128: `regex_range` over `search_method`). -/
def searchAllNth (C : Cfg) (n : Nat) (s : List Ch) (f : Flags) (r : Re) (k : Nat) : Option RIter :=
  RIter.nth (searchAt C n s f r) s.length (initCaps r) k

/-- `tokenize<...>(subject)`: the iterator after `k` increments
(/repo/include/ctre/wrapper.hpp:129-136: `regex_range` over `starts_with_method`). -/
def tokenizeNth (C : Cfg) (n : Nat) (s : List Ch) (f : Flags) (r : Re) (k : Nat) : Option RIter :=
  RIter.nth (startsWithAt C n s f r) s.length (initCaps r) k

/-- `regex_split_iterator` (/repo/include/ctre/iterators.hpp:96-107). -/
structure SIter where
  current : Nat
  result : Caps
  lastMatch : Bool
deriving Repr, DecidableEq

/-- `modify_match` (/repo/include/ctre/iterators.hpp:109-114).  `none`: null iterators. -/
def SIter.modifyMatch (current : Nat) (lastMatch : Bool) (c : Caps) : Option SIter :=
  match c.whole.e, c.whole.b with
  | some tmp, some b =>
    some { current := tmp, result := (c.setEnd b).setStart current, lastMatch := lastMatch }
  | _, _ => none

/-- `match_rest` (/repo/include/ctre/iterators.hpp:116-122). -/
def SIter.matchRest (current : Nat) (c : Caps) : Option SIter :=
  match c.whole.e with
  | some p => some { current := p, result := (c.setStart current).setMatched, lastMatch := true }
  | none => none

/-- Common part of constructor and `operator++` (/repo/include/ctre/iterators.hpp:128-134, 148-154). -/
def SIter.assign (current : Nat) (lastMatch : Bool) : Exec → Option SIter
  | .done c =>
    if c.whole.matched then SIter.modifyMatch current lastMatch c else SIter.matchRest current c
  | _ => none

/-- Constructor (/repo/include/ctre/iterators.hpp:128-134). -/
def SIter.init (exec : Nat → Exec) : Option SIter := SIter.assign 0 false (exec 0)

/-- `operator++` (/repo/include/ctre/iterators.hpp:142-156). -/
def SIter.next (exec : Nat → Exec) (len : Nat) (dflt : Caps) (it : SIter) : Option SIter :=
  if it.current = len ∧ it.lastMatch then some { it with result := dflt }
  else SIter.assign it.current it.lastMatch (exec it.current)

/-- `it == regex_end_iterator` (/repo/include/ctre/iterators.hpp:180-185). -/
def SIter.isEnd (it : SIter) : Bool := !it.result.whole.matched

/-- The iterator after `k` increments of `begin()` (/repo/include/ctre/range.hpp:32-34). -/
def SIter.nth (exec : Nat → Exec) (len : Nat) (dflt : Caps) : Nat → Option SIter
  | 0 => SIter.init exec
  | k + 1 =>
    match SIter.nth exec len dflt k with
    | some it => it.next exec len dflt
    | none => none

/-- `split<...>(subject)`: the iterator after `k` increments
(/repo/include/ctre/wrapper.hpp:138-145: `regex_split_range` over `search_method`). -/
def splitNth (C : Cfg) (n : Nat) (s : List Ch) (f : Flags) (r : Re) (k : Nat) : Option SIter :=
  SIter.nth (searchAt C n s f r) s.length (initCaps r) k

/-- `multi_subject_range::iterator` (/repo/include/ctre/range.hpp:48-57): `first` is represented by the
list of subjects from `first` to `last`. -/
structure MIter (α ρ : Type) where
  rest : List α
  result : Option ρ

/-- `find_first` (/repo/include/ctre/range.hpp:62-68): skip subjects until one gives a result.
`exec x = none` is an unsuccessful result. -/
def MIter.findFirst {α ρ : Type} (exec : α → Option ρ) : List α → MIter α ρ
  | [] => { rest := [], result := none }
  | x :: xs =>
    match exec x with
    | some r => { rest := x :: xs, result := some r }
    | none => MIter.findFirst exec xs

/-- `begin()` (/repo/include/ctre/range.hpp:60, 126-128). -/
def MIter.begin {α ρ : Type} (exec : α → Option ρ) (xs : List α) : MIter α ρ :=
  MIter.findFirst exec xs

/-- `operator++` (/repo/include/ctre/range.hpp:78-82).  `none`: incrementing past the end. -/
def MIter.next {α ρ : Type} (exec : α → Option ρ) (it : MIter α ρ) : Option (MIter α ρ) :=
  match it.rest with
  | [] => none
  | _ :: xs => some (MIter.findFirst exec xs)

/-- `it == end` and `end == it` (/repo/include/ctre/range.hpp:107-112). -/
def MIter.eqEnd {α ρ : Type} (it : MIter α ρ) : Bool := it.rest.isEmpty

/-- `it != end` (/repo/include/ctre/range.hpp:113-115). -/
def MIter.neEnd {α ρ : Type} (it : MIter α ρ) : Bool := !it.rest.isEmpty

/-- `end != it` (/repo/include/ctre/range.hpp:116-118): returns `first == last`. -/
def MIter.endNe {α ρ : Type} (it : MIter α ρ) : Bool := it.rest.isEmpty

/-- A loop `for (; it != end; ++it) visit(*it)` over the range; `n` bounds the number of iterations
(with the operators of /repo/include/ctre/range.hpp:60-118). -/
def MIter.collect {α ρ : Type} (exec : α → Option ρ) : Nat → MIter α ρ → Option (List ρ)
  | 0, _ => none
  | n + 1, it =>
    if it.neEnd then
      match it.result, it.next exec with
      | some r, some it' => (MIter.collect exec n it').map (r :: ·)
      | _, _ => none
    else some []

end Ctre
