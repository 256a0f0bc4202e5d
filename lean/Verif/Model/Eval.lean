import Verif.Model.Results
import Verif.Model.First

/-
The evaluation machine.  Source: /repo/include/ctre/evaluation.hpp

Positions are natural numbers, `begin` (the subject begin `orig_begin`) is 0 and `last` is the length
of the subject.  Inside a lookbehind the C++ code runs on reverse iterators; the model runs on the
reversed subject and remembers in `lb` that the iterator type differs from the one stored in the
results, so that every operation that stores or reads a capture does not compile.
-/
namespace Ctre

/-- Result of `evaluate`.  C++ returns a `regex_results` convertible to `bool`
(/repo/include/ctre/evaluation.hpp:48-561). -/
inductive Out where
  /-- the fuel of the model is used up (C++: possibly still running) -/
  | timeout
  /-- undefined behaviour: an iterator outside the subject (or a null iterator) is dereferenced -/
  | ub
  /-- the template instantiation does not compile -/
  | ill
  /-- `not_matched` -/
  | fail
  /-- a matched result -/
  | ok (c : Caps)
deriving Repr, DecidableEq

/-- Build configuration: `greedyOpt` is false when `CTRE_DISABLE_GREEDY_OPT` is defined
(/repo/include/ctre/evaluation.hpp:391), `msvc` is true when `CTRE_MSVC_GREEDY_WORKAROUND` is defined
(lines 17-21); `lib20` is true when the standard library is that of C++20, where `std::reverse_iterator` has the type of
`*it` as `reference` and not the member of the iterator (used at lines 530, 543); `uni` is the meaning of Unicode
properties. -/
structure Cfg where
  greedyOpt : Bool := true
  msvc : Bool := false
  lib20 : Bool := true
  uni : Uni := fun _ _ => false

/-- `less_than_or_infinite<Limit>(i)` (/repo/include/ctre/evaluation.hpp:25-32). -/
def lessInf (limit i : Nat) : Bool := if limit = 0 then true else decide (i < limit)

/-- `less_than<Limit>(i)` (/repo/include/ctre/evaluation.hpp:34-41). -/
def lessThan (limit i : Nat) : Bool := if limit = 0 then false else decide (i < limit)

/-- Result of one loop iteration or of a whole loop: either the loop leaves the enclosing
`evaluate` with an outcome, or it goes on at a position with captures
(the loops at /repo/include/ctre/evaluation.hpp:280-313, 324-345, 358-381). -/
inductive Loop where
  | stop (o : Out)
  | go (cur : Nat) (c : Caps)
deriving Repr, DecidableEq

/-- One iteration: `inner_result = evaluate(..., list<Content..., end_cycle_mark>)`, then
`captures = inner_result.unmatch(); current = inner_result.get_end_position();`
(/repo/include/ctre/evaluation.hpp:281-288, 328-336, 403-408). -/
def step (body : Nat → Caps → Out) (cur : Nat) (c : Caps) : Loop :=
  match body cur c with
  | .ok c' =>
    match c'.whole.e with
    | some p => .go p c'.unmatch
    | none => .stop .ub
  | o => .stop o

/-- `while (less_than<A>(i)) {...}`: `A` mandatory iterations
(/repo/include/ctre/evaluation.hpp:280-289, 402-411). -/
def mandLoop (body : Nat → Caps → Out) : Nat → Nat → Caps → Loop
  | 0, cur, c => .go cur c
  | a + 1, cur, c =>
    match step body cur c with
    | .stop o => .stop o
    | .go p c' => mandLoop body a p c'

/-- `while (less_than_or_infinite<B>(i)) {...}` of the lazy repetition and the final attempt
(/repo/include/ctre/evaluation.hpp:295-313). -/
def lazyLoop (body tail : Nat → Caps → Out) (b : Nat) : Nat → Nat → Nat → Caps → Out
  | 0, _, _, _ => .timeout
  | m + 1, i, cur, c =>
    if lessInf b i then
      match step body cur c with
      | .stop o => o
      | .go p c' =>
        match tail p c' with
        | .fail => lazyLoop body tail b m (i + 1) p c'
        | o => o
    else tail cur c

/-- The `for` loop of the possessive repetition (/repo/include/ctre/evaluation.hpp:326-337). -/
def possLoop (body : Nat → Caps → Out) (a b : Nat) : Nat → Nat → Nat → Caps → Loop
  | 0, _, _, _ => .stop .timeout
  | m + 1, i, cur, c =>
    if lessInf b i then
      match step body cur c with
      | .stop .fail => if lessThan a i then .stop .fail else .go cur c
      | .stop o => .stop o
      | .go p c' => possLoop body a b m (i + 1) p c'
    else .go cur c

/-- `evaluate_recursive`, the variant returning a value (/repo/include/ctre/evaluation.hpp:348-379). -/
def greedyRec (body tail : Nat → Caps → Out) (b : Nat) : Nat → Nat → Nat → Caps → Out
  | 0, _, _, _ => .timeout
  | m + 1, i, cur, c =>
    if lessInf b i then
      match step body cur c with
      | .stop .fail => tail cur c
      | .stop o => o
      | .go p c' =>
        match greedyRec body tail b m (i + 1) p c' with
        | .fail => tail cur c
        | o => o
    else tail cur c

/-- `evaluate_recursive` of `CTRE_MSVC_GREEDY_WORKAROUND`: the result is an in/out reference
parameter (/repo/include/ctre/evaluation.hpp:346, 363-367, 373-374).  The function returns the value
of `result` when the C++ function returns.  A value other than `ok`/`fail` means that the C++
function never comes back, so it is passed on. -/
def greedyRecRef (body tail : Nat → Caps → Out) (b : Nat) : Nat → Nat → Nat → Caps → Out → Out
  | 0, _, _, _, _ => .timeout
  | m + 1, i, cur, c, result =>
    if lessInf b i then
      match step body cur c with
      | .stop .fail => tail cur c
      | .stop o => o
      | .go p c' =>
        match greedyRecRef body tail b m (i + 1) p c' result with
        | .fail => tail cur c
        | result' => result'
    else tail cur c

/-- Result of comparing a literal or a captured text with the subject
(/repo/include/ctre/evaluation.hpp:108-118, 445-455). -/
inductive Cmp where
  | ub
  | no
  | yes (p : Nat)
deriving Repr, DecidableEq

/-- `match_string<String...>` (/repo/include/ctre/evaluation.hpp:108-110). -/
def matchString (ci : Bool) (s : List Ch) : List Nat → Nat → Cmp
  | [], cur => .yes cur
  | c :: cs, cur =>
    if cur = s.length then .no
    else
      match s[cur]? with
      | none => .ub
      | some v => if matchCharacter ci v c then matchString ci s cs (cur + 1) else .no

/-- `match_against_range(current, last, range_current, range_end, f)`
(/repo/include/ctre/evaluation.hpp:445-455).  The loop runs at most until `current` reaches `last`,
so `n = last - current` steps are enough (for `current` beyond `last` reading is `ub` at once). -/
def matchRangeBack (s : List Ch) : Nat → Nat → Nat → Nat → Cmp
  | n, cur, rc, re =>
    if cur = s.length ∨ re = rc then (if rc = re then .yes cur else .no)
    else
      match s[cur]?, s[rc]? with
      | some v, some w =>
        if v = w then
          match n with
          | 0 => .ub
          | n' + 1 => matchRangeBack s n' (cur + 1) (rc + 1) re
        else .no
      | _, _ => .ub

/-- Value of `CharacterLike::match_char` before and after a position
(/repo/include/ctre/evaluation.hpp:230-242): `none` is undefined behaviour. -/
def boundaryAt (U : Uni) (ci : Bool) (s : List Ch) (cur : Nat) (c : CC) : Option (Bool × Bool) :=
  let after : Option Bool :=
    if s.length = cur then some false else (s[cur]?).map (c.matchChar U ci)
  let before : Option Bool :=
    match cur with
    | 0 => some false
    | p + 1 => (s[p]?).map (c.matchChar U ci)
  match before, after with
  | some x, some y => some (x, y)
  | _, _ => none

/-- Result of an assertion (/repo/include/ctre/evaluation.hpp:154-267). -/
inductive Tst where
  | ub
  | no
  | yes
deriving Repr, DecidableEq

/-- Conditions of the asserts and boundaries (/repo/include/ctre/evaluation.hpp:154-267). -/
def testAt (U : Uni) (s : List Ch) (cur : Nat) (f : Flags) : Re → Tst
  -- assert_subject_begin, lines 155-160
  | .sBegin => if cur = 0 then .yes else .no
  -- assert_subject_end, lines 162-168
  | .sEnd => if s.length = cur then .yes else .no
  -- assert_subject_end_line, lines 170-186
  | .sEndLine =>
    if f.ml then
      if s.length = cur then .yes
      else match s[cur]? with
        | none => .ub
        | some v => if v = 10 ∧ cur + 1 = s.length then .yes else .no
    else if s.length = cur then .yes else .no
  -- assert_line_begin, lines 188-204
  | .lBegin =>
    if f.ml then
      match cur with
      | 0 => .yes
      | p + 1 => match s[p]? with
        | none => .ub
        | some v => if v = 10 then .yes else .no
    else if cur = 0 then .yes else .no
  -- assert_line_end, lines 206-223
  | .lEnd =>
    if f.ml then
      if s.length = cur then .yes
      else match s[cur]? with
        | none => .ub
        | some v => if v = 10 then .yes else .no
    else if s.length = cur then .yes else .no
  -- boundary, lines 226-245
  | .boundary c =>
    match boundaryAt U f.ci s cur c with
    | none => .ub
    | some (before, after) => if before = after then .no else .yes
  -- not_boundary, lines 248-267
  | .notBoundary c =>
    match boundaryAt U f.ci s cur c with
    | none => .ub
    | some (before, after) => if before = after then .yes else .no
  | _ => .no

/-- Backreference: value of the capture storage and the comparison
(/repo/include/ctre/evaluation.hpp:458-479).  `none`: the static assertion of `get` fails. -/
def brefCmp (s : List Ch) (cur : Nat) : Option Slot → Option (Cmp × Bool)
  | none => none
  | some sl =>
    if sl.matched then
      match sl.b, sl.e with
      | some b, some e => some (matchRangeBack s (s.length - cur) cur b e, decide (b ≠ e))
      | _, _ => some (.ub, false)
    else some (.no, false)

/-- `evaluate(begin, current, last, f, captures, stack)`
(/repo/include/ctre/evaluation.hpp:46-562).  The fuel argument bounds the recursion depth and the
number of loop iterations; everything else follows the overloads in the order of the file.
Simplification: loop counters are unbounded (C++: `size_t`). -/
def eval (C : Cfg) : Nat → List Ch → Bool → Nat → Flags → Caps → Stack → Out
  | 0, _, _, _, _, _, _ => .timeout
  | n + 1, s, lb, cur, f, c, stack =>
    match stack with
    -- sink, lines 46-50
    | [] => .fail
    -- accept, lines 53-56 (only as the last element, otherwise the sink)
    | [.accept] => .ok c.setMatched
    | .accept :: _ => .fail
    -- start_mark, end_mark, lines 65-74
    | .startMark :: t => if lb then .ill else eval C n s lb cur f (c.setStart cur) t
    | .endMark :: t => if lb then .ill else eval C n s lb cur f (c.setEnd cur) t
    -- end_cycle_mark, lines 77-84 (only as the last element, otherwise the sink)
    | [.endCycle] =>
      if lb then .ill else if f.blk then .fail else .ok (c.setEnd cur).setMatched
    | .endCycle :: _ => .fail
    -- end_lookahead_mark, end_lookbehind_mark, lines 482-492
    | [.endAhead] => .ok c.setMatched
    | .endAhead :: _ => .fail
    | [.endBehind] => .ok c.setMatched
    | .endBehind :: _ => .fail
    -- numeric_mark, lines 428-431
    | .numMark id :: t =>
      if lb then .ill else
      match c.endCapture id cur with
      | none => .ill
      | some c' => eval C n s lb cur f c' t
    -- reject, lines 59-62; ctll::reject falls into the sink, lines 46-50
    | .re (.reject _) :: _ => .fail
    -- CharacterLike, lines 88-94
    | .re (.cc cl) :: t =>
      if cur = s.length then .fail
      else match s[cur]? with
        | none => .ub
        | some v =>
          if cl.matchChar C.uni f.ci v then eval C n s lb (cur + 1) (f.consumed true) c t else .fail
    -- any, lines 96-105
    | .re .any :: t =>
      if cur = s.length then .fail
      else if f.ml then
        match s[cur]? with
        | none => .ub
        | some v =>
          if v = 10 then .fail else eval C n s lb (cur + 1) (f.consumed true) c t
      else eval C n s lb (cur + 1) (f.consumed true) c t
    -- string, lines 112-119
    | .re (.str cs) :: t =>
      match matchString f.ci s cs cur with
      | .ub => .ub
      | .no => .fail
      | .yes p => eval C n s lb p (f.consumed (decide (0 < cs.length))) c t
    -- select, lines 122-135
    | .re (.sel []) :: _ => .fail
    | .re (.sel (r :: opts)) :: t =>
      match eval C n s lb cur f c (.re r :: t) with
      | .fail => eval C n s lb cur f c (.re (.sel opts) :: t)
      | o => o
    -- sequence, lines 138-145 (sequence<> falls into the sink)
    | .re (.seq []) :: _ => .fail
    | .re (.seq [r]) :: t => eval C n s lb cur f c (.re r :: t)
    | .re (.seq (r :: m)) :: t => eval C n s lb cur f c (.re r :: .re (.seq m) :: t)
    -- empty, lines 148-151
    | .re .empty :: t => eval C n s lb cur f c t
    -- lazy repeat, lines 270-315
    | .re (.rep .lazy a b m) :: t =>
      if b ≠ 0 ∧ a > b then .fail else
      if lb then .ill else
      let body := fun p c' => eval C n s lb p f.notEmpty c' (items m [.endCycle])
      match mandLoop body a cur c with
      | .stop o => o
      | .go p c' =>
        match eval C n s lb p (f.consumed (decide (cur ≠ p))) c' t with
        | .fail => lazyLoop body (fun p c' => eval C n s lb p (f.consumed true) c' t) b n a p c'
        | o => o
    -- possessive repeat, lines 318-341
    | .re (.rep .poss a b m) :: t =>
      if b ≠ 0 ∧ a > b then .fail else
      if lb then .ill else
      let body := fun p c' => eval C n s lb p f.notEmpty c' (items m [.endCycle])
      match possLoop body a b n 0 cur c with
      | .stop o => o
      | .go p c' => eval C n s lb p (f.consumed (decide (cur ≠ p))) c' t
    -- greedy repeat, lines 384-419
    | .re (.rep .greedy a b m) :: t =>
      if b ≠ 0 ∧ a > b then .fail else
      if lb then .ill else
      match (if C.greedyOpt then loopCollides m t else some true) with
      | none => .ill
      | some false => eval C n s lb cur f c (.re (.rep .poss a b m) :: t)
      | some true =>
        let body := fun p c' => eval C n s lb p f.notEmpty c' (items m [.endCycle])
        let tail := fun p c' => eval C n s lb p (f.consumed true) c' t
        match mandLoop body a cur c with
        | .stop o => o
        | .go p c' =>
          if C.msvc then greedyRecRef body tail b n a p c' .fail
          else greedyRec body tail b n a p c'
    -- capture, lines 422-425, 434-437
    | .re (.cap id _ m) :: t =>
      if lb then .ill else
      match c.startCapture id cur with
      | none => .ill
      | some c' => eval C n s lb cur f c' (.re (.seq m) :: .numMark id :: t)
    -- back references, lines 458-479
    | .re (.bref id) :: t =>
      if lb then .ill else
      match brefCmp s cur (c.get id) with
      | none => .ill
      | some (.ub, _) => .ub
      | some (.no, _) => .fail
      | some (.yes p, nonempty) => eval C n s lb p (f.consumed nonempty) c t
    | .re (.brefName name) :: t =>
      if lb then .ill else
      match brefCmp s cur (c.getName name) with
      | none => .ill
      | some (.ub, _) => .ub
      | some (.no, _) => .fail
      | some (.yes p, nonempty) => eval C n s lb p (f.consumed nonempty) c t
    -- lookahead, lines 495-515
    | .re (.ahead pos m) :: t =>
      match eval C n s lb cur f c [.re (.seq m), .endAhead] with
      | .ok c' => if pos then eval C n s lb cur f c'.unmatch t else .fail
      | .fail => if pos then .fail else eval C n s lb cur f c t
      | o => o
    -- lookbehind, lines 526-548
    | .re (.behind pos m) :: t =>
      match eval C n s.reverse true (s.length - cur) f c [.re (.seq m), .endBehind] with
      | .ok c' => if pos then eval C n s lb cur f c'.unmatch t else .fail
      | .fail => if pos then .fail else eval C n s lb cur f c t
      | o => o
    -- atomic group, lines 553-556
    | .re (.atomic m) :: t => eval C n s lb cur f c (.re (.rep .poss 1 1 m) :: t)
    -- mode switch, lines 559-562
    | .re (.mode md) :: t => eval C n s lb cur (f.add md) c t
    -- asserts and boundaries, lines 154-267
    | .re r :: t =>
      match testAt C.uni s cur f r with
      | .ub => .ub
      | .no => .fail
      | .yes => eval C n s lb cur f c t

end Ctre
