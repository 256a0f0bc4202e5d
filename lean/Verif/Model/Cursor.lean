import Verif.Model.Eval
import Verif.Model.Wrapper

/-
The evaluation machine over an arbitrary iterator.  Source: /repo/include/ctre/evaluation.hpp

`Model/Eval.lean` fixes the subject to a random access sequence with a known end.  The C++ functions are templates over
the iterator types; here they are modelled over the operations of the iterator they use, so that zero-terminated
subjects (/repo/include/ctre/wrapper.hpp:17-58) and UTF-8 subjects (/repo/include/ctre/utf8.hpp) can be expressed.
-/
namespace Ctre

/-- The operations of the iterators `begin`, `current`, `last` used by `evaluate`.  Positions are offsets from `begin`
in the array of code units.  `none` is undefined behaviour (a read outside the array)
(/repo/include/ctre/evaluation.hpp:48-561). -/
structure Cursor where
  /-- upper bound of the number of steps from any position to the end -/
  size : Nat
  /-- `begin == current` -/
  atBegin : Nat → Option Bool
  /-- `current == last` -/
  atEnd : Nat → Option Bool
  /-- `*current` -/
  deref : Nat → Option Ch
  /-- `++current` -/
  next : Nat → Option Nat
  /-- `--current` -/
  prev : Nat → Option Nat
  /-- conversion of `*current` to the type `reference` of `std::reverse_iterator` -/
  narrow : Ch → Ch
  /-- `current` converts to the iterator type stored in the results -/
  store : Bool
  /-- `current` has the iterator type stored in the results -/
  refs : Bool

/-- Iterators made by `std::make_reverse_iterator` in the lookbehinds: `begin` is made from `last`, `last` from `begin`
(/repo/include/ctre/evaluation.hpp:530, 543). -/
def Cursor.rev (K : Cursor) : Cursor where
  size := K.size
  atBegin := K.atEnd
  atEnd := K.atBegin
  deref p := (K.prev p).bind fun q => (K.deref q).map K.narrow
  next := K.prev
  prev := K.next
  narrow := K.narrow
  store := false
  refs := false

/-- Iterators of a contiguous sequence with a known end, e.g. `std::string_view`
(/repo/include/ctre/wrapper.hpp:184-200). -/
def viewCursor (s : List Ch) : Cursor where
  size := s.length
  atBegin p := some (decide (p = 0))
  atEnd p := some (decide (p = s.length))
  deref p := s[p]?
  next p := if p < s.length then some (p + 1) else none
  prev p := match p with | 0 => none | q + 1 => some q
  narrow := id
  store := true
  refs := true

/-- `const char *` with `zero_terminated_string_end_iterator` as `last`: comparing with `last` reads the array
(/repo/include/ctre/wrapper.hpp:17-58, 178-183). -/
def zeroCursor (arr : List Ch) : Cursor where
  size := arr.length
  atBegin p := some (decide (p = 0))
  atEnd p := (arr[p]?).map fun v => decide (v = 0)
  deref p := arr[p]?
  next p := if p < arr.length then some (p + 1) else none
  prev p := match p with | 0 => none | q + 1 => some q
  narrow := id
  store := true
  refs := true

/-- `match_string` (/repo/include/ctre/evaluation.hpp:108-110). -/
def matchStringC (ci : Bool) (K : Cursor) : List Nat → Nat → Cmp
  | [], cur => .yes cur
  | c :: cs, cur =>
    match K.atEnd cur with
    | none => .ub
    | some true => .no
    | some false =>
      match K.next cur, K.deref cur with
      | some p, some v => if matchCharacter ci v c then matchStringC ci K cs p else .no
      | _, _ => .ub

/-- `match_against_range` (/repo/include/ctre/evaluation.hpp:445-455).  The first number bounds the iterations. -/
def matchRangeC (K : Cursor) : Nat → Nat → Nat → Nat → Cmp
  | n, cur, rc, re =>
    match K.atEnd cur with
    | none => .ub
    | some e =>
      if e = true ∨ re = rc then (if rc = re then .yes cur else .no)
      else
        match K.deref cur, K.deref rc with
        | some v, some w =>
          if v = w then
            match n with
            | 0 => .ub
            | n' + 1 =>
              match K.next cur, K.next rc with
              | some p, some q => matchRangeC K n' p q re
              | _, _ => .ub
          else .no
        | _, _ => .ub

/-- The characters after and before a position (/repo/include/ctre/evaluation.hpp:230-242). -/
def boundaryC (U : Uni) (ci : Bool) (K : Cursor) (cur : Nat) (c : CC) : Option (Bool × Bool) :=
  let after : Option Bool := (K.atEnd cur).bind fun e =>
    if e then some false else (K.deref cur).map (c.matchChar U ci)
  let before : Option Bool := (K.atBegin cur).bind fun b =>
    if b then some false else ((K.prev cur).bind K.deref).map (c.matchChar U ci)
  match before, after with
  | some x, some y => some (x, y)
  | _, _ => none

/-- A condition that may read outside the array (the conditions at /repo/include/ctre/evaluation.hpp:154-267). -/
def Tst.of : Option Bool → Tst
  | none => .ub
  | some true => .yes
  | some false => .no

/-- Conditions of the asserts and boundaries (/repo/include/ctre/evaluation.hpp:154-267). -/
def testC (U : Uni) (K : Cursor) (cur : Nat) (f : Flags) : Re → Tst
  | .sBegin => .of (K.atBegin cur)
  | .sEnd => .of (K.atEnd cur)
  | .sEndLine =>
    if f.ml then
      .of <| (K.atEnd cur).bind fun e =>
        if e then some true
        else (K.deref cur).bind fun v => if v = 10 then (K.next cur).bind K.atEnd else some false
    else .of (K.atEnd cur)
  | .lBegin =>
    if f.ml then
      .of <| (K.atBegin cur).bind fun b =>
        if b then some true else ((K.prev cur).bind K.deref).map fun v => decide (v = 10)
    else .of (K.atBegin cur)
  | .lEnd =>
    if f.ml then
      .of <| (K.atEnd cur).bind fun e =>
        if e then some true else (K.deref cur).map fun v => decide (v = 10)
    else .of (K.atEnd cur)
  | .boundary c => .of <| (boundaryC U f.ci K cur c).map fun x => decide (x.1 ≠ x.2)
  | .notBoundary c => .of <| (boundaryC U f.ci K cur c).map fun x => decide (x.1 = x.2)
  | _ => .no

/-- Back references (/repo/include/ctre/evaluation.hpp:458-479). -/
def brefC (K : Cursor) (cur : Nat) : Option Slot → Option (Cmp × Bool)
  | none => none
  | some sl =>
    if sl.matched then
      match sl.b, sl.e with
      | some b, some e => some (matchRangeC K K.size cur b e, decide (b ≠ e))
      | _, _ => some (.ub, false)
    else some (.no, false)

/-- `evaluate` (/repo/include/ctre/evaluation.hpp:46-562) over the operations of the iterator.  The overloads and the
simplifications are those of `eval`; an operation on captures whose iterator types do not fit does not compile. -/
def evalC (C : Cfg) : Nat → Cursor → Nat → Flags → Caps → Stack → Out
  | 0, _, _, _, _, _ => .timeout
  | n + 1, K, cur, f, c, stack =>
    match stack with
    -- sink, accept, lines 46-56
    | [] => .fail
    | [.accept] => .ok c.setMatched
    | .accept :: _ => .fail
    -- start_mark, end_mark, lines 65-74
    | .startMark :: t => if K.store then evalC C n K cur f (c.setStart cur) t else .ill
    | .endMark :: t => if K.store then evalC C n K cur f (c.setEnd cur) t else .ill
    -- end_cycle_mark, lines 77-84
    | [.endCycle] =>
      if K.store then (if f.blk then .fail else .ok (c.setEnd cur).setMatched) else .ill
    | .endCycle :: _ => .fail
    -- end_lookahead_mark, end_lookbehind_mark, lines 482-492
    | [.endAhead] => .ok c.setMatched
    | .endAhead :: _ => .fail
    | [.endBehind] => .ok c.setMatched
    | .endBehind :: _ => .fail
    -- numeric_mark, lines 428-431
    | .numMark id :: t =>
      if K.store then
        match c.endCapture id cur with
        | none => .ill
        | some c' => evalC C n K cur f c' t
      else .ill
    -- reject, lines 59-62; ctll::reject falls into the sink, lines 46-50
    | .re (.reject _) :: _ => .fail
    -- CharacterLike, lines 88-94
    | .re (.cc cl) :: t =>
      match K.atEnd cur with
      | none => .ub
      | some true => .fail
      | some false =>
        match K.deref cur with
        | none => .ub
        | some v =>
          if cl.matchChar C.uni f.ci v then
            match K.next cur with
            | none => .ub
            | some p => evalC C n K p (f.consumed true) c t
          else .fail
    -- any, lines 96-105
    | .re .any :: t =>
      match K.atEnd cur with
      | none => .ub
      | some true => .fail
      | some false =>
        match (if f.ml then (K.deref cur).map fun v => decide (v = 10) else some false) with
        | none => .ub
        | some true => .fail
        | some false =>
          match K.next cur with
          | none => .ub
          | some p => evalC C n K p (f.consumed true) c t
    -- string, lines 112-119
    | .re (.str cs) :: t =>
      match matchStringC f.ci K cs cur with
      | .ub => .ub
      | .no => .fail
      | .yes p => evalC C n K p (f.consumed (decide (0 < cs.length))) c t
    -- select, lines 122-135
    | .re (.sel []) :: _ => .fail
    | .re (.sel (r :: opts)) :: t =>
      match evalC C n K cur f c (.re r :: t) with
      | .fail => evalC C n K cur f c (.re (.sel opts) :: t)
      | o => o
    -- sequence, lines 138-145
    | .re (.seq []) :: _ => .fail
    | .re (.seq [r]) :: t => evalC C n K cur f c (.re r :: t)
    | .re (.seq (r :: m)) :: t => evalC C n K cur f c (.re r :: .re (.seq m) :: t)
    -- empty, lines 148-151
    | .re .empty :: t => evalC C n K cur f c t
    -- lazy repeat, lines 270-315
    | .re (.rep .lazy a b m) :: t =>
      if b ≠ 0 ∧ a > b then .fail else
      if K.store then
        let body := fun p c' => evalC C n K p f.notEmpty c' (items m [.endCycle])
        match mandLoop body a cur c with
        | .stop o => o
        | .go p c' =>
          match evalC C n K p (f.consumed (decide (cur ≠ p))) c' t with
          | .fail => lazyLoop body (fun p c' => evalC C n K p (f.consumed true) c' t) b n a p c'
          | o => o
      else .ill
    -- possessive repeat, lines 318-341
    | .re (.rep .poss a b m) :: t =>
      if b ≠ 0 ∧ a > b then .fail else
      if K.store then
        let body := fun p c' => evalC C n K p f.notEmpty c' (items m [.endCycle])
        match possLoop body a b n 0 cur c with
        | .stop o => o
        | .go p c' => evalC C n K p (f.consumed (decide (cur ≠ p))) c' t
      else .ill
    -- greedy repeat, lines 384-419
    | .re (.rep .greedy a b m) :: t =>
      if b ≠ 0 ∧ a > b then .fail else
      if K.store then
        match (if C.greedyOpt then loopCollides m t else some true) with
        | none => .ill
        | some false => evalC C n K cur f c (.re (.rep .poss a b m) :: t)
        | some true =>
          let body := fun p c' => evalC C n K p f.notEmpty c' (items m [.endCycle])
          let tail := fun p c' => evalC C n K p (f.consumed true) c' t
          match mandLoop body a cur c with
          | .stop o => o
          | .go p c' =>
            if C.msvc then greedyRecRef body tail b n a p c' .fail
            else greedyRec body tail b n a p c'
      else .ill
    -- capture, lines 422-425, 434-437
    | .re (.cap id _ m) :: t =>
      if K.store then
        match c.startCapture id cur with
        | none => .ill
        | some c' => evalC C n K cur f c' (.re (.seq m) :: .numMark id :: t)
      else .ill
    -- back references, lines 458-479
    | .re (.bref id) :: t =>
      if K.refs then
        match brefC K cur (c.get id) with
        | none => .ill
        | some (.ub, _) => .ub
        | some (.no, _) => .fail
        | some (.yes p, nonempty) => evalC C n K p (f.consumed nonempty) c t
      else .ill
    | .re (.brefName name) :: t =>
      if K.refs then
        match brefC K cur (c.getName name) with
        | none => .ill
        | some (.ub, _) => .ub
        | some (.no, _) => .fail
        | some (.yes p, nonempty) => evalC C n K p (f.consumed nonempty) c t
      else .ill
    -- lookahead, lines 495-515
    | .re (.ahead pos m) :: t =>
      match evalC C n K cur f c [.re (.seq m), .endAhead] with
      | .ok c' => if pos then evalC C n K cur f c'.unmatch t else .fail
      | .fail => if pos then .fail else evalC C n K cur f c t
      | o => o
    -- lookbehind, lines 526-548
    | .re (.behind pos m) :: t =>
      match evalC C n K.rev cur f c [.re (.seq m), .endBehind] with
      | .ok c' => if pos then evalC C n K cur f c'.unmatch t else .fail
      | .fail => if pos then .fail else evalC C n K cur f c t
      | o => o
    -- atomic group, lines 553-556
    | .re (.atomic m) :: t => evalC C n K cur f c (.re (.rep .poss 1 1 m) :: t)
    -- mode switch, lines 559-562
    | .re (.mode md) :: t => evalC C n K cur (f.add md) c t
    -- asserts and boundaries, lines 154-267
    | .re r :: t =>
      match testC C.uni K cur f r with
      | .ub => .ub
      | .no => .fail
      | .yes => evalC C n K cur f c t

/-- `match_method::exec` (/repo/include/ctre/wrapper.hpp:69-73). -/
def matchC (C : Cfg) (n : Nat) (K : Cursor) (f : Flags) (r : Re) (start : Nat) : Exec :=
  (evalC C n K start f (initCaps r) [.startMark, .re r, .re .sEnd, .endMark, .accept]).toExec r

/-- `starts_with_method::exec` (/repo/include/ctre/wrapper.hpp:109-112). -/
def startsWithC (C : Cfg) (n : Nat) (K : Cursor) (f : Flags) (r : Re) (start : Nat) : Exec :=
  (evalC C n K start f (initCaps r) [.startMark, .re r, .endMark, .accept]).toExec r

/-- The loop of `search_method::exec` and the final attempt (/repo/include/ctre/wrapper.hpp:86-100).  `fixed` stops
the loop at once; the number bounds the iterations. -/
def searchLoopC (C : Cfg) (n : Nat) (K : Cursor) (f : Flags) (r : Re) (fixed : Bool) : Nat → Nat → Exec
  | k, it =>
    let out := evalC C n K it f (initCaps r) [.startMark, .re r, .endMark, .accept]
    match K.atEnd it with
    | none => .ub
    | some e =>
      if e = true ∨ fixed = true then
        match out with
        | .fail => .done ((initCaps r).setEnd it)
        | o => o.toExec r
      else
        match out with
        | .fail =>
          match k, K.next it with
          | k' + 1, some p => searchLoopC C n K f r fixed k' p
          | 0, _ => .timeout
          | _, none => .ub
        | o => o.toExec r

/-- `search_method::exec` (/repo/include/ctre/wrapper.hpp:81-101). -/
def searchC (C : Cfg) (n : Nat) (K : Cursor) (f : Flags) (r : Re) (start : Nat) : Exec :=
  searchLoopC C n K f r (startsWithAnchor f r) K.size start

end Ctre
