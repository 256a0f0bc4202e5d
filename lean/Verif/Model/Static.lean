import Verif.Model.Eval
import Verif.Model.Wrapper

/-
Which instantiations of `evaluate` a call needs.  Source: /repo/include/ctre/evaluation.hpp

In `Model/Eval.lean` the outcome `ill` is reported when the run gets to an overload that does not compile.  The compiler
instantiates every overload that is named in a body that it instantiates, whether the run gets there or not; only the
branches of `if constexpr` that are not taken are left out.
-/
namespace Ctre

/-- The part of the type of the results that matters: the numbers and names of the groups
(/repo/include/ctre/return_type.hpp:263-321). -/
structure Known where
  ids : List Nat
  names : List (List Nat)
deriving Repr, DecidableEq

/-- `captures.template start_capture<Id>`, `end_capture<Id>` and `get<Id>` compile
(/repo/include/ctre/return_type.hpp:365-374, 491-498). -/
def Known.hasId (K : Known) (id : Nat) : Bool := decide (id = 0) || K.ids.contains id

/-- `get<Name>` compiles (/repo/include/ctre/return_type.hpp:375-398). -/
def Known.hasName (K : Known) (name : List Nat) : Bool := K.names.contains name

/-- The groups of the results of a pattern (/repo/include/ctre/find_captures.hpp:17-119). -/
def Re.known (r : Re) : Known := { ids := r.captures.map (·.id), names := r.captures.filterMap (·.name) }

/-- The instantiations of `evaluate` which are named in the body of the overload for a stack; with `true` for reverse
iterators, which do not convert to the iterators of the results.  `none`: the body does not compile
(/repo/include/ctre/evaluation.hpp:46-562, the overloads as in `eval`). -/
def uses (C : Cfg) (K : Known) (lb : Bool) : Stack → Option (List (Bool × Stack))
  -- sink, lines 46-50; accept, lines 53-56
  | [] | .accept :: _ => some []
  -- start_mark, end_mark, lines 65-74
  | .startMark :: t | .endMark :: t => if lb then none else some [(lb, t)]
  -- end_cycle_mark, lines 77-84
  | [.endCycle] => if lb then none else some []
  | .endCycle :: _ => some []
  -- end_lookahead_mark, end_lookbehind_mark, lines 482-492
  | .endAhead :: _ | .endBehind :: _ => some []
  -- numeric_mark, lines 428-431
  | .numMark id :: t => if lb then none else if K.hasId id then some [(lb, t)] else none
  -- reject, lines 59-62; ctll::reject falls into the sink, lines 46-50
  | .re (.reject _) :: _ => some []
  -- select, lines 122-135
  | .re (.sel []) :: _ => some []
  | .re (.sel (r :: opts)) :: t => some [(lb, .re r :: t), (lb, .re (.sel opts) :: t)]
  -- sequence, lines 138-145
  | .re (.seq []) :: _ => some []
  | .re (.seq [r]) :: t => some [(lb, .re r :: t)]
  | .re (.seq (r :: m)) :: t => some [(lb, .re r :: .re (.seq m) :: t)]
  -- repetitions, lines 270-419
  | .re (.rep k a b m) :: t =>
    if b ≠ 0 ∧ a > b then some [] else
    if lb then none else
    match k with
    | .greedy =>
      match (if C.greedyOpt then loopCollides m t else some true) with
      | none => none
      | some false => some [(lb, .re (.rep .poss a b m) :: t)]
      | some true => some [(lb, items m [.endCycle]), (lb, t)]
    | _ => some [(lb, items m [.endCycle]), (lb, t)]
  -- capture, lines 422-425, 434-437
  | .re (.cap id _ m) :: t =>
    if lb then none else if K.hasId id then some [(lb, .re (.seq m) :: .numMark id :: t)] else none
  -- back references, lines 458-479
  | .re (.bref id) :: t => if lb then none else if K.hasId id then some [(lb, t)] else none
  | .re (.brefName name) :: t => if lb then none else if K.hasName name then some [(lb, t)] else none
  -- lookahead, lines 495-515
  | .re (.ahead _ m) :: t => some [(lb, [.re (.seq m), .endAhead]), (lb, t)]
  -- lookbehind, lines 526-548
  | .re (.behind _ m) :: t => some [(true, [.re (.seq m), .endBehind]), (lb, t)]
  -- atomic group, lines 553-556
  | .re (.atomic m) :: t => some [(lb, .re (.rep .poss 1 1 m) :: t)]
  -- everything else goes on with the rest, lines 88-119, 148-267, 559-562
  | .re _ :: t => some [(lb, t)]

/-- Everything that the compiler instantiates for a first instantiation (/repo/include/ctre/evaluation.hpp:46-562). -/
inductive Instantiated (C : Cfg) (K : Known) (x : Bool × Stack) : Bool × Stack → Prop
  | first : Instantiated C K x x
  | next {y z : Bool × Stack} {l : List (Bool × Stack)} :
    Instantiated C K x y → uses C K y.1 y.2 = some l → z ∈ l → Instantiated C K x z

/-- Everything that is instantiated compiles (/repo/include/ctre/evaluation.hpp:46-562). -/
def Compiled (C : Cfg) (K : Known) (x : Bool × Stack) : Prop :=
  ∀ y, Instantiated C K x y → (uses C K y.1 y.2).isSome = true

/-- The instantiation that `match` begins with (/repo/include/ctre/wrapper.hpp:72). -/
def fullStart (r : Re) : Bool × Stack := (false, [.startMark, .re r, .re .sEnd, .endMark, .accept])

/-- The instantiation that `starts_with` and `search` begin with (/repo/include/ctre/wrapper.hpp:93, 98, 111). -/
def prefixStart (r : Re) : Bool × Stack := (false, [.startMark, .re r, .endMark, .accept])

end Ctre
