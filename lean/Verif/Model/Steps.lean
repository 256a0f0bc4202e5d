import Verif.Model.Wrapper

/-
How much work an evaluation is.  Source: /repo/include/ctre/evaluation.hpp

The functions follow `Model/Eval.lean` and count the calls of `evaluate` and `evaluate_recursive`, and the characters
compared by `match_string` and `match_against_range`.  Everything else is a constant amount of work for each call; the
classes of a pattern have a fixed number of members.
-/
namespace Ctre

/-- Characters that `match_string` tests (/repo/include/ctre/evaluation.hpp:108-110). -/
def compared (ci : Bool) (s : List Ch) : List Nat → Nat → Nat
  | [], _ => 0
  | c :: cs, cur =>
    match s[cur]? with
    | none => 0
    | some v => 1 + if matchCharacter ci v c then compared ci s cs (cur + 1) else 0

/-- Pairs of characters that `match_against_range` compares (/repo/include/ctre/evaluation.hpp:445-455), with the same
bound on the iterations as in `matchRangeBack`. -/
def comparedBack (s : List Ch) : Nat → Nat → Nat → Nat → Nat
  | n, cur, rc, re =>
    if cur = s.length ∨ re = rc then 0
    else
      match s[cur]?, s[rc]? with
      | some v, some w =>
        1 + if v = w then
          match n with
          | 0 => 0
          | n' + 1 => comparedBack s n' (cur + 1) (rc + 1) re
        else 0
      | _, _ => 0

/-- Comparisons of a back reference (/repo/include/ctre/evaluation.hpp:458-479). -/
def brefSteps (s : List Ch) (cur : Nat) : Option Slot → Nat
  | none => 0
  | some sl =>
    if sl.matched then
      match sl.b, sl.e with
      | some b, some e => comparedBack s (s.length - cur) cur b e
      | _, _ => 0
    else 0

/-- `work` if the attempt before it failed (/repo/include/ctre/evaluation.hpp:123-127, 295-313, 372-378). -/
def Out.ifFail (o : Out) (work : Nat) : Nat :=
  match o with
  | .fail => work
  | _ => 0

/-- Mandatory iterations (/repo/include/ctre/evaluation.hpp:280-289, 402-411). -/
def mandSteps (body : Nat → Caps → Out) (work : Nat → Caps → Nat) : Nat → Nat → Caps → Nat
  | 0, _, _ => 0
  | a + 1, cur, c =>
    work cur c +
      match step body cur c with
      | .stop _ => 0
      | .go p c' => mandSteps body work a p c'

/-- The loop of the lazy repetition (/repo/include/ctre/evaluation.hpp:295-313). -/
def lazySteps (body tail : Nat → Caps → Out) (work workT : Nat → Caps → Nat) (b : Nat) : Nat → Nat → Nat → Caps → Nat
  | 0, _, _, _ => 0
  | m + 1, i, cur, c =>
    if lessInf b i then
      work cur c +
        match step body cur c with
        | .stop _ => 0
        | .go p c' => workT p c' + (tail p c').ifFail (lazySteps body tail work workT b m (i + 1) p c')
    else workT cur c

/-- The loop of the possessive repetition (/repo/include/ctre/evaluation.hpp:326-337). -/
def possSteps (body : Nat → Caps → Out) (work : Nat → Caps → Nat) (b : Nat) : Nat → Nat → Nat → Caps → Nat
  | 0, _, _, _ => 0
  | m + 1, i, cur, c =>
    if lessInf b i then
      work cur c +
        match step body cur c with
        | .stop _ => 0
        | .go p c' => possSteps body work b m (i + 1) p c'
    else 0

/-- `evaluate_recursive` (/repo/include/ctre/evaluation.hpp:344-379); the call counts. -/
def greedySteps (body tail : Nat → Caps → Out) (work workT : Nat → Caps → Nat) (b : Nat) : Nat → Nat → Nat → Caps → Nat
  | 0, _, _, _ => 0
  | m + 1, i, cur, c =>
    1 + if lessInf b i then
      work cur c +
        match step body cur c with
        | .stop o => o.ifFail (workT cur c)
        | .go p c' =>
          greedySteps body tail work workT b m (i + 1) p c' +
            (greedyRec body tail b m (i + 1) p c').ifFail (workT cur c)
    else workT cur c

/-- The work of `evaluate(begin, current, last, f, captures, stack)` (/repo/include/ctre/evaluation.hpp:46-562), with
the cases and the arguments of `eval`. -/
def steps (C : Cfg) : Nat → List Ch → Bool → Nat → Flags → Caps → Stack → Nat
  | 0, _, _, _, _, _, _ => 0
  | n + 1, s, lb, cur, f, c, stack =>
    1 +
    match stack with
    | [] => 0
    | .accept :: _ => 0
    | .startMark :: t => if lb then 0 else steps C n s lb cur f (c.setStart cur) t
    | .endMark :: t => if lb then 0 else steps C n s lb cur f (c.setEnd cur) t
    | .endCycle :: _ => 0
    | .endAhead :: _ => 0
    | .endBehind :: _ => 0
    | .numMark id :: t =>
      if lb then 0 else
      match c.endCapture id cur with
      | none => 0
      | some c' => steps C n s lb cur f c' t
    | .re (.reject _) :: _ => 0
    | .re (.cc cl) :: t =>
      if cur = s.length then 0
      else match s[cur]? with
        | none => 0
        | some v => if cl.matchChar C.uni f.ci v then steps C n s lb (cur + 1) (f.consumed true) c t else 0
    | .re .any :: t =>
      if cur = s.length then 0
      else if f.ml then
        match s[cur]? with
        | none => 0
        | some v => if v = 10 then 0 else steps C n s lb (cur + 1) (f.consumed true) c t
      else steps C n s lb (cur + 1) (f.consumed true) c t
    | .re (.str cs) :: t =>
      compared f.ci s cs cur +
        match matchString f.ci s cs cur with
        | .ub => 0
        | .no => 0
        | .yes p => steps C n s lb p (f.consumed (decide (0 < cs.length))) c t
    | .re (.sel []) :: _ => 0
    | .re (.sel (r :: opts)) :: t =>
      steps C n s lb cur f c (.re r :: t) +
        (eval C n s lb cur f c (.re r :: t)).ifFail (steps C n s lb cur f c (.re (.sel opts) :: t))
    | .re (.seq []) :: _ => 0
    | .re (.seq [r]) :: t => steps C n s lb cur f c (.re r :: t)
    | .re (.seq (r :: m)) :: t => steps C n s lb cur f c (.re r :: .re (.seq m) :: t)
    | .re .empty :: t => steps C n s lb cur f c t
    | .re (.rep .lazy a b m) :: t =>
      if b ≠ 0 ∧ a > b then 0 else
      if lb then 0 else
      let body := fun p c' => eval C n s lb p f.notEmpty c' (items m [.endCycle])
      let work := fun p c' => steps C n s lb p f.notEmpty c' (items m [.endCycle])
      mandSteps body work a cur c +
        match mandLoop body a cur c with
        | .stop _ => 0
        | .go p c' =>
          steps C n s lb p (f.consumed (decide (cur ≠ p))) c' t +
            (eval C n s lb p (f.consumed (decide (cur ≠ p))) c' t).ifFail
              (lazySteps body (fun p c' => eval C n s lb p (f.consumed true) c' t) work
                (fun p c' => steps C n s lb p (f.consumed true) c' t) b n a p c')
    | .re (.rep .poss a b m) :: t =>
      if b ≠ 0 ∧ a > b then 0 else
      if lb then 0 else
      let body := fun p c' => eval C n s lb p f.notEmpty c' (items m [.endCycle])
      let work := fun p c' => steps C n s lb p f.notEmpty c' (items m [.endCycle])
      possSteps body work b n 0 cur c +
        match possLoop body a b n 0 cur c with
        | .stop _ => 0
        | .go p c' => steps C n s lb p (f.consumed (decide (cur ≠ p))) c' t
    | .re (.rep .greedy a b m) :: t =>
      if b ≠ 0 ∧ a > b then 0 else
      if lb then 0 else
      match (if C.greedyOpt then loopCollides m t else some true) with
      | none => 0
      | some false => steps C n s lb cur f c (.re (.rep .poss a b m) :: t)
      | some true =>
        let body := fun p c' => eval C n s lb p f.notEmpty c' (items m [.endCycle])
        let work := fun p c' => steps C n s lb p f.notEmpty c' (items m [.endCycle])
        mandSteps body work a cur c +
          match mandLoop body a cur c with
          | .stop _ => 0
          | .go p c' => greedySteps body (fun p c' => eval C n s lb p (f.consumed true) c' t) work
              (fun p c' => steps C n s lb p (f.consumed true) c' t) b n a p c'
    | .re (.cap id _ m) :: t =>
      if lb then 0 else
      match c.startCapture id cur with
      | none => 0
      | some c' => steps C n s lb cur f c' (.re (.seq m) :: .numMark id :: t)
    | .re (.bref id) :: t =>
      if lb then 0 else
      brefSteps s cur (c.get id) +
        match brefCmp s cur (c.get id) with
        | some (.yes p, nonempty) => steps C n s lb p (f.consumed nonempty) c t
        | _ => 0
    | .re (.brefName name) :: t =>
      if lb then 0 else
      brefSteps s cur (c.getName name) +
        match brefCmp s cur (c.getName name) with
        | some (.yes p, nonempty) => steps C n s lb p (f.consumed nonempty) c t
        | _ => 0
    | .re (.ahead pos m) :: t =>
      steps C n s lb cur f c [.re (.seq m), .endAhead] +
        match eval C n s lb cur f c [.re (.seq m), .endAhead] with
        | .ok c' => if pos then steps C n s lb cur f c'.unmatch t else 0
        | .fail => if pos then 0 else steps C n s lb cur f c t
        | _ => 0
    | .re (.behind pos m) :: t =>
      steps C n s.reverse true (s.length - cur) f c [.re (.seq m), .endBehind] +
        match eval C n s.reverse true (s.length - cur) f c [.re (.seq m), .endBehind] with
        | .ok c' => if pos then steps C n s lb cur f c'.unmatch t else 0
        | .fail => if pos then 0 else steps C n s lb cur f c t
        | _ => 0
    | .re (.atomic m) :: t => steps C n s lb cur f c (.re (.rep .poss 1 1 m) :: t)
    | .re (.mode md) :: t => steps C n s lb cur (f.add md) c t
    | .re r :: t =>
      match testAt C.uni s cur f r with
      | .ub => 0
      | .no => 0
      | .yes => steps C n s lb cur f c t

/-- The work of `match` (/repo/include/ctre/wrapper.hpp:69-73). -/
def matchSteps (C : Cfg) (n : Nat) (s : List Ch) (f : Flags) (r : Re) (start : Nat) : Nat :=
  steps C n s false start f (initCaps r) [.startMark, .re r, .re .sEnd, .endMark, .accept]

/-- The work of `starts_with` (/repo/include/ctre/wrapper.hpp:109-112). -/
def startsWithSteps (C : Cfg) (n : Nat) (s : List Ch) (f : Flags) (r : Re) (start : Nat) : Nat :=
  steps C n s false start f (initCaps r) [.startMark, .re r, .endMark, .accept]

/-- The work of the loop of `search` (/repo/include/ctre/wrapper.hpp:86-100). -/
def searchLoopSteps (C : Cfg) (n : Nat) (s : List Ch) (f : Flags) (r : Re) : Nat → Nat → Nat
  | 0, it => startsWithSteps C n s f r it
  | k + 1, it =>
    startsWithSteps C n s f r it + (attempt C n s f r it).ifFail (searchLoopSteps C n s f r k (it + 1))

/-- The work of `search` (/repo/include/ctre/wrapper.hpp:81-101). -/
def searchSteps (C : Cfg) (n : Nat) (s : List Ch) (f : Flags) (r : Re) (start : Nat) : Nat :=
  searchLoopSteps C n s f r (if startsWithAnchor f r then 0 else s.length - start) start

end Ctre
