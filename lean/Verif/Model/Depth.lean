import Verif.Model.Steps

/-
How deeply the calls of an evaluation are nested.  Source: /repo/include/ctre/evaluation.hpp

The functions follow `Model/Steps.lean` and take the maximum over the calls that follow one another instead of the sum.
Loops (`while`, `for`) are not nested calls; `evaluate_recursive` is.
-/
namespace Ctre

/-- Mandatory iterations (/repo/include/ctre/evaluation.hpp:280-289, 402-411). -/
def mandDepth (body : Nat → Caps → Out) (deep : Nat → Caps → Nat) : Nat → Nat → Caps → Nat
  | 0, _, _ => 0
  | a + 1, cur, c =>
    max (deep cur c)
      (match step body cur c with
      | .stop _ => 0
      | .go p c' => mandDepth body deep a p c')

/-- The loop of the lazy repetition (/repo/include/ctre/evaluation.hpp:295-313). -/
def lazyDepth (body tail : Nat → Caps → Out) (deep deepT : Nat → Caps → Nat) (b : Nat) : Nat → Nat → Nat → Caps → Nat
  | 0, _, _, _ => 0
  | m + 1, i, cur, c =>
    if lessInf b i then
      max (deep cur c)
        (match step body cur c with
        | .stop _ => 0
        | .go p c' => max (deepT p c') ((tail p c').ifFail (lazyDepth body tail deep deepT b m (i + 1) p c')))
    else deepT cur c

/-- The loop of the possessive repetition (/repo/include/ctre/evaluation.hpp:326-337). -/
def possDepth (body : Nat → Caps → Out) (deep : Nat → Caps → Nat) (b : Nat) : Nat → Nat → Nat → Caps → Nat
  | 0, _, _, _ => 0
  | m + 1, i, cur, c =>
    if lessInf b i then
      max (deep cur c)
        (match step body cur c with
        | .stop _ => 0
        | .go p c' => possDepth body deep b m (i + 1) p c')
    else 0

/-- `evaluate_recursive` (/repo/include/ctre/evaluation.hpp:344-379); the call counts. -/
def greedyDepth (body tail : Nat → Caps → Out) (deep deepT : Nat → Caps → Nat) (b : Nat) : Nat → Nat → Nat → Caps → Nat
  | 0, _, _, _ => 0
  | m + 1, i, cur, c =>
    1 + if lessInf b i then
      max (deep cur c)
        (match step body cur c with
        | .stop o => o.ifFail (deepT cur c)
        | .go p c' =>
          max (greedyDepth body tail deep deepT b m (i + 1) p c')
            ((greedyRec body tail b m (i + 1) p c').ifFail (deepT cur c)))
    else deepT cur c

/-- The depth of `evaluate(begin, current, last, f, captures, stack)` (/repo/include/ctre/evaluation.hpp:46-562), with
the cases and the arguments of `eval`. -/
def depth (C : Cfg) : Nat → List Ch → Bool → Nat → Flags → Caps → Stack → Nat
  | 0, _, _, _, _, _, _ => 0
  | n + 1, s, lb, cur, f, c, stack =>
    1 +
    match stack with
    | [] => 0
    | .accept :: _ => 0
    | .startMark :: t => if lb then 0 else depth C n s lb cur f (c.setStart cur) t
    | .endMark :: t => if lb then 0 else depth C n s lb cur f (c.setEnd cur) t
    | .endCycle :: _ => 0
    | .endAhead :: _ => 0
    | .endBehind :: _ => 0
    | .numMark id :: t =>
      if lb then 0 else
      match c.endCapture id cur with
      | none => 0
      | some c' => depth C n s lb cur f c' t
    | .re (.reject _) :: _ => 0
    | .re (.cc cl) :: t =>
      if cur = s.length then 0
      else match s[cur]? with
        | none => 0
        | some v => if cl.matchChar C.uni f.ci v then depth C n s lb (cur + 1) (f.consumed true) c t else 0
    | .re .any :: t =>
      if cur = s.length then 0
      else if f.ml then
        match s[cur]? with
        | none => 0
        | some v => if v = 10 then 0 else depth C n s lb (cur + 1) (f.consumed true) c t
      else depth C n s lb (cur + 1) (f.consumed true) c t
    | .re (.str cs) :: t =>
      match matchString f.ci s cs cur with
      | .ub => 0
      | .no => 0
      | .yes p => depth C n s lb p (f.consumed (decide (0 < cs.length))) c t
    | .re (.sel []) :: _ => 0
    | .re (.sel (r :: opts)) :: t =>
      max (depth C n s lb cur f c (.re r :: t))
        ((eval C n s lb cur f c (.re r :: t)).ifFail (depth C n s lb cur f c (.re (.sel opts) :: t)))
    | .re (.seq []) :: _ => 0
    | .re (.seq [r]) :: t => depth C n s lb cur f c (.re r :: t)
    | .re (.seq (r :: m)) :: t => depth C n s lb cur f c (.re r :: .re (.seq m) :: t)
    | .re .empty :: t => depth C n s lb cur f c t
    | .re (.rep .lazy a b m) :: t =>
      if b ≠ 0 ∧ a > b then 0 else
      if lb then 0 else
      let body := fun p c' => eval C n s lb p f.notEmpty c' (items m [.endCycle])
      let deep := fun p c' => depth C n s lb p f.notEmpty c' (items m [.endCycle])
      max (mandDepth body deep a cur c)
        (match mandLoop body a cur c with
        | .stop _ => 0
        | .go p c' =>
          max (depth C n s lb p (f.consumed (decide (cur ≠ p))) c' t)
            ((eval C n s lb p (f.consumed (decide (cur ≠ p))) c' t).ifFail
              (lazyDepth body (fun p c' => eval C n s lb p (f.consumed true) c' t) deep
                (fun p c' => depth C n s lb p (f.consumed true) c' t) b n a p c')))
    | .re (.rep .poss a b m) :: t =>
      if b ≠ 0 ∧ a > b then 0 else
      if lb then 0 else
      let body := fun p c' => eval C n s lb p f.notEmpty c' (items m [.endCycle])
      let deep := fun p c' => depth C n s lb p f.notEmpty c' (items m [.endCycle])
      max (possDepth body deep b n 0 cur c)
        (match possLoop body a b n 0 cur c with
        | .stop _ => 0
        | .go p c' => depth C n s lb p (f.consumed (decide (cur ≠ p))) c' t)
    | .re (.rep .greedy a b m) :: t =>
      if b ≠ 0 ∧ a > b then 0 else
      if lb then 0 else
      match (if C.greedyOpt then loopCollides m t else some true) with
      | none => 0
      | some false => depth C n s lb cur f c (.re (.rep .poss a b m) :: t)
      | some true =>
        let body := fun p c' => eval C n s lb p f.notEmpty c' (items m [.endCycle])
        let deep := fun p c' => depth C n s lb p f.notEmpty c' (items m [.endCycle])
        max (mandDepth body deep a cur c)
          (match mandLoop body a cur c with
          | .stop _ => 0
          | .go p c' => greedyDepth body (fun p c' => eval C n s lb p (f.consumed true) c' t) deep
              (fun p c' => depth C n s lb p (f.consumed true) c' t) b n a p c')
    | .re (.cap id _ m) :: t =>
      if lb then 0 else
      match c.startCapture id cur with
      | none => 0
      | some c' => depth C n s lb cur f c' (.re (.seq m) :: .numMark id :: t)
    | .re (.bref id) :: t =>
      if lb then 0 else
      match brefCmp s cur (c.get id) with
      | some (.yes p, nonempty) => depth C n s lb p (f.consumed nonempty) c t
      | _ => 0
    | .re (.brefName name) :: t =>
      if lb then 0 else
      match brefCmp s cur (c.getName name) with
      | some (.yes p, nonempty) => depth C n s lb p (f.consumed nonempty) c t
      | _ => 0
    | .re (.ahead pos m) :: t =>
      max (depth C n s lb cur f c [.re (.seq m), .endAhead])
        (match eval C n s lb cur f c [.re (.seq m), .endAhead] with
        | .ok c' => if pos then depth C n s lb cur f c'.unmatch t else 0
        | .fail => if pos then 0 else depth C n s lb cur f c t
        | _ => 0)
    | .re (.behind pos m) :: t =>
      max (depth C n s.reverse true (s.length - cur) f c [.re (.seq m), .endBehind])
        (match eval C n s.reverse true (s.length - cur) f c [.re (.seq m), .endBehind] with
        | .ok c' => if pos then depth C n s lb cur f c'.unmatch t else 0
        | .fail => if pos then 0 else depth C n s lb cur f c t
        | _ => 0)
    | .re (.atomic m) :: t => depth C n s lb cur f c (.re (.rep .poss 1 1 m) :: t)
    | .re (.mode md) :: t => depth C n s lb cur (f.add md) c t
    | .re r :: t =>
      match testAt C.uni s cur f r with
      | .ub => 0
      | .no => 0
      | .yes => depth C n s lb cur f c t

/-- The depth of `match` (/repo/include/ctre/wrapper.hpp:69-73). -/
def matchDepth (C : Cfg) (n : Nat) (s : List Ch) (f : Flags) (r : Re) (start : Nat) : Nat :=
  depth C n s false start f (initCaps r) [.startMark, .re r, .re .sEnd, .endMark, .accept]

/-- The depth of `starts_with` (/repo/include/ctre/wrapper.hpp:109-112). -/
def startsWithDepth (C : Cfg) (n : Nat) (s : List Ch) (f : Flags) (r : Re) (start : Nat) : Nat :=
  depth C n s false start f (initCaps r) [.startMark, .re r, .endMark, .accept]

/-- The depth of the loop of `search` (/repo/include/ctre/wrapper.hpp:86-100). -/
def searchLoopDepth (C : Cfg) (n : Nat) (s : List Ch) (f : Flags) (r : Re) : Nat → Nat → Nat
  | 0, it => startsWithDepth C n s f r it
  | k + 1, it =>
    max (startsWithDepth C n s f r it) ((attempt C n s f r it).ifFail (searchLoopDepth C n s f r k (it + 1)))

/-- The depth of `search` (/repo/include/ctre/wrapper.hpp:81-101). -/
def searchDepth (C : Cfg) (n : Nat) (s : List Ch) (f : Flags) (r : Re) (start : Nat) : Nat :=
  searchLoopDepth C n s f r (if startsWithAnchor f r then 0 else s.length - start) start

end Ctre
