import Verif.Model.Eval

/-
Unfolding equations of `eval`, one per kind of stack.
-/
namespace Ctre

/-- `if (auto r = o) return r; else x`. -/
def Out.orElse (o x : Out) : Out :=
  match o with
  | .fail => x
  | o => o

theorem Out.orElse_fail (x : Out) : Out.orElse .fail x = x := rfl
theorem Out.orElse_ok (c : Caps) (x : Out) : Out.orElse (.ok c) x = .ok c := rfl
theorem Out.orElse_eq_fail {o x : Out} : o.orElse x = .fail ↔ o = .fail ∧ x = .fail := by
  cases o <;> simp [Out.orElse]
theorem Out.orElse_eq_ok {o x : Out} {c : Caps} :
    o.orElse x = .ok c ↔ o = .ok c ∨ (o = .fail ∧ x = .ok c) := by
  cases o <;> simp [Out.orElse]

variable (C : Cfg) (n : Nat) (s : List Ch) (lb : Bool) (cur : Nat) (f : Flags) (c : Caps) (t : Stack)

theorem eval_zero (st : Stack) : eval C 0 s lb cur f c st = .timeout := rfl
theorem eval_nil : eval C (n+1) s lb cur f c [] = .fail := rfl
theorem eval_accept : eval C (n+1) s lb cur f c [.accept] = .ok c.setMatched := rfl
theorem eval_accept_cons (x : Item) : eval C (n+1) s lb cur f c (.accept :: x :: t) = .fail := rfl
theorem eval_startMark : eval C (n+1) s lb cur f c (.startMark :: t) =
    if lb then .ill else eval C n s lb cur f (c.setStart cur) t := rfl
theorem eval_endMark : eval C (n+1) s lb cur f c (.endMark :: t) =
    if lb then .ill else eval C n s lb cur f (c.setEnd cur) t := rfl
theorem eval_endCycle : eval C (n+1) s lb cur f c [.endCycle] =
    if lb then .ill else if f.blk then .fail else .ok (c.setEnd cur).setMatched := rfl
theorem eval_endCycle_cons (x : Item) : eval C (n+1) s lb cur f c (.endCycle :: x :: t) = .fail := rfl
theorem eval_endAhead : eval C (n+1) s lb cur f c [.endAhead] = .ok c.setMatched := rfl
theorem eval_endAhead_cons (x : Item) : eval C (n+1) s lb cur f c (.endAhead :: x :: t) = .fail := rfl
theorem eval_endBehind : eval C (n+1) s lb cur f c [.endBehind] = .ok c.setMatched := rfl
theorem eval_endBehind_cons (x : Item) : eval C (n+1) s lb cur f c (.endBehind :: x :: t) = .fail := rfl
theorem eval_numMark (id : Nat) : eval C (n+1) s lb cur f c (.numMark id :: t) =
    if lb then .ill else
      match c.endCapture id cur with
      | none => .ill
      | some c' => eval C n s lb cur f c' t := rfl
theorem eval_reject (own : Bool) : eval C (n+1) s lb cur f c (.re (.reject own) :: t) = .fail := rfl
theorem eval_cc (cl : CC) : eval C (n+1) s lb cur f c (.re (.cc cl) :: t) =
    if cur = s.length then .fail
      else match s[cur]? with
        | none => .ub
        | some v =>
          if cl.matchChar C.uni f.ci v then eval C n s lb (cur + 1) (f.consumed true) c t else .fail := rfl
theorem eval_any : eval C (n+1) s lb cur f c (.re .any :: t) =
      if cur = s.length then .fail
      else if f.ml then
        match s[cur]? with
        | none => .ub
        | some v =>
          if v = 10 then .fail else eval C n s lb (cur + 1) (f.consumed true) c t
      else eval C n s lb (cur + 1) (f.consumed true) c t := rfl
theorem eval_str (cs : List Nat) : eval C (n+1) s lb cur f c (.re (.str cs) :: t) =
      match matchString f.ci s cs cur with
      | .ub => .ub
      | .no => .fail
      | .yes p => eval C n s lb p (f.consumed (decide (0 < cs.length))) c t := rfl
theorem eval_sel_nil : eval C (n+1) s lb cur f c (.re (.sel []) :: t) = .fail := rfl
theorem eval_sel_cons (r : Re) (opts : List Re) :
    eval C (n+1) s lb cur f c (.re (.sel (r :: opts)) :: t) =
      (eval C n s lb cur f c (.re r :: t)).orElse (eval C n s lb cur f c (.re (.sel opts) :: t)) := rfl
theorem eval_seq_nil : eval C (n+1) s lb cur f c (.re (.seq []) :: t) = .fail := rfl
theorem eval_seq_one (r : Re) : eval C (n+1) s lb cur f c (.re (.seq [r]) :: t) =
      eval C n s lb cur f c (.re r :: t) := rfl
theorem eval_seq_cons (r r' : Re) (m : List Re) :
    eval C (n+1) s lb cur f c (.re (.seq (r :: r' :: m)) :: t) =
      eval C n s lb cur f c (.re r :: .re (.seq (r' :: m)) :: t) := rfl
theorem eval_empty : eval C (n+1) s lb cur f c (.re .empty :: t) = eval C n s lb cur f c t := rfl
theorem eval_lazy (a b : Nat) (m : List Re) :
    eval C (n+1) s lb cur f c (.re (.rep .lazy a b m) :: t) =
      if b ≠ 0 ∧ a > b then .fail else
      if lb then .ill else
      match mandLoop (fun p c' => eval C n s lb p f.notEmpty c' (items m [.endCycle])) a cur c with
      | .stop o => o
      | .go p c' =>
        (eval C n s lb p (f.consumed (decide (cur ≠ p))) c' t).orElse
          (lazyLoop (fun p c' => eval C n s lb p f.notEmpty c' (items m [.endCycle]))
            (fun p c' => eval C n s lb p (f.consumed true) c' t) b n a p c') := rfl
theorem eval_poss (a b : Nat) (m : List Re) :
    eval C (n+1) s lb cur f c (.re (.rep .poss a b m) :: t) =
      if b ≠ 0 ∧ a > b then .fail else
      if lb then .ill else
      match possLoop (fun p c' => eval C n s lb p f.notEmpty c' (items m [.endCycle])) a b n 0 cur c with
      | .stop o => o
      | .go p c' => eval C n s lb p (f.consumed (decide (cur ≠ p))) c' t := rfl
theorem eval_greedy (a b : Nat) (m : List Re) :
    eval C (n+1) s lb cur f c (.re (.rep .greedy a b m) :: t) =
      if b ≠ 0 ∧ a > b then .fail else
      if lb then .ill else
      match (if C.greedyOpt then loopCollides m t else some true) with
      | none => .ill
      | some false => eval C n s lb cur f c (.re (.rep .poss a b m) :: t)
      | some true =>
        match mandLoop (fun p c' => eval C n s lb p f.notEmpty c' (items m [.endCycle])) a cur c with
        | .stop o => o
        | .go p c' =>
          if C.msvc then greedyRecRef (fun p c' => eval C n s lb p f.notEmpty c' (items m [.endCycle]))
            (fun p c' => eval C n s lb p (f.consumed true) c' t) b n a p c' .fail
          else greedyRec (fun p c' => eval C n s lb p f.notEmpty c' (items m [.endCycle]))
            (fun p c' => eval C n s lb p (f.consumed true) c' t) b n a p c' := rfl
theorem eval_cap (id : Nat) (name : Option (List Nat)) (m : List Re) :
    eval C (n+1) s lb cur f c (.re (.cap id name m) :: t) =
      if lb then .ill else
      match c.startCapture id cur with
      | none => .ill
      | some c' => eval C n s lb cur f c' (.re (.seq m) :: .numMark id :: t) := rfl
theorem eval_bref (id : Nat) : eval C (n+1) s lb cur f c (.re (.bref id) :: t) =
      if lb then .ill else
      match brefCmp s cur (c.get id) with
      | none => .ill
      | some (.ub, _) => .ub
      | some (.no, _) => .fail
      | some (.yes p, nonempty) => eval C n s lb p (f.consumed nonempty) c t := rfl
theorem eval_brefName (name : List Nat) : eval C (n+1) s lb cur f c (.re (.brefName name) :: t) =
      if lb then .ill else
      match brefCmp s cur (c.getName name) with
      | none => .ill
      | some (.ub, _) => .ub
      | some (.no, _) => .fail
      | some (.yes p, nonempty) => eval C n s lb p (f.consumed nonempty) c t := rfl
theorem eval_ahead (pos : Bool) (m : List Re) :
    eval C (n+1) s lb cur f c (.re (.ahead pos m) :: t) =
      match eval C n s lb cur f c [.re (.seq m), .endAhead] with
      | .ok c' => if pos then eval C n s lb cur f c'.unmatch t else .fail
      | .fail => if pos then .fail else eval C n s lb cur f c t
      | o => o := rfl
theorem eval_behind (pos : Bool) (m : List Re) :
    eval C (n+1) s lb cur f c (.re (.behind pos m) :: t) =
      match eval C n s.reverse true (s.length - cur) f c [.re (.seq m), .endBehind] with
      | .ok c' => if pos then eval C n s lb cur f c'.unmatch t else .fail
      | .fail => if pos then .fail else eval C n s lb cur f c t
      | o => o := rfl
theorem eval_atomic (m : List Re) : eval C (n+1) s lb cur f c (.re (.atomic m) :: t) =
      eval C n s lb cur f c (.re (.rep .poss 1 1 m) :: t) := rfl
theorem eval_mode (md : Mode) : eval C (n+1) s lb cur f c (.re (.mode md) :: t) =
      eval C n s lb cur (f.add md) c t := rfl

/-- The zero-width tests. -/
def Re.isTest : Re → Bool
  | .sBegin | .sEnd | .sEndLine | .lBegin | .lEnd | .boundary _ | .notBoundary _ => true
  | _ => false

theorem eval_test (r : Re) (h : r.isTest = true) : eval C (n+1) s lb cur f c (.re r :: t) =
      match testAt C.uni s cur f r with
      | .ub => .ub
      | .no => .fail
      | .yes => eval C n s lb cur f c t := by
  cases r <;> first | rfl | simp [Re.isTest] at h

end Ctre
