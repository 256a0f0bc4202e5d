import Verif.Model.Eval

/-
match / search / starts_with.  Source: /repo/include/ctre/wrapper.hpp,
/repo/include/ctre/starts_with_anchor.hpp
-/
namespace Ctre

mutual
/-- `starts_with_anchor(f, list<r, Content...>)` (/repo/include/ctre/starts_with_anchor.hpp:8-80).
`k` is the value for `list<Content...>`.  A named capture is unpacked as
`list<Name, Seq..., Content...>` (line 76), and `Name` selects the default overload, hence `false`. -/
def anchorRe (f : Flags) (k : Bool) : Re → Bool
  | .sBegin => true
  | .lBegin => !f.ml || k
  | .boundary _ => k
  | .sel opts => anchorSel f k opts
  | .seq m => anchorSeq f k m
  | .rep kind a b m =>
    if a = 0 ∧ b = 1 ∧ kind ≠ .poss then anchorSeq f k m && k else anchorSeq f k m
  | .cap _ none m => anchorSeq f k m
  | _ => false

/-- `starts_with_anchor(f, list<Seq..., Content...>)`
(/repo/include/ctre/starts_with_anchor.hpp:49-53). -/
def anchorSeq (f : Flags) (k : Bool) : List Re → Bool
  | [] => k
  | r :: m => anchorRe f (anchorSeq f k m) r

/-- `(starts_with_anchor(f, list<Options, Content...>{}) && ... && true)`
(/repo/include/ctre/starts_with_anchor.hpp:31-35). -/
def anchorSel (f : Flags) (k : Bool) : List Re → Bool
  | [] => true
  | r :: opts => anchorRe f k r && anchorSel f k opts
end

/-- `starts_with_anchor(Modifier{}, ctll::list<RE>{})` (/repo/include/ctre/wrapper.hpp:84);
`starts_with_anchor(f, list<>)` is the default overload
(/repo/include/ctre/starts_with_anchor.hpp:8-11). -/
def startsWithAnchor (f : Flags) (r : Re) : Bool := anchorRe f false r

/-- Result of an API call: the `regex_results` value, or no result at all (/repo/include/ctre/wrapper.hpp:68-118). -/
inductive Exec where
  | timeout
  | ub
  | ill
  | done (r : Caps)
deriving Repr, DecidableEq

/-- A `not_matched` outcome is converted to a fresh result object
(/repo/include/ctre/return_type.hpp:360). -/
def Out.toExec (r : Re) : Out → Exec
  | .timeout => .timeout
  | .ub => .ub
  | .ill => .ill
  | .fail => .done (initCaps r)
  | .ok c => .done c

/-- `operator bool` of the result (/repo/include/ctre/return_type.hpp:410-412). -/
def Exec.success : Exec → Bool
  | .done c => c.whole.matched
  | _ => false

/-- The pattern attempted at position `it` without anchoring the end: the `evaluate` call of
`starts_with_method` and `search_method` (/repo/include/ctre/wrapper.hpp:89, 95, 111). -/
def attempt (C : Cfg) (n : Nat) (s : List Ch) (f : Flags) (r : Re) (it : Nat) : Out :=
  eval C n s false it f (initCaps r) [.startMark, .re r, .endMark, .accept]

/-- The `evaluate` call of `match_method` (/repo/include/ctre/wrapper.hpp:72). -/
def attemptFull (C : Cfg) (n : Nat) (s : List Ch) (f : Flags) (r : Re) (it : Nat) : Out :=
  eval C n s false it f (initCaps r) [.startMark, .re r, .re .sEnd, .endMark, .accept]

/-- `match_method::exec(orig_begin, begin, end, RE)` (/repo/include/ctre/wrapper.hpp:69-73). -/
def matchAt (C : Cfg) (n : Nat) (s : List Ch) (f : Flags) (r : Re) (start : Nat) : Exec :=
  (attemptFull C n s f r start).toExec r

/-- `starts_with_method::exec(orig_begin, begin, end, RE)` (/repo/include/ctre/wrapper.hpp:109-112). -/
def startsWithAt (C : Cfg) (n : Nat) (s : List Ch) (f : Flags) (r : Re) (start : Nat) : Exec :=
  (attempt C n s f r start).toExec r

/-- The loop and the final attempt of `search_method::exec` (/repo/include/ctre/wrapper.hpp:86-100).
The first argument is the number of loop iterations left: `end - it`, or 0 when `fixed`. -/
def searchLoop (C : Cfg) (n : Nat) (s : List Ch) (f : Flags) (r : Re) : Nat → Nat → Exec
  | 0, it =>
    match attempt C n s f r it with
    | .fail => .done ((initCaps r).setEnd it)
    | o => o.toExec r
  | k + 1, it =>
    match attempt C n s f r it with
    | .fail => searchLoop C n s f r k (it + 1)
    | o => o.toExec r

/-- `search_method::exec(orig_begin, begin, end, RE)` (/repo/include/ctre/wrapper.hpp:81-101). -/
def searchAt (C : Cfg) (n : Nat) (s : List Ch) (f : Flags) (r : Re) (start : Nat) : Exec :=
  searchLoop C n s f r (if startsWithAnchor f r then 0 else s.length - start) start

/-- `match<...>(subject)` (/repo/include/ctre/wrapper.hpp:75-77, 176). -/
def cMatch (C : Cfg) (n : Nat) (s : List Ch) (f : Flags) (r : Re) : Exec := matchAt C n s f r 0

/-- `starts_with<...>(subject)` (/repo/include/ctre/wrapper.hpp:114-116). -/
def cStartsWith (C : Cfg) (n : Nat) (s : List Ch) (f : Flags) (r : Re) : Exec :=
  startsWithAt C n s f r 0

/-- `search<...>(subject)` (/repo/include/ctre/wrapper.hpp:103-105). -/
def cSearch (C : Cfg) (n : Nat) (s : List Ch) (f : Flags) (r : Re) : Exec := searchAt C n s f r 0

end Ctre
