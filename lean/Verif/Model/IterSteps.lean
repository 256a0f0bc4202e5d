import Verif.Model.Steps
import Verif.Model.Iterators

/-
The amount of work of a loop over the results of `search_all`, `tokenize` and `split`.
Source: /repo/include/ctre/iterators.hpp, /repo/include/ctre/wrapper.hpp

The work is that of the calls of the matcher (Model/Steps).
-/
namespace Ctre

/-- The work of the constructor and of the first `k` increments (/repo/include/ctre/iterators.hpp:34-58): every call of
`exec` from position `p` takes `cost p`. -/
def RIter.work (exec : Nat → Exec) (cost : Nat → Nat) (len : Nat) (dflt : Caps) : Nat → Nat
  | 0 => cost 0
  | k + 1 =>
    RIter.work exec cost len dflt k +
      match RIter.nth exec len dflt k with
      | some it => if it.current = len then 0 else cost it.current
      | none => 0

/-- The same for `regex_split_iterator` (/repo/include/ctre/iterators.hpp:128-156). -/
def SIter.work (exec : Nat → Exec) (cost : Nat → Nat) (len : Nat) (dflt : Caps) : Nat → Nat
  | 0 => cost 0
  | k + 1 =>
    SIter.work exec cost len dflt k +
      match SIter.nth exec len dflt k with
      | some it => if it.current = len ∧ it.lastMatch then 0 else cost it.current
      | none => 0

/-- The work of `search_all` up to the `k`-th increment (/repo/include/ctre/wrapper.hpp:120-128). -/
def searchAllSteps (C : Cfg) (n : Nat) (s : List Ch) (f : Flags) (r : Re) (k : Nat) : Nat :=
  RIter.work (searchAt C n s f r) (searchSteps C n s f r) s.length (initCaps r) k

/-- The work of `tokenize` up to the `k`-th increment (/repo/include/ctre/wrapper.hpp:129-136). -/
def tokenizeSteps (C : Cfg) (n : Nat) (s : List Ch) (f : Flags) (r : Re) (k : Nat) : Nat :=
  RIter.work (startsWithAt C n s f r) (startsWithSteps C n s f r) s.length (initCaps r) k

/-- The work of `split` up to the `k`-th increment (/repo/include/ctre/wrapper.hpp:138-145). -/
def splitSteps (C : Cfg) (n : Nat) (s : List Ch) (f : Flags) (r : Re) (k : Nat) : Nat :=
  SIter.work (searchAt C n s f r) (searchSteps C n s f r) s.length (initCaps r) k

end Ctre
