import Verif.Model.Wrapper

/-
The result of a run of the evaluation machine, independent of the fuel of the model.
-/
namespace Ctre

/-- `evaluate(begin, cur, last, f, c, st)` on the subject `s` comes to an end with outcome `o`. -/
def Runs (C : Cfg) (s : List Ch) (lb : Bool) (cur : Nat) (f : Flags) (c : Caps) (st : Stack)
    (o : Out) : Prop :=
  o ≠ .timeout ∧ ∃ n, eval C n s lb cur f c st = o

/-- An API call, given as a function of the fuel, returns `e`. -/
def Returns (call : Nat → Exec) (e : Exec) : Prop := e ≠ .timeout ∧ ∃ n, call n = e

end Ctre
