import Verif.Model.UniApi
/-
What a loop over script extensions visits.
-/
namespace Ctre.Ucd

/-- `for(; it != end(); ++it) use(*it);` ends and has used these scripts. -/
inductive Visits : ScxIter → List Nat → Prop
  | stop {it : ScxIter} (h : it.atEnd = true) : Visits it []
  | step {it v next : ScxIter} {l : List Nat} (h : it.atEnd = false) (hi : it.preIncrement = some (v, next))
      (hl : Visits next l) : Visits it (it.get :: l)

/-- A loop over `cp_script_extensions(c)` visits these scripts. -/
def Extensions (c : Nat) (l : List Nat) : Prop := ∃ it, ScxIter.begin c = some it ∧ Visits it l

end Ctre.Ucd
