import Verif.Model.Unicode
import Verif.Model.Parser
import Verif.Model.Wrapper
import Verif.Spec.Ucd
import Verif.Spec.Runs
/-
What a pattern of one Unicode property has to do.
-/
namespace Ctre

/-- `\p{w}` or `\P{w}` -/
def propText (neg : Bool) (w : List Nat) : List Nat := [92, if neg then 80 else 112, 123] ++ w ++ [125]

/-- `\p{w=v}` or `\P{w=v}` -/
def valueText (neg : Bool) (w v : List Nat) : List Nat := [92, if neg then 80 else 112, 123] ++ w ++ [61] ++ v ++ [125]

/-- The pattern text is accepted, and `match` succeeds on the subject of the one code point `c` exactly when `p c`. -/
def MatchesExactly (text : List Nat) (p : Nat → Prop) : Prop :=
  ∃ r, Parse.build Ucd.table text = .pattern r ∧
    ∀ (C : Cfg) (f : Flags) (c : Nat), C.uni = Ucd.uni → c < 0x110000 →
      ∃ x, Returns (fun n => cMatch C n [(c : Ch)] f r) (.done x) ∧ (x.whole.matched = true ↔ p c)

/-- `\p{w}` stands for the code points with `p`, and `\P{w}` for the others. -/
def Denotes (w : List Nat) (p : Nat → Prop) : Prop :=
  MatchesExactly (propText false w) p ∧ MatchesExactly (propText true w) (fun c => ¬ p c)

/-- `\p{w=v}` stands for the code points with `p`, and `\P{w=v}` for the others. -/
def ValueDenotes (w v : List Nat) (p : Nat → Prop) : Prop :=
  MatchesExactly (valueText false w v) p ∧ MatchesExactly (valueText true w v) (fun c => ¬ p c)

example : propText false n!"Lu" = n!"\\p{Lu}" := rfl
example : valueText true n!"sc" n!"Grek" = n!"\\P{sc=Grek}" := rfl

end Ctre
