import Verif.Spec.Surface

/-
Patterns with an inline mode, and lists of flags.
-/
namespace Ctre

/-- In the list, `x` occurs and none of `ys` comes after its last occurrence. -/
def LastIs (x : Mode) (ys : List Mode) (l : List Mode) : Prop := ∃ l₁ l₂, l = l₁ ++ x :: l₂ ∧ ∀ y ∈ ys, y ∉ l₂

namespace Surface

/-- One sequence after the other. -/
def Cat.andThen : Cat → Cat → Cat
  | .one a q, l' => .cons a q l'
  | .cons a q l, l' => .cons a q (l.andThen l')

/-- `pre(?m)post` -/
def Cat.inline (pre : Cat) (m : Mode) (post : Cat) : Cat := pre.andThen (.cons (.mode m) .none post)

/-- The text `(?i)`, `(?c)`, `(?s)` or `(?m)`. -/
def modeText (m : Mode) : List Nat := [40, 63, modeLetter m, 41]

end Surface
end Ctre
