import Verif.Spec.Surface
/-
Pattern texts that demand, or exclude, that another pattern matches at the same place.

This file does not mention the parser, the trees it builds, or the evaluation machine.
-/
namespace Ctre.Surface

/-- `(?=p)(?:q)` if `pos`, else `(?!p)(?:q)` -/
def guarded (pos : Bool) (p q : Body) : Body := .alt (.one (.cons (.ahead pos p) .none (.one (.group q) .none)))

/-- Its text. -/
def guardedText (pos : Bool) (tp tq : List Nat) : List Nat := [40, 63, if pos then 61 else 33] ++ tp ++ [41, 40, 63, 58] ++ tq ++ [41]

end Ctre.Surface
