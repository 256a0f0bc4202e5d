import Verif.Spec.Surface
/-
The pattern text that says what patterns joined by the operators `|` and `>>` mean.

This file does not mention the parser, the trees it builds, or the evaluation machine.
-/
namespace Ctre.Surface

/-- `(?:a)|(?:b)` -/
def orBody (a b : Body) : Body := .alt (.bar (.one (.group a) .none) (.one (.one (.group b) .none)))

/-- `(?:a)(?:b)` -/
def thenBody (a b : Body) : Body := .alt (.one (.cons (.group a) .none (.one (.group b) .none)))

end Ctre.Surface
