import Lean
/-
`n!"text"` is the list of the character codes of a text, written out as numerals.
-/
open Lean Elab Term in
/-- The character codes of a string literal. -/
elab:max "n!" s:str : term => return toExpr (s.getString.toList.map Char.toNat)
