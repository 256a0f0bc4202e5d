import Verif.Model.Atoms

/-
Reversal of patterns for lookbehind.  Source: /repo/include/ctre/rotate.hpp
-/
namespace Ctre

mutual
/-- `rotate_for_lookbehind::rotate` (/repo/include/ctre/rotate.hpp:20-99).  `none`: no overload
(`mode_switch`, `ctll::reject`).  The overloads for the three repetition templates use `rotate` in their trailing
return type, where C++ only finds the overloads declared before them; this is not modelled because a
repetition inside a lookbehind does not compile anyway (see `eval`). -/
def Re.rotate : Re → Option Re
  | .cc c => some (.cc c)
  | .any => some .any
  | .str s => some (.str s.reverse)
  | .sel l => (rotateList l).map .sel
  | .seq l => (rotateList l).map fun l' => .seq l'.reverse
  | .empty => some .empty
  | .rep k a b l => (rotateList l).map fun l' => .rep k a b l'.reverse
  | .cap id name l => (rotateList l).map fun l' => .cap id name l'.reverse
  | .bref id => some (.bref id)
  | .brefName name => some (.brefName name)
  | .ahead p l => some (.ahead p l)
  | .behind p l => some (.behind p l)
  | .atomic l => (rotateList l).map fun l' => .atomic l'.reverse
  | .boundary c => some (.boundary c)
  | .notBoundary c => some (.notBoundary c)
  | .sBegin => some .sBegin
  | .sEnd => some .sEnd
  | .sEndLine => some .sEndLine
  | .lBegin => some .lBegin
  | .lEnd => some .lEnd
  | .mode _ => none
  | .reject true => some (.reject true)
  | .reject false => none

/-- The pack expansion `decltype(rotate(Content{}))...` (/repo/include/ctre/rotate.hpp:51-87). -/
def rotateList : List Re → Option (List Re)
  | [] => some []
  | r :: l =>
    match Re.rotate r with
    | none => none
    | some r' => (rotateList l).map (r' :: ·)
end

end Ctre
