import Verif.Model.Unicode
/-
The interface of the Unicode database: names of values, and the iterator over script extensions.
Source: /repo/include/unicode-db/unicode-db.hpp.  `cp_category`, `cp_script`, `cp_age` and `cp_block`
are in Model/Unicode.lean, `cp_numeric_value` is in Model/UniNumeric.lean.
-/
set_option maxRecDepth 20000
namespace Ctre.Ucd

/-- `categories_names` (/repo/include/unicode-db/unicode-db.hpp:1621-1697), number by number. -/
def categoriesNames : List (List Nat × Nat) := [
  (n!"c", 0), (n!"cased_letter", 7), (n!"cc", 1), (n!"cf", 2), (n!"close_punctuation", 24),
  (n!"cn", 3), (n!"co", 4), (n!"connector_punctuation", 22), (n!"control", 1), (n!"cs", 5),
  (n!"currency_symbol", 30), (n!"dash_punctuation", 23), (n!"decimal_number", 18),
  (n!"enclosing_mark", 15), (n!"final_punctuation", 25), (n!"format", 2),
  (n!"initial_punctuation", 26), (n!"l", 6), (n!"lc", 7), (n!"letter", 6), (n!"letter_number", 19),
  (n!"line_separator", 35), (n!"ll", 8), (n!"lm", 9), (n!"lo", 10), (n!"lowercase_letter", 8),
  (n!"lt", 11), (n!"lu", 12), (n!"m", 13), (n!"mark", 13), (n!"math_symbol", 32), (n!"mc", 14),
  (n!"me", 15), (n!"mn", 16), (n!"modifier_letter", 9), (n!"modifier_symbol", 31), (n!"n", 17),
  (n!"nd", 18), (n!"nl", 19), (n!"no", 20), (n!"nonspacing_mark", 16), (n!"number", 17),
  (n!"open_punctuation", 28), (n!"other", 0), (n!"other_letter", 10), (n!"other_number", 20),
  (n!"other_punctuation", 27), (n!"other_symbol", 33), (n!"p", 21), (n!"paragraph_separator", 36),
  (n!"pc", 22), (n!"pd", 23), (n!"pe", 24), (n!"pf", 25), (n!"pi", 26), (n!"po", 27),
  (n!"private_use", 4), (n!"ps", 28), (n!"punctuation", 21), (n!"s", 29), (n!"sc", 30),
  (n!"separator", 34), (n!"sk", 31), (n!"sm", 32), (n!"so", 33), (n!"space_separator", 37),
  (n!"spacing_mark", 14), (n!"surrogate", 5), (n!"symbol", 29), (n!"titlecase_letter", 11),
  (n!"unassigned", 3), (n!"uppercase_letter", 12), (n!"z", 34), (n!"zl", 35), (n!"zp", 36),
  (n!"zs", 37)]

/-- The enumerators of `category` in their order, the first has the number 0
(/repo/include/unicode-db/unicode-db.hpp:424-501). -/
def categoryOrder : List Cat := [
  .c, .cc, .cf, .cn, .co, .cs, .l, .lc, .ll, .lm, .lo, .lt, .lu, .m, .mc, .me, .mn, .n, .nd, .nl,
  .no, .p, .pc, .pd, .pe, .pf, .pi, .po, .ps, .s, .sc, .sk, .sm, .so, .z, .zl, .zp, .zs]

/-- `category_from_string` (/repo/include/unicode-db/unicode-db.hpp:7269-7276); `none` for a number
that is no enumerator. -/
def categoryFromString (s : List Nat) : Option Cat :=
  match fromString categoriesNames s with
  | some v => categoryOrder[v]?
  | none => some .cn

/-- `script_from_string` (/repo/include/unicode-db/unicode-db.hpp:7287-7294). -/
def scriptFromString (s : List Nat) : Nat := (fromString scriptsNames s).getD scriptUnknown

/-- `block_from_string` (/repo/include/unicode-db/unicode-db.hpp:7278-7285); `block::no_block` is 0
(/repo/include/unicode-db/unicode-db.hpp:504). -/
def blockFromString (s : List Nat) : Nat := (fromString blocksNames s).getD 0

/-- `age_from_string` (/repo/include/unicode-db/unicode-db.hpp:7260-7267); `version::unassigned` is 0
(/repo/include/unicode-db/unicode-db.hpp:397). -/
def ageFromString (s : List Nat) : Nat := (fromString ageStrings s).getD 0

/-- `script_extensions_view::iterator` (/repo/include/unicode-db/unicode-db.hpp:19-35). -/
structure ScxIter where
  c : Nat
  script : Nat
  idx : Nat
deriving DecidableEq, Repr

/-- `cp_script_extensions(c).begin()` (/repo/include/unicode-db/unicode-db.hpp:7318-7322, 7356-7358,
7363-7365), the default of `idx` at line 34. -/
def ScxIter.begin (c : Nat) : Option ScxIter :=
  match getCpScript c 1 with
  | none => none
  | some s => if s = scriptUnknown then (cpScript c).map fun t => ⟨c, t, 1⟩ else some ⟨c, s, 1⟩

/-- `operator*` (/repo/include/unicode-db/unicode-db.hpp:7324-7326). -/
def ScxIter.get (it : ScxIter) : Nat := it.script

/-- `it == end()` (/repo/include/unicode-db/unicode-db.hpp:7341-7343). -/
def ScxIter.atEnd (it : ScxIter) : Bool := it.script == scriptUnknown

/-- What both increments do to the iterator (/repo/include/unicode-db/unicode-db.hpp:7329-7330,
7336-7337). -/
def ScxIter.next (it : ScxIter) : Option ScxIter :=
  (getCpScript it.c (it.idx + 1)).map fun s => ⟨it.c, s, it.idx + 1⟩

/-- `++it` (/repo/include/unicode-db/unicode-db.hpp:7334-7339): the value of the expression and the
iterator afterwards. -/
def ScxIter.preIncrement (it : ScxIter) : Option (ScxIter × ScxIter) := it.next.map fun n => (it, n)

/-- `it++` (/repo/include/unicode-db/unicode-db.hpp:7328-7332): the value of the expression and the
iterator afterwards. -/
def ScxIter.postIncrement (it : ScxIter) : Option (ScxIter × ScxIter) := it.next.map fun n => (n, n)

end Ctre.Ucd
