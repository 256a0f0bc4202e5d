import Verif.Model.UniLookup
/-
The enumerations of the Unicode database and the specialisations of `get_binary_prop`.
Source: /repo/include/unicode-db/unicode-db.hpp
Generated from the source text, number by number.
-/
set_option maxRecDepth 20000
namespace Ctre.Ucd

/-- `enum class category` (/repo/include/unicode-db/unicode-db.hpp:424-502). -/
inductive Cat where
  | c | cc | cf | cn | co | cs | l | lc | ll | lm | lo | lt | lu | m | mc | me
  | mn | n | nd | nl | no | p | pc | pd | pe | pf | pi | po | ps | s | sc | sk
  | sm | so | z | zl | zp | zs
deriving DecidableEq, Repr

/-- `enum class property` (/repo/include/unicode-db/unicode-db.hpp:5283-5366). -/
inductive Prp where
  | ahex | alpha | bidi_c | bidi_m | cased | ci | dash | dep | di | dia | emoji
  | emoji_component | emoji_modifier | emoji_modifier_base | emoji_presentation | ext
  | extended_pictographic | gr_base | gr_ext | hex | idc | ideo | ids | idsb | idst
  | join_c | loe | lower | math | nchar | pat_syn | pat_ws | pcm | qmark | radical | ri
  | sd | sterm | term | uideo | upper | vs | wspace | xidc | xids
deriving DecidableEq, Repr

/-- The right-hand sides of the specialisations of `get_binary_prop`
(/repo/include/unicode-db/unicode-db.hpp:7790-9018, 9516-9529). -/
inductive PropKind where
  /-- `cp_property_is<property::p>(c)` -/
  | prop (p : Prp)
  /-- `cp_category_is<category::k>(c)` -/
  | cat (k : Cat)
  /-- `cp_script(c) == script::s`, `s` the number of the enumerator (/repo/include/unicode-db/unicode-db.hpp:958-1279) -/
  | script (s : Nat)
  /-- `cp_is_valid(c)` -/
  | valid
  /-- `cp_is_ascii(c)` -/
  | ascii
  /-- `cp_is_assigned(c)` -/
  | assigned
deriving DecidableEq, Repr

/-- The specialisation of `get_binary_prop` for every enumerator of `enum class binary_prop`, in
their order (/repo/include/unicode-db/unicode-db.hpp:7537-7788, 7790-9018, 9516-9529). -/
def binaryPropKinds : List PropKind := [
  .prop .ahex, .prop .alpha, .prop .bidi_c, .prop .bidi_m, .prop .cased, .prop .ci, .prop .dash,
  .prop .dep, .prop .di, .prop .dia, .prop .emoji, .prop .emoji_component, .prop .emoji_modifier,
  .prop .emoji_modifier_base, .prop .emoji_presentation, .prop .ext, .prop .extended_pictographic,
  .prop .gr_base, .prop .gr_ext, .prop .hex, .prop .idc, .prop .ideo, .prop .ids, .prop .idsb,
  .prop .idst, .prop .join_c, .prop .loe, .prop .lower, .prop .math, .prop .nchar, .prop .pat_syn,
  .prop .pat_ws, .prop .pcm, .prop .qmark, .prop .radical, .prop .ri, .prop .sd, .prop .sterm,
  .prop .term, .prop .uideo, .prop .upper, .prop .vs, .prop .wspace, .prop .xidc, .prop .xids,
  .valid, .ascii, .assigned, .cat .c, .cat .cc, .cat .cf, .cat .cn, .cat .co, .cat .cs, .cat .l,
  .cat .lc, .cat .ll, .cat .lm, .cat .lo, .cat .lt, .cat .lu, .cat .m, .cat .mc, .cat .me,
  .cat .mn, .cat .n, .cat .nd, .cat .nl, .cat .no, .cat .p, .cat .pc, .cat .pd, .cat .pe, .cat .pf,
  .cat .pi, .cat .po, .cat .ps, .cat .s, .cat .sc, .cat .sk, .cat .sm, .cat .so, .cat .z, .cat .zl,
  .cat .zp, .cat .zs, .script 0, .script 1, .script 2, .script 3, .script 4, .script 5, .script 6,
  .script 7, .script 8, .script 9, .script 10, .script 11, .script 12, .script 13, .script 14,
  .script 15, .script 16, .script 17, .script 18, .script 19, .script 20, .script 21, .script 22,
  .script 23, .script 24, .script 25, .script 26, .script 27, .script 28, .script 29, .script 30,
  .script 31, .script 32, .script 33, .script 34, .script 35, .script 36, .script 37, .script 38,
  .script 39, .script 40, .script 41, .script 42, .script 43, .script 44, .script 45, .script 46,
  .script 47, .script 48, .script 49, .script 50, .script 51, .script 52, .script 53, .script 54,
  .script 55, .script 56, .script 57, .script 58, .script 59, .script 60, .script 61, .script 62,
  .script 63, .script 64, .script 65, .script 66, .script 67, .script 68, .script 69, .script 70,
  .script 71, .script 72, .script 73, .script 74, .script 75, .script 76, .script 77, .script 78,
  .script 79, .script 80, .script 81, .script 82, .script 83, .script 84, .script 85, .script 86,
  .script 87, .script 88, .script 89, .script 90, .script 91, .script 92, .script 93, .script 94,
  .script 95, .script 96, .script 97, .script 98, .script 99, .script 100, .script 101,
  .script 102, .script 103, .script 104, .script 105, .script 106, .script 107, .script 108,
  .script 109, .script 110, .script 111, .script 112, .script 113, .script 114, .script 115,
  .script 116, .script 117, .script 118, .script 119, .script 120, .script 121, .script 122,
  .script 123, .script 124, .script 125, .script 126, .script 127, .script 128, .script 129,
  .script 130, .script 131, .script 132, .script 133, .script 134, .script 135, .script 136,
  .script 137, .script 138, .script 139, .script 140, .script 141, .script 142, .script 143,
  .script 144, .script 145, .script 146, .script 147, .script 148, .script 149, .script 150,
  .script 151, .script 152, .script 153, .script 154, .script 155, .script 156, .script 157,
  .script 158, .script 159, .script 160, .script 161, .script 162]

/-- `script::zzzz`, also called `script::unknown` (/repo/include/unicode-db/unicode-db.hpp:1276-1277). -/
def scriptUnknown : Nat := 162

end Ctre.Ucd
