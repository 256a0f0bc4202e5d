import Verif.Model.UniCats
import Verif.Model.UniPropsA
import Verif.Model.UniPropsB
import Verif.Model.UniRanges
import Verif.Model.UniNames
import Verif.Model.UniEnums
import Verif.Model.Actions
/-
The Unicode database and the property atoms built on it.
Sources: /repo/include/unicode-db/unicode-db.hpp and /repo/include/ctre/atoms_unicode.hpp

A code point is the `Nat` value of a `char32_t`, a result `none` is undefined behaviour.
Not modelled: `numeric_value::value()` and the tables `prop_ce_data` and `prop_comp_ex_data`, which
the regular expressions do not use (`cp_numeric_value` is in UniNumeric, `category_from_string` in UniApi).
-/
namespace Ctre.Ucd

/-- The three kinds of tables with a `lookup` member
(/repo/include/unicode-db/unicode-db.hpp:219-314). -/
inductive Table where
  | ranges (d : List Nat)
  | flat (t : FlatArray)
  | trie (t : BoolTrie)

/-- The `lookup` members (/repo/include/unicode-db/unicode-db.hpp:238, 284, 302). -/
def Table.lookup : Table → Nat → Option Bool
  | .ranges d, c => rangeLookup d c
  | .flat t, c => t.lookup c
  | .trie t, c => t.lookup c

/-- `a || b` (for instance /repo/include/unicode-db/unicode-db.hpp:7398-7399). -/
def orB (a b : Option Bool) : Option Bool :=
  match a with
  | none => none
  | some true => some true
  | some false => b

/-- A chain of `if(x.lookup(c)) return true;` with `return false;` at its end
(for instance /repo/include/unicode-db/unicode-db.hpp:3107-3115). -/
def anyOf : List Table → Nat → Option Bool
  | [], _ => some false
  | t :: l, c => orB (t.lookup c) (anyOf l c)

/-- The chain of `get_category` (/repo/include/unicode-db/unicode-db.hpp:2926-2985). -/
def categoryChain : List (Table × Cat) := [
  (.ranges cat_co, .co), (.trie cat_lo, .lo), (.trie cat_so, .so), (.trie cat_ll, .ll),
  (.ranges cat_cs, .cs), (.trie cat_mn, .mn), (.trie cat_lu, .lu), (.trie cat_sm, .sm),
  (.trie cat_no, .no), (.trie cat_nd, .nd), (.trie cat_po, .po), (.trie cat_mc, .mc),
  (.trie cat_lm, .lm), (.ranges cat_nl, .nl), (.ranges cat_cf, .cf), (.trie cat_sk, .sk),
  (.trie cat_ps, .ps), (.trie cat_pe, .pe), (.ranges cat_cc, .cc), (.ranges cat_sc, .sc),
  (.ranges cat_lt, .lt), (.flat cat_pd, .pd), (.ranges cat_zs, .zs), (.ranges cat_me, .me),
  (.flat cat_pi, .pi), (.flat cat_pf, .pf), (.flat cat_pc, .pc), (.flat cat_zp, .zp),
  (.flat cat_zl, .zl)]

/-- The first category of a chain whose table has the code point, else `cn`
(/repo/include/unicode-db/unicode-db.hpp:2926-2985). -/
def firstCategory : List (Table × Cat) → Nat → Option Cat
  | [], _ => some .cn
  | (t, k) :: l, c =>
    match t.lookup c with
    | none => none
    | some true => some k
    | some false => firstCategory l c

/-- `get_category` (/repo/include/unicode-db/unicode-db.hpp:2926-2986). -/
def getCategory (c : Nat) : Option Cat := firstCategory categoryChain c

/-- `cp_category` (/repo/include/unicode-db/unicode-db.hpp:7254-7258). -/
def cpCategory (c : Nat) : Option Cat := if c > 0x10FFFF then some .cn else getCategory c

/-- `cp_category_is<k>` (/repo/include/unicode-db/unicode-db.hpp:2988-3203). -/
def cpCategoryIs : Cat → Nat → Option Bool
  -- 2988-3104
  | .co, c => rangeLookup cat_co c
  | .lo, c => cat_lo.lookup c
  | .so, c => cat_so.lookup c
  | .ll, c => cat_ll.lookup c
  | .cs, c => rangeLookup cat_cs c
  | .mn, c => cat_mn.lookup c
  | .lu, c => cat_lu.lookup c
  | .sm, c => cat_sm.lookup c
  | .no, c => cat_no.lookup c
  | .nd, c => cat_nd.lookup c
  | .po, c => cat_po.lookup c
  | .mc, c => cat_mc.lookup c
  | .lm, c => cat_lm.lookup c
  | .nl, c => rangeLookup cat_nl c
  | .cf, c => rangeLookup cat_cf c
  | .sk, c => cat_sk.lookup c
  | .ps, c => cat_ps.lookup c
  | .pe, c => cat_pe.lookup c
  | .cc, c => rangeLookup cat_cc c
  | .sc, c => rangeLookup cat_sc c
  | .lt, c => rangeLookup cat_lt c
  | .pd, c => cat_pd.lookup c
  | .zs, c => rangeLookup cat_zs c
  | .me, c => rangeLookup cat_me c
  | .pi, c => cat_pi.lookup c
  | .pf, c => cat_pf.lookup c
  | .pc, c => cat_pc.lookup c
  | .zp, c => cat_zp.lookup c
  | .zl, c => cat_zl.lookup c
  -- 3106-3199
  | .lc, c => anyOf [.trie cat_ll, .trie cat_lu, .ranges cat_lt] c
  | .l, c => anyOf [.trie cat_lo, .trie cat_ll, .trie cat_lu, .trie cat_lm, .ranges cat_lt] c
  | .m, c => anyOf [.trie cat_mn, .trie cat_mc, .ranges cat_me] c
  | .n, c => anyOf [.trie cat_no, .trie cat_nd, .ranges cat_nl] c
  | .p, c => anyOf [.trie cat_po, .trie cat_ps, .trie cat_pe, .flat cat_pd, .flat cat_pi, .flat cat_pf, .flat cat_pc] c
  | .s, c => anyOf [.trie cat_so, .trie cat_sm, .trie cat_sk, .ranges cat_sc] c
  | .z, c => anyOf [.ranges cat_zs, .flat cat_zp, .flat cat_zl] c
  | .c, c => anyOf [.ranges cat_co, .ranges cat_cs, .ranges cat_cf, .ranges cat_cc] c
  -- 3200-3203
  | .cn, c => (cpCategory c).map (· == .cn)

/-- `a && !b` (for instance /repo/include/unicode-db/unicode-db.hpp:7472-7476). -/
def andNot (a b : Option Bool) : Option Bool :=
  match a with
  | none => none
  | some false => some false
  | some true => b.map (!·)

/-- `cp_property_is<p>` (/repo/include/unicode-db/unicode-db.hpp:7106-7244 and 7390-7491). -/
def cpPropertyIs : Prp → Nat → Option Bool
  -- 7106-7244
  | .ahex, c => rangeLookup prop_ahex c
  | .alpha, c => prop_alpha.lookup c
  | .bidi_c, c => rangeLookup prop_bidi_c c
  | .bidi_m, c => prop_bidi_m.lookup c
  | .dash, c => prop_dash.lookup c
  | .dep, c => prop_dep.lookup c
  | .dia, c => prop_dia.lookup c
  | .emoji, c => prop_emoji.lookup c
  | .emoji_component, c => rangeLookup prop_emoji_component c
  | .emoji_modifier, c => rangeLookup prop_emoji_modifier c
  | .emoji_modifier_base, c => prop_emoji_modifier_base.lookup c
  | .emoji_presentation, c => prop_emoji_presentation.lookup c
  | .ext, c => prop_ext.lookup c
  | .extended_pictographic, c => prop_extended_pictographic.lookup c
  | .gr_base, c => prop_gr_base.lookup c
  | .hex, c => rangeLookup prop_hex c
  | .ideo, c => rangeLookup prop_ideo c
  | .idsb, c => rangeLookup prop_idsb c
  | .idst, c => prop_idst.lookup c
  | .join_c, c => prop_join_c.lookup c
  | .loe, c => rangeLookup prop_loe c
  | .pat_syn, c => prop_pat_syn.lookup c
  | .pat_ws, c => prop_pat_ws.lookup c
  | .pcm, c => prop_pcm.lookup c
  | .qmark, c => rangeLookup prop_qmark c
  | .radical, c => rangeLookup prop_radical c
  | .ri, c => rangeLookup prop_ri c
  | .sd, c => prop_sd.lookup c
  | .sterm, c => prop_sterm.lookup c
  | .term, c => prop_term.lookup c
  | .uideo, c => rangeLookup prop_uideo c
  | .vs, c => rangeLookup prop_vs c
  | .wspace, c => rangeLookup prop_wspace c
  | .xidc, c => prop_xidc.lookup c
  | .xids, c => prop_xids.lookup c
  -- 7390-7393
  | .nchar, c => some (c &&& 0xfffe == 0xfffe || (decide (0xfdd0 ≤ c) && decide (c ≤ 0xfdef)))
  -- 7395-7414
  | .lower, c => anyOf [.trie cat_ll, .ranges prop_olower] c
  | .upper, c => anyOf [.trie cat_lu, .ranges prop_oupper] c
  | .cased, c =>
    orB (anyOf [.trie cat_ll, .ranges prop_olower] c)
      (orB (anyOf [.trie cat_lu, .ranges prop_oupper] c) (rangeLookup cat_lt c))
  -- 7416-7421
  | .math, c => anyOf [.trie cat_sm, .trie prop_omath] c
  -- 7423-7427
  | .ci, _ => some false
  -- 7429-7435
  | .gr_ext, c => anyOf [.ranges cat_me, .trie cat_mn, .trie prop_ogr_ext] c
  -- 7448-7466
  | .di, c =>
    match anyOf [.flat prop_odi, .ranges cat_cf, .ranges prop_vs] c with
    | none => none
    | some false => some false
    | some true =>
      if 0xFFF9 ≤ c ∧ c ≤ 0xFFFB then some false
      else if 0x13430 ≤ c ∧ c ≤ 0x13438 then some false
      else
        match rangeLookup prop_wspace c with
        | none => none
        | some true => some false
        | some false => (prop_pcm.lookup c).map (!·)
  -- 7468-7477
  | .ids, c =>
    andNot (orB (cpCategoryIs .l c) (anyOf [.ranges cat_nl, .flat prop_oids] c))
      (anyOf [.trie prop_pat_syn, .flat prop_pat_ws] c)
  -- 7479-7491
  | .idc, c =>
    andNot
      (orB (cpCategoryIs .l c)
        (anyOf [.ranges cat_nl, .flat prop_oids, .trie cat_mn, .trie cat_mc, .trie cat_nd, .flat cat_pc,
          .ranges prop_oidc] c))
      (anyOf [.trie prop_pat_syn, .flat prop_pat_ws] c)

/-- The tables `script_data<N>::scripts_data`
(/repo/include/unicode-db/unicode-db.hpp:4037-4456). -/
def scriptTables : List (List Nat) := [
  script_data_0, script_data_1, script_data_2, script_data_3, script_data_4, script_data_5,
  script_data_6, script_data_7, script_data_8, script_data_9, script_data_10, script_data_11,
  script_data_12, script_data_13, script_data_14, script_data_15, script_data_16, script_data_17,
  script_data_18, script_data_19, script_data_20, script_data_21]

/-- `cp_script<N>` (/repo/include/unicode-db/unicode-db.hpp:4457-4465), the table given. -/
def cpScriptN (d : List Nat) (cp : Nat) : Option Nat :=
  if cp > 0x10FFFF then some scriptUnknown else compactValue d cp scriptUnknown

/-- `get_cp_script` (/repo/include/unicode-db/unicode-db.hpp:4466-4492). -/
def getCpScript (cp idx : Nat) : Option Nat :=
  match scriptTables[idx]? with
  | some d => cpScriptN d cp
  | none => some scriptUnknown

/-- `cp_script` (/repo/include/unicode-db/unicode-db.hpp:7312-7314). -/
def cpScript (cp : Nat) : Option Nat := cpScriptN script_data_0 cp

/-- The scripts met by a `for` loop over `cp_script_extensions(cp)` from the iterator with this
`m_script` and `idx` on (/repo/include/unicode-db/unicode-db.hpp:7318-7350).  `n` bounds the number
of steps; behind the last table `get_cp_script` is `unknown`, so 22 are enough. -/
def scriptsFrom (cp : Nat) : Nat → Nat → Nat → Option (List Nat)
  | 0, _, _ => none
  | n + 1, script, idx =>
    if script = scriptUnknown then some []
    else
      match getCpScript cp (idx + 1) with
      | none => none
      | some s => (scriptsFrom cp n s (idx + 1)).map (script :: ·)

/-- The scripts met by a `for` loop over `cp_script_extensions(cp)`
(/repo/include/unicode-db/unicode-db.hpp:7316-7365). -/
def cpScriptExtensions (cp : Nat) : Option (List Nat) :=
  match getCpScript cp 1 with
  | none => none
  | some s =>
    if s = scriptUnknown then
      match cpScript cp with
      | none => none
      | some s => scriptsFrom cp 23 s 1
    else scriptsFrom cp 23 s 1

/-- `cp_age` (/repo/include/unicode-db/unicode-db.hpp:7367-7369); `version::unassigned` is 0
(/repo/include/unicode-db/unicode-db.hpp:397). -/
def cpAge (cp : Nat) : Option Nat := compactValue age cp 0

/-- `cp_block` (/repo/include/unicode-db/unicode-db.hpp:7371-7388); `block::no_block` is 0
(/repo/include/unicode-db/unicode-db.hpp:504).  The difference is taken of signed and unsigned
numbers; `none` stands for a negative result, which never comes up. -/
def cpBlock (cp : Nat) : Option Nat :=
  match beforeUpper block cp with
  | none => none
  | some none => some 0
  | some (some d) =>
    match rd block.length block d with
    | none => none
    | some v =>
      if v &&& 0xFF = 0 then some 0
      else if (v &&& 0xFF) - 1 ≤ d then some (d - ((v &&& 0xFF) - 1) + 1)
      else none

/-- `get_binary_prop<p>` (/repo/include/unicode-db/unicode-db.hpp:7790-9018, 9516-9529). -/
def PropKind.test : PropKind → Nat → Option Bool
  | .prop p, c => cpPropertyIs p c
  | .cat k, c => cpCategoryIs k c
  | .script s, c => (cpScript c).map (· == s)
  -- cp_is_valid, cp_is_ascii, cp_is_assigned (7437-7446)
  | .valid, c => some (decide (c ≤ 0x10FFFF))
  | .ascii, c => some (decide (c ≤ 0x7F))
  | .assigned, c => prop_assigned.lookup c

/-- The types `binary_property<T, Type>` and `property<T, Type, Value>`
(/repo/include/ctre/atoms_unicode.hpp:22-68). -/
inductive Atom where
  /-- `binary_property<binary_prop, p>` -/
  | binary (p : Nat)
  /-- `binary_property<script, s>` -/
  | script (s : Nat)
  /-- `property<property_type, script_extension, s>` -/
  | scx (s : Nat)
  /-- `binary_property<version, v>` -/
  | age (v : Nat)
  /-- `binary_property<block, b>` -/
  | block (b : Nat)
deriving DecidableEq, Repr

/-- `match_char` of the property types on `static_cast<char32_t>(c)`
(/repo/include/ctre/atoms_unicode.hpp:30-68).  There is no `get_binary_prop` for a number that is
no enumerator (/repo/include/unicode-db/unicode-db.hpp:82-83). -/
def Atom.test : Atom → Nat → Option Bool
  | .binary p, c =>
    match binaryPropKinds[p]? with
    | some k => k.test c
    | none => none
  | .script s, c => (cpScript c).map (· == s)
  | .scx s, c => (cpScriptExtensions c).map (·.contains s)
  | .age v, c => (cpAge c).map fun a => decide (a ≤ v)
  | .block b, c => (cpBlock c).map (· == b)

/-- The number standing for a property type in a pattern; the kinds of types take turns
(the types of /repo/include/ctre/atoms_unicode.hpp:22-68). -/
def Atom.code : Atom → Nat
  | .binary p => 5 * p
  | .script s => 5 * s + 1
  | .scx s => 5 * s + 2
  | .age v => 5 * v + 3
  | .block b => 5 * b + 4

/-- The property type with a number (the types of /repo/include/ctre/atoms_unicode.hpp:22-68). -/
def Atom.ofCode (n : Nat) : Atom :=
  match n % 5 with
  | 0 => .binary (n / 5)
  | 1 => .script (n / 5)
  | 2 => .scx (n / 5)
  | 3 => .age (n / 5)
  | _ => .block (n / 5)

/-- `property_type_from_name` (/repo/include/ctre/atoms_unicode.hpp:72-86); 4 is
`property_type::unknown`. -/
def propertyTypeFromName (s : List Nat) : Nat :=
  if propNameComp s n!"script" = 0 ∨ propNameComp s n!"sc" = 0 then 0
  else if propNameComp s n!"script_extension" = 0 ∨ propNameComp s n!"scx" = 0 then 1
  else if propNameComp s n!"age" = 0 then 2
  else if propNameComp s n!"block" = 0 then 3
  else 4

/-- The property with a name, `none` when `is_unknown` holds of the result
(/repo/include/ctre/actions/properties.inc.hpp:24-35,
/repo/include/unicode-db/unicode-db.hpp:9507-9514, 9531-9533). -/
def binaryFind (s : List Nat) : Option Nat :=
  (fromString binaryPropNames s).map fun p => (Atom.binary p).code

/-- `property_builder<Name...>::get<Value...>` (/repo/include/ctre/atoms_unicode.hpp:88-153),
`none` for `ctll::reject`. -/
def valuedFind (s w : List Nat) : Option Nat :=
  match propertyTypeFromName s with
  | 0 =>
    match fromString scriptsNames w with
    | some sc => if sc = scriptUnknown then none else some (Atom.script sc).code
    | none => none
  | 1 =>
    match fromString scriptsNames w with
    | some sc => if sc = scriptUnknown then none else some (Atom.scx sc).code
    | none => none
  | 2 =>
    match fromString ageStrings w with
    | some v => if v = 0 then none else some (Atom.age v).code
    | none => none
  | 3 =>
    match fromString blocksNames w with
    | some b => if b = 0 then none else some (Atom.block b).code
    | none => none
  | _ => none

/-- The name tables as the parser uses them
(/repo/include/ctre/actions/properties.inc.hpp:24-71). -/
def table : Parse.PropTable := { binary := binaryFind, valued := valuedFind }

/-- The meaning of the property types as the matcher uses it.  `getD` is never needed: no test is
undefined for a `char32_t` (`C47_no_undefined_read`) (/repo/include/ctre/atoms_unicode.hpp:30-68). -/
def uni : Uni := fun p c => ((Atom.ofCode p).test c).getD false

end Ctre.Ucd
