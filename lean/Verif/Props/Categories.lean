import Verif.Lemmas.UniDenotes
import Mathlib.Tactic.Tauto
/-
C47, C48: the general categories of `\p{…}`, and no undefined reads in the tables.
-/
set_option maxRecDepth 100000
namespace Ctre
open Unicode14 Ucd

/-- C47: no test of a property reads outside of the tables, whatever property the pattern names and whatever the value
of the character is, code point or not. -/
theorem C47_no_undefined_read {name : List Nat} {value : Option (List Nat)} {p : Nat} (h : table.find name value = some p) (c : Nat) :
    (Ucd.Atom.ofCode p).test c ≠ none := by
  obtain ⟨b, hb⟩ := test_some (find_known h) c
  rw [hb]; simp

/-- `\p{Script_Extension=Greek}` -/
example : ∃ p, table.find n!"script_extension" (some n!"Greek") = some p := ⟨217, by decide +kernel⟩

/-- Names of general categories whose pattern is rejected, and names of the four sets that are wrong. -/
def wrongCategories : List (List Nat) :=
  [n!"Cntrl", n!"Digit", n!"Combining_Mark", n!"Punct", n!"Cn", n!"Unassigned", n!"Pd", n!"Dash_Punctuation", n!"P", n!"Punctuation",
    n!"C", n!"Other"]

theorem out_all {names out : List (List Nat)} (h : (names.all fun n => out.contains n) = true) {n : List Nat} {p : Prop}
    (hm : n ∈ names) (hx : n ∉ out) : p :=
  (hx (List.contains_iff_mem.1 (List.all_eq_true.1 h n hm))).elim

/-- C48: `\p{w}` for the name of a general category or of a group of them, in any letter case, matches exactly the code points
of the category in Unicode 14.0, and `\P{w}` the others.  Left out: `Pd`, `P`, `C` and `Cn`, and four aliases. -/
theorem C48_general_category_partial {row : Row} (hr : row ∈ categories ++ categoryGroups) {n : List Nat} (hn : n ∈ row.names)
    (hx : n ∉ wrongCategories) {w : List Nat} (hw : sameName w n) : Denotes w (inRanges row.ranges) := by
  rw [List.mem_append] at hr
  simp only [categories, categoryGroups, List.mem_cons, List.not_mem_nil, or_false, or_assoc] at hr
  rcases hr with rfl | rfl | rfl | rfl | rfl | rfl | rfl | rfl | rfl | rfl | rfl | rfl | rfl | rfl | rfl | rfl | rfl | rfl | rfl | rfl | rfl | rfl | rfl | rfl | rfl | rfl | rfl | rfl | rfl | rfl | rfl | rfl | rfl | rfl | rfl | rfl | rfl | rfl
  · exact denotes_names (k := .cat .cc) (by decide +kernel) is_cc hn hx hw
  · exact denotes_names (k := .cat .cf) (by decide +kernel) is_cf hn hx hw
  · exact out_all (by decide) hn hx
  · exact denotes_names (k := .cat .co) (by decide +kernel) is_co hn hx hw
  · exact denotes_names (k := .cat .cs) (by decide +kernel) is_cs hn hx hw
  · exact denotes_names (k := .cat .ll) (by decide +kernel) is_ll hn hx hw
  · exact denotes_names (k := .cat .lm) (by decide +kernel) is_lm hn hx hw
  · exact denotes_names (k := .cat .lo) (by decide +kernel) is_lo hn hx hw
  · exact denotes_names (k := .cat .lt) (by decide +kernel) is_lt hn hx hw
  · exact denotes_names (k := .cat .lu) (by decide +kernel) is_lu hn hx hw
  · exact denotes_names (k := .cat .mc) (by decide +kernel) is_mc hn hx hw
  · exact denotes_names (k := .cat .me) (by decide +kernel) is_me hn hx hw
  · exact denotes_names (k := .cat .mn) (by decide +kernel) is_mn hn hx hw
  · exact denotes_names (k := .cat .nd) (by decide +kernel) is_nd hn hx hw
  · exact denotes_names (k := .cat .nl) (by decide +kernel) is_nl hn hx hw
  · exact denotes_names (k := .cat .no) (by decide +kernel) is_no hn hx hw
  · exact denotes_names (k := .cat .pc) (by decide +kernel) is_pc hn hx hw
  · exact out_all (by decide) hn hx
  · exact denotes_names (k := .cat .pe) (by decide +kernel) is_pe hn hx hw
  · exact denotes_names (k := .cat .pf) (by decide +kernel) is_pf hn hx hw
  · exact denotes_names (k := .cat .pi) (by decide +kernel) is_pi hn hx hw
  · exact denotes_names (k := .cat .po) (by decide +kernel) is_po hn hx hw
  · exact denotes_names (k := .cat .ps) (by decide +kernel) is_ps hn hx hw
  · exact denotes_names (k := .cat .sc) (by decide +kernel) is_sc hn hx hw
  · exact denotes_names (k := .cat .sk) (by decide +kernel) is_sk hn hx hw
  · exact denotes_names (k := .cat .sm) (by decide +kernel) is_sm hn hx hw
  · exact denotes_names (k := .cat .so) (by decide +kernel) is_so hn hx hw
  · exact denotes_names (k := .cat .zl) (by decide +kernel) is_zl hn hx hw
  · exact denotes_names (k := .cat .zp) (by decide +kernel) is_zp hn hx hw
  · exact denotes_names (k := .cat .zs) (by decide +kernel) is_zs hn hx hw
  · exact denotes_names (k := .cat .l) (by decide +kernel) is_l hn hx hw
  · exact denotes_names (k := .cat .lc) (by decide +kernel) is_lc hn hx hw
  · exact denotes_names (k := .cat .m) (by decide +kernel) is_m hn hx hw
  · exact denotes_names (k := .cat .n) (by decide +kernel) is_n hn hx hw
  · exact out_all (by decide) hn hx
  · exact denotes_names (k := .cat .s) (by decide +kernel) is_s hn hx hw
  · exact denotes_names (k := .cat .z) (by decide +kernel) is_z hn hx hw
  · exact out_all (by decide) hn hx

/-- `\p{uppercase_letter}` -/
example : ∃ row ∈ categories ++ categoryGroups, n!"Uppercase_Letter" ∈ row.names ∧ n!"Uppercase_Letter" ∉ wrongCategories ∧
    sameName n!"uppercase_letter" n!"Uppercase_Letter" ∧ inRanges row.ranges 0xC9 ∧ ¬ inRanges row.ranges 0xE9 :=
  ⟨⟨[n!"Lu", n!"Uppercase_Letter"], gcLu⟩, by simp [categories], by decide, by decide, by decide, by decide +kernel, by decide +kernel⟩

/-- C48: the code points matched by `\p{Pd}` are dashes, those matched by `\p{P}` are punctuation, and those matched by `\p{C}` are
controls, format characters, surrogates or private use ones. -/
theorem C48_no_others {w : List Nat} :
    (sameName w n!"Pd" ∨ sameName w n!"Dash_Punctuation" → ∃ q, Denotes w q ∧ ∀ c, q c → inRanges gcPd c) ∧
    (sameName w n!"P" ∨ sameName w n!"Punctuation" → ∃ q, Denotes w q ∧
      ∀ c, (q c → inRanges (gcPc ++ gcPd ++ gcPs ++ gcPe ++ gcPi ++ gcPf ++ gcPo) c) ∧
        (inRanges (gcPc ++ gcPs ++ gcPe ++ gcPi ++ gcPf ++ gcPo) c → q c)) ∧
    (sameName w n!"C" ∨ sameName w n!"Other" → Denotes w (inRanges (gcCc ++ gcCf ++ gcCs ++ gcCo))) ∧
    (sameName w n!"Cn" ∨ sameName w n!"Unassigned" → ∃ q, Denotes w q ∧
      ∀ c, (q c → inRanges (gcCn ++ gcPd) c) ∧ (inRanges gcCn c → q c)) := by
  refine ⟨fun h => ?_, fun h => ?_, fun h => ?_, fun h => ?_⟩
  · refine ⟨_, ?_, fun c => pd_sub⟩
    rcases h with h | h <;> exact denotes_kind (k := .cat .pd) (by decide +kernel) h is_pd
  · refine ⟨inRanges (gcPc ++ pdFound ++ gcPs ++ gcPe ++ gcPi ++ gcPf ++ gcPo), ?_, fun c => ?_⟩
    · rcases h with h | h <;> exact denotes_kind (k := .cat .p) (by decide +kernel) h is_p
    · simp only [inRanges_append]
      have := @pd_sub c
      tauto
  · rcases h with h | h <;> exact denotes_kind (k := .cat .c) (by decide +kernel) h is_c
  · refine ⟨inRanges (gcCn ++ pdMissed), ?_, fun c => ?_⟩
    · rcases h with h | h <;> exact denotes_kind (k := .cat .cn) (by decide +kernel) h is_cn
    · simp only [inRanges_append]
      refine ⟨?_, Or.inl⟩
      rintro (h | h)
      · exact Or.inl h
      · exact Or.inr (subset_of_bits (by decide +kernel) h)

/-- C48: exactly what `\p{Pd}`, `\p{P}` and `\p{Cn}` match: of the dashes eleven are found, and the others are taken for unassigned. -/
theorem C48_found_partial {w : List Nat} :
    let found := [0x1400, 0x1806, 0x2013, 0x2014, 0x2015, 0x2E17, 0x2E1A, 0x301C, 0x30A0, 0xFE58, 0xFE63]
    (sameName w n!"Pd" ∨ sameName w n!"Dash_Punctuation" → Denotes w fun c => c ∈ found) ∧
    (sameName w n!"P" ∨ sameName w n!"Punctuation" → Denotes w fun c =>
      c ∈ found ∨ inRanges (gcPc ++ gcPs ++ gcPe ++ gcPi ++ gcPf ++ gcPo) c) ∧
    (sameName w n!"Cn" ∨ sameName w n!"Unassigned" → Denotes w fun c => inRanges gcCn c ∨ (inRanges gcPd c ∧ c ∉ found)) := by
  intro found
  have e : ∀ c, inRanges pdFound c ↔ c ∈ found := fun c => by
    simp only [pdFound, found, inRanges_cons, inRanges_nil, or_false, List.mem_cons, List.not_mem_nil]
    omega
  refine ⟨fun h => ?_, fun h => ?_, fun h => ?_⟩
  · have k := is_pd.iff fun c _ => e c
    rcases h with h | h <;> exact denotes_kind (k := .cat .pd) (by decide +kernel) h k
  · have k := is_p.iff (q := fun c => c ∈ found ∨ inRanges (gcPc ++ gcPs ++ gcPe ++ gcPi ++ gcPf ++ gcPo) c) fun c _ => by
      simp only [inRanges_append, ← e]; tauto
    rcases h with h | h <;> exact denotes_kind (k := .cat .p) (by decide +kernel) h k
  · have h1 : ∀ {c}, inRanges gcPd c → inRanges (pdFound ++ pdMissed) c := fun h => subset_of_bits (by decide +kernel) h
    have h2 : ∀ {c}, inRanges pdMissed c → inRanges gcPd c := fun h => subset_of_bits (by decide +kernel) h
    have h3 : (found.all fun c => !decide (inRanges pdMissed c)) = true := by decide +kernel
    have k := is_cn.iff (q := fun c => inRanges gcCn c ∨ (inRanges gcPd c ∧ c ∉ found)) fun c _ => by
      rw [inRanges_append]
      refine or_congr Iff.rfl ⟨fun m => ⟨h2 m, fun hf => ?_⟩, fun ⟨m, hf⟩ => ?_⟩
      · have := List.all_eq_true.1 h3 c hf
        rw [Bool.not_eq_true', decide_eq_false_iff_not] at this
        exact this m
      · rcases (inRanges_append _ _ _).1 (h1 m) with k | k
        · exact (hf ((e c).1 k)).elim
        · exact k
    rcases h with h | h <;> exact denotes_kind (k := .cat .cn) (by decide +kernel) h k

/-- The figure dash is a dash, and not one of the eleven. -/
example : sameName n!"unassigned" n!"Unassigned" ∧ inRanges gcPd 0x2012 ∧ inRanges gcPd 0x2013 := by decide +kernel

/-- C48 fails for `Pd` and `P`: the hyphen is a dash and punctuation, and neither pattern matches it. -/
theorem C48_fails_dash :
    (inRanges gcPd 0x2D ∧ ¬ Denotes n!"Pd" (inRanges gcPd)) ∧
    ¬ Denotes n!"P" (inRanges (gcPc ++ gcPd ++ gcPs ++ gcPe ++ gcPi ++ gcPf ++ gcPo)) := by
  refine ⟨⟨by decide +kernel, fun h => ?_⟩, fun h => ?_⟩
  · have h2 : Denotes n!"Pd" _ := denotes_kind (k := .cat .pd) (by decide +kernel) rfl is_pd
    have := (exactly_unique h.1 h2.1 (c := 0x2D) (by decide)).1 (by decide +kernel)
    revert this; decide +kernel
  · have h2 : Denotes n!"P" _ := denotes_kind (k := .cat .p) (by decide +kernel) rfl is_p
    have := (exactly_unique h.1 h2.1 (c := 0x2D) (by decide)).1 (by decide +kernel)
    revert this; decide +kernel

/-- C48 fails for `Cn`, which matches the hyphen, and for `C`, which does not match unassigned code points. -/
theorem C48_fails_unassigned :
    ¬ Denotes n!"Cn" (inRanges gcCn) ∧ ¬ Denotes n!"C" (inRanges (gcCc ++ gcCf ++ gcCs ++ gcCo ++ gcCn)) := by
  refine ⟨fun h => ?_, fun h => ?_⟩
  · have h2 : Denotes n!"Cn" _ := denotes_kind (k := .cat .cn) (by decide +kernel) rfl is_cn
    have := (exactly_unique h.1 h2.1 (c := 0x2D) (by decide)).2 (by decide +kernel)
    revert this; decide +kernel
  · have h2 : Denotes n!"C" _ := denotes_kind (k := .cat .c) (by decide +kernel) rfl is_c
    have := (exactly_unique h.1 h2.1 (c := 0x378) (by decide)).1 (by decide +kernel)
    revert this; decide +kernel

/-- C48 fails for values that are no code points: `\p{L}` matches the `char` with the value -128. -/
theorem C48_fails_negative_char : ∃ r, Parse.build table (propText false n!"L") = .pattern r ∧
    ∀ (C : Cfg) (f : Flags), C.uni = uni → ∃ x, Returns (fun n => cMatch C n [-128] f r) (.done x) ∧ x.whole.matched = true := by
  have hf : table.find n!"L" none = some (Ucd.Atom.binary 54).code := by decide +kernel
  refine ⟨_, cls_build (P := table) (c := .prop false (Ucd.Atom.binary 54).code n!"L" none)
    ⟨wordOk_iff.1 (by decide), by simp, hf⟩, fun C f hC => ?_⟩
  obtain ⟨x, h1, h2⟩ := match_one (C := C) (f := f) (cl := Parse.clsTree (.prop false (Ucd.Atom.binary 54).code n!"L" none)) (v := -128)
  refine ⟨x, h1, h2.2 ?_⟩
  rw [hC]
  show uni (Ucd.Atom.binary 54).code (toU32 (-128)) = true
  decide +kernel

/-- The names of the thirty general categories. -/
def categoryNames : List (List Nat) :=
  [n!"Cc", n!"Cf", n!"Cn", n!"Co", n!"Cs", n!"Ll", n!"Lm", n!"Lo", n!"Lt", n!"Lu", n!"Mc", n!"Me", n!"Mn", n!"Nd", n!"Nl", n!"No",
    n!"Pc", n!"Pd", n!"Pe", n!"Pf", n!"Pi", n!"Po", n!"Ps", n!"Sc", n!"Sk", n!"Sm", n!"So", n!"Zl", n!"Zp", n!"Zs"]

/-- The code points the thirty patterns match. -/
def categorySets : List (List (Nat × Nat)) :=
  [gcCc, gcCf, gcCn ++ pdMissed, gcCo, gcCs, gcLl, gcLm, gcLo, gcLt, gcLu, gcMc, gcMe, gcMn, gcNd, gcNl, gcNo,
    gcPc, pdFound, gcPe, gcPf, gcPi, gcPo, gcPs, gcSc, gcSk, gcSm, gcSo, gcZl, gcZp, gcZs]

theorem categorySets_denote : List.Forall₂ (fun n s => Denotes n (inRanges s)) categoryNames categorySets := by
  unfold categoryNames categorySets
  refine .cons (denotes_kind (k := .cat .cc) (by decide +kernel) rfl is_cc) ?_
  refine .cons (denotes_kind (k := .cat .cf) (by decide +kernel) rfl is_cf) ?_
  refine .cons (denotes_kind (k := .cat .cn) (by decide +kernel) rfl is_cn) ?_
  refine .cons (denotes_kind (k := .cat .co) (by decide +kernel) rfl is_co) ?_
  refine .cons (denotes_kind (k := .cat .cs) (by decide +kernel) rfl is_cs) ?_
  refine .cons (denotes_kind (k := .cat .ll) (by decide +kernel) rfl is_ll) ?_
  refine .cons (denotes_kind (k := .cat .lm) (by decide +kernel) rfl is_lm) ?_
  refine .cons (denotes_kind (k := .cat .lo) (by decide +kernel) rfl is_lo) ?_
  refine .cons (denotes_kind (k := .cat .lt) (by decide +kernel) rfl is_lt) ?_
  refine .cons (denotes_kind (k := .cat .lu) (by decide +kernel) rfl is_lu) ?_
  refine .cons (denotes_kind (k := .cat .mc) (by decide +kernel) rfl is_mc) ?_
  refine .cons (denotes_kind (k := .cat .me) (by decide +kernel) rfl is_me) ?_
  refine .cons (denotes_kind (k := .cat .mn) (by decide +kernel) rfl is_mn) ?_
  refine .cons (denotes_kind (k := .cat .nd) (by decide +kernel) rfl is_nd) ?_
  refine .cons (denotes_kind (k := .cat .nl) (by decide +kernel) rfl is_nl) ?_
  refine .cons (denotes_kind (k := .cat .no) (by decide +kernel) rfl is_no) ?_
  refine .cons (denotes_kind (k := .cat .pc) (by decide +kernel) rfl is_pc) ?_
  refine .cons (denotes_kind (k := .cat .pd) (by decide +kernel) rfl is_pd) ?_
  refine .cons (denotes_kind (k := .cat .pe) (by decide +kernel) rfl is_pe) ?_
  refine .cons (denotes_kind (k := .cat .pf) (by decide +kernel) rfl is_pf) ?_
  refine .cons (denotes_kind (k := .cat .pi) (by decide +kernel) rfl is_pi) ?_
  refine .cons (denotes_kind (k := .cat .po) (by decide +kernel) rfl is_po) ?_
  refine .cons (denotes_kind (k := .cat .ps) (by decide +kernel) rfl is_ps) ?_
  refine .cons (denotes_kind (k := .cat .sc) (by decide +kernel) rfl is_sc) ?_
  refine .cons (denotes_kind (k := .cat .sk) (by decide +kernel) rfl is_sk) ?_
  refine .cons (denotes_kind (k := .cat .sm) (by decide +kernel) rfl is_sm) ?_
  refine .cons (denotes_kind (k := .cat .so) (by decide +kernel) rfl is_so) ?_
  refine .cons (denotes_kind (k := .cat .zl) (by decide +kernel) rfl is_zl) ?_
  refine .cons (denotes_kind (k := .cat .zp) (by decide +kernel) rfl is_zp) ?_
  refine .cons (denotes_kind (k := .cat .zs) (by decide +kernel) rfl is_zs) ?_
  exact .nil

/-- C54: every code point is matched by exactly one of the thirty patterns `\p{Cc}` to `\p{Zs}`. -/
theorem C54_one_category : ∃ sets : List (List (Nat × Nat)), List.Forall₂ (fun n s => Denotes n (inRanges s)) categoryNames sets ∧
    ∀ c, c < 0x110000 → (∃ s ∈ sets, inRanges s c) ∧ sets.Pairwise fun s t => ¬ (inRanges s c ∧ inRanges t c) := by
  refine ⟨categorySets, categorySets_denote, fun c hc => ?_⟩
  have hp : partitions 0 categorySets = true := by decide +kernel
  refine ⟨?_, partitions_pairwise hp c⟩
  rcases partitions_cover hp hc with h | h
  · simp at h
  · exact h

end Ctre
