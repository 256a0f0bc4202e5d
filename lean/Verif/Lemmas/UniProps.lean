import Verif.Lemmas.UniGc
import Verif.Spec.UcdProps
/-
The binary properties: which of them are those of Unicode 14.0.
-/
set_option maxRecDepth 100000
namespace Ctre.Ucd
open Unicode14

/-! ### Bit maps of combined look-ups -/

def tableBits : Table → Nat
  | .ranges d => runBits 0 false d
  | .flat t => flatBits t
  | .trie t => trieBits t

def Table.ok : Table → Bool
  | .ranges d => stepsOk d
  | .flat _ => true
  | .trie t => t.ok

/-- `f` finds the code points of the bit map `B`. -/
def Bits (f : Nat → Option Bool) (B : Nat) : Prop := ∀ c, c < 0x110000 → f c = some (B.testBit c)

theorem bits_table {t : Table} (h : t.ok = true) : Bits t.lookup (tableBits t) := fun c hc => by
  cases t with
  | ranges d => exact lookup_ranges h c
  | flat t => exact lookup_flat t c
  | trie t => exact lookup_trie h hc

def anyBits : List Table → Nat
  | [] => 0
  | t :: l => Nat.lor (tableBits t) (anyBits l)

theorem bits_or {f g : Nat → Option Bool} {A B : Nat} (hf : Bits f A) (hg : Bits g B) :
    Bits (fun c => orB (f c) (g c)) (Nat.lor A B) := fun c hc => by
  dsimp only
  have e : Nat.lor A B = A ||| B := rfl
  rw [hf c hc, hg c hc, e, Nat.testBit_or]
  cases A.testBit c <;> rfl

theorem bits_any {l : List Table} (h : l.all Table.ok = true) : Bits (anyOf l) (anyBits l) := by
  induction l with
  | nil => intro c _; simp [anyOf, anyBits]
  | cons t l ih =>
    rw [List.all_cons, Bool.and_eq_true] at h
    exact bits_or (bits_table h.1) (ih h.2)

/-- `A` without `B`. -/
def without (A B : Nat) : Nat := Nat.xor A (Nat.land A B)

theorem testBit_without (A B c : Nat) : (without A B).testBit c = (A.testBit c && !B.testBit c) := by
  have e : without A B = A ^^^ (A &&& B) := rfl
  rw [e, Nat.testBit_xor, Nat.testBit_and]
  cases A.testBit c <;> cases B.testBit c <;> rfl

theorem bits_andNot {f g : Nat → Option Bool} {A B : Nat} (hf : Bits f A) (hg : Bits g B) :
    Bits (fun c => andNot (f c) (g c)) (without A B) := fun c hc => by
  dsimp only
  rw [hf c hc, hg c hc, testBit_without]
  cases A.testBit c <;> rfl

theorem is_any_bits {l : List Table} {r : List (Nat × Nat)} (h : l.all Table.ok = true)
    (e : Nat.beq (anyBits l) (rangesBits r) = true) : Is (anyOf l) (inRanges r) :=
  Is.of_bits (bits_any h) e

/-! ### The properties that are exact -/

theorem is_AHex : Is (cpPropertyIs .ahex) (inRanges pAHex) := is_ranges (by decide +kernel) (by decide +kernel)
theorem is_Bidi_C : Is (cpPropertyIs .bidi_c) (inRanges pBidi_C) := is_ranges (by decide +kernel) (by decide +kernel)
theorem is_Bidi_M : Is (cpPropertyIs .bidi_m) (inRanges pBidi_M) := is_trie (by decide +kernel) (by decide +kernel)
theorem is_Dep : Is (cpPropertyIs .dep) (inRanges pDep) := is_flat (by decide +kernel)
theorem is_Dia : Is (cpPropertyIs .dia) (inRanges pDia) := is_trie (by decide +kernel) (by decide +kernel)
theorem is_Emoji : Is (cpPropertyIs .emoji) (inRanges pEmoji) := is_trie (by decide +kernel) (by decide +kernel)
theorem is_EComp : Is (cpPropertyIs .emoji_component) (inRanges pEComp) := is_ranges (by decide +kernel) (by decide +kernel)
theorem is_EMod : Is (cpPropertyIs .emoji_modifier) (inRanges pEMod) := is_ranges (by decide +kernel) (by decide +kernel)
theorem is_EBase : Is (cpPropertyIs .emoji_modifier_base) (inRanges pEBase) := is_trie (by decide +kernel) (by decide +kernel)
theorem is_EPres : Is (cpPropertyIs .emoji_presentation) (inRanges pEPres) := is_trie (by decide +kernel) (by decide +kernel)
theorem is_Gr_Base : Is (cpPropertyIs .gr_base) (inRanges pGr_Base) := is_trie (by decide +kernel) (by decide +kernel)
theorem is_Hex : Is (cpPropertyIs .hex) (inRanges pHex) := is_ranges (by decide +kernel) (by decide +kernel)
theorem is_Ideo : Is (cpPropertyIs .ideo) (inRanges pIdeo) := is_ranges (by decide +kernel) (by decide +kernel)
theorem is_IDSB : Is (cpPropertyIs .idsb) (inRanges pIDSB) := is_ranges (by decide +kernel) (by decide +kernel)
theorem is_IDST : Is (cpPropertyIs .idst) (inRanges pIDST) := is_flat (by decide +kernel)
theorem is_Join_C : Is (cpPropertyIs .join_c) (inRanges pJoin_C) := is_flat (by decide +kernel)
theorem is_LOE : Is (cpPropertyIs .loe) (inRanges pLOE) := is_ranges (by decide +kernel) (by decide +kernel)
theorem is_Pat_WS : Is (cpPropertyIs .pat_ws) (inRanges pPat_WS) := is_flat (by decide +kernel)
theorem is_PCM : Is (cpPropertyIs .pcm) (inRanges pPCM) := is_flat (by decide +kernel)
theorem is_QMark : Is (cpPropertyIs .qmark) (inRanges pQMark) := is_ranges (by decide +kernel) (by decide +kernel)
theorem is_Radical : Is (cpPropertyIs .radical) (inRanges pRadical) := is_ranges (by decide +kernel) (by decide +kernel)
theorem is_RI : Is (cpPropertyIs .ri) (inRanges pRI) := is_ranges (by decide +kernel) (by decide +kernel)
theorem is_STerm : Is (cpPropertyIs .sterm) (inRanges pSTerm) := is_trie (by decide +kernel) (by decide +kernel)
theorem is_Term : Is (cpPropertyIs .term) (inRanges pTerm) := is_trie (by decide +kernel) (by decide +kernel)
theorem is_UIdeo : Is (cpPropertyIs .uideo) (inRanges pUIdeo) := is_ranges (by decide +kernel) (by decide +kernel)
theorem is_VS : Is (cpPropertyIs .vs) (inRanges pVS) := is_ranges (by decide +kernel) (by decide +kernel)
theorem is_WSpace : Is (cpPropertyIs .wspace) (inRanges pWSpace) := is_ranges (by decide +kernel) (by decide +kernel)
theorem is_XIDC : Is (cpPropertyIs .xidc) (inRanges pXIDC) := is_trie (by decide +kernel) (by decide +kernel)
theorem is_XIDS : Is (cpPropertyIs .xids) (inRanges pXIDS) := is_trie (by decide +kernel) (by decide +kernel)
theorem is_Lower : Is (cpPropertyIs .lower) (inRanges pLower) := is_any_bits (by decide +kernel) (by decide +kernel)
theorem is_Upper : Is (cpPropertyIs .upper) (inRanges pUpper) := is_any_bits (by decide +kernel) (by decide +kernel)
theorem is_Math : Is (cpPropertyIs .math) (inRanges pMath) := is_any_bits (by decide +kernel) (by decide +kernel)
theorem is_Gr_Ext : Is (cpPropertyIs .gr_ext) (inRanges pGr_Ext) := is_any_bits (by decide +kernel) (by decide +kernel)

theorem is_Cased : Is (cpPropertyIs .cased) (inRanges pCased) :=
  Is.of_bits (bits_or (bits_any (by decide +kernel))
    (bits_or (bits_any (by decide +kernel)) (bits_table (t := .ranges cat_lt) (by decide +kernel)))) (by decide +kernel)

theorem is_IDS : Is (cpPropertyIs .ids) (inRanges pIDS) :=
  Is.of_bits (bits_andNot (bits_or (bits_any (by decide +kernel)) (bits_any (by decide +kernel)))
    (bits_any (by decide +kernel))) (by decide +kernel)

theorem is_IDC : Is (cpPropertyIs .idc) (inRanges pIDC) :=
  Is.of_bits (bits_andNot (bits_or (bits_any (by decide +kernel)) (bits_any (by decide +kernel)))
    (bits_any (by decide +kernel))) (by decide +kernel)

theorem and_fffe (c : Nat) : c &&& 0xfffe = 2 * (c / 2 % 32768) := by
  have h1 : (c &&& 0xfffe) / 2 = c / 2 % 32768 := by
    rw [Nat.and_div_two]
    exact Nat.and_two_pow_sub_one_eq_mod (c / 2) 15
  have h2 : (c &&& 0xfffe) % 2 = 0 := by
    have : (c &&& 0xfffe) % 2 ^ 1 = (c % 2 ^ 1) &&& (0xfffe % 2 ^ 1) := Nat.and_mod_two_pow
    simpa using this
  omega

theorem is_NChar : Is (cpPropertyIs .nchar) (inRanges pNChar) := fun c hc => by
  refine ⟨_, rfl, ?_⟩
  rw [and_fffe]
  simp only [Bool.or_eq_true, Bool.and_eq_true, decide_eq_true_eq, beq_iff_eq, pNChar, inRanges_cons, inRanges_nil, or_false]
  omega

/-! ### The properties that are not -/

/-- The look-up agrees with the ranges outside of some other ranges. -/
theorem is_without {f : Nat → Option Bool} {A : Nat} {r x : List (Nat × Nat)} (hf : Bits f A)
    (e : Nat.beq (without A (rangesBits x)) (without (rangesBits r) (rangesBits x)) = true) {c : Nat}
    (hc : c < 0x110000) (hx : ¬ inRanges x c) : ∃ b, f c = some b ∧ (b = true ↔ inRanges r c) := by
  have e := Nat.eq_of_beq_eq_true e
  refine ⟨_, hf c hc, ?_⟩
  have hx' : (rangesBits x).testBit c = false := by
    rw [Bool.eq_false_iff, Ne, testBit_rangesBits]; exact hx
  have h := congrArg (Nat.testBit · c) e
  simp only [testBit_without, hx', Bool.not_false, Bool.and_true] at h
  rw [h, testBit_rangesBits]

/-- Code points with a value of `Alphabetic` that is not the same in Unicode 14.0 and 15.0. -/
def alphaChanged : List (Nat × Nat) := [(0xC04, 0xC04), (0xF82, 0xF83), (0x11080, 0x11081)]

theorem bits_alpha : Bits (cpPropertyIs .alpha) (trieBits prop_alpha) :=
  bits_table (t := .trie prop_alpha) (by decide +kernel)

theorem alpha_beq : Nat.beq (without (trieBits prop_alpha) (rangesBits alphaChanged))
    (without (rangesBits pAlpha) (rangesBits alphaChanged)) = true := by decide +kernel

theorem bits_extPict : Bits (cpPropertyIs .extended_pictographic) (trieBits prop_extended_pictographic) :=
  bits_table (t := .trie prop_extended_pictographic) (by decide +kernel)

theorem extPict_beq : Nat.beq (without (trieBits prop_extended_pictographic) (rangesBits gcCn))
    (without (rangesBits pExtPict) (rangesBits gcCn)) = true := by decide +kernel

theorem bits_patSyn : Bits (cpPropertyIs .pat_syn) (trieBits prop_pat_syn) :=
  bits_table (t := .trie prop_pat_syn) (by decide +kernel)

theorem patSyn_beq : Nat.beq (without (trieBits prop_pat_syn) (rangesBits gcCn))
    (without (rangesBits pPat_Syn) (rangesBits gcCn)) = true := by decide +kernel

/-- What the test for `Default_Ignorable_Code_Point` takes away from its three tables. -/
def diRemoved : List (Nat × Nat) := [(0xFFF9, 0xFFFB), (0x13430, 0x13438)]

def diBits : Nat :=
  without (without (without (anyBits [.flat prop_odi, .ranges cat_cf, .ranges prop_vs]) (rangesBits diRemoved))
    (runBits 0 false prop_wspace)) (flatBits prop_pcm)

theorem bits_di : Bits (cpPropertyIs .di) diBits := fun c hc => by
  have h1 := bits_any (l := [.flat prop_odi, .ranges cat_cf, .ranges prop_vs]) (by decide +kernel) c hc
  have h2 := lookup_ranges (d := prop_wspace) (by decide +kernel) c
  have h3 := lookup_flat prop_pcm c
  rw [diBits, testBit_without, testBit_without, testBit_without, cpPropertyIs, h1, h2, h3]
  have h4 : (rangesBits diRemoved).testBit c = decide ((0xFFF9 ≤ c ∧ c ≤ 0xFFFB) ∨ (0x13430 ≤ c ∧ c ≤ 0x13438)) := by
    rw [Bool.eq_iff_iff, testBit_rangesBits]
    simp only [diRemoved, inRanges_cons, inRanges_nil, or_false, decide_eq_true_eq]
  rw [h4]
  generalize (anyBits [.flat prop_odi, .ranges cat_cf, .ranges prop_vs]).testBit c = x
  generalize (runBits 0 false prop_wspace).testBit c = y
  generalize (flatBits prop_pcm).testBit c = z
  cases x
  · rfl
  · by_cases k1 : 0xFFF9 ≤ c ∧ c ≤ 0xFFFB
    · simp [k1]
    · by_cases k2 : 0x13430 ≤ c ∧ c ≤ 0x13438
      · simp [k1, k2]
      · cases y <;> simp [k1, k2]

theorem di_beq : Nat.beq (without diBits (rangesBits gcCn)) (without (rangesBits pDI) (rangesBits gcCn)) = true := by
  decide +kernel

/-- What the binary search finds in the table of `Dash`, which is not sorted. -/
def dashFound : List (Nat × Nat) :=
  [(0x1400, 0x1400), (0x1806, 0x1806), (0x2013, 0x2015), (0x2212, 0x2212), (0x2E17, 0x2E17), (0x2E1A, 0x2E1A),
   (0x301C, 0x301C), (0x30A0, 0x30A0)]

/-- What the binary search finds in the table of `Extender`, which is not sorted. -/
def extFound : List (Nat × Nat) := [(0xAADD, 0xAADD), (0x1135D, 0x1135D), (0x16FE0, 0x16FE1)]

/-- What the binary search finds in the table of `Soft_Dotted`, which is not sorted. -/
def sdFound : List (Nat × Nat) := [(0x1D4BE, 0x1D4BF), (0x1D5C2, 0x1D5C3), (0x1D65E, 0x1D65F)]

theorem is_Dash : Is (cpPropertyIs .dash) (inRanges dashFound) := is_flat (by decide +kernel)
theorem is_Ext : Is (cpPropertyIs .ext) (inRanges extFound) := is_flat (by decide +kernel)
theorem is_SD : Is (cpPropertyIs .sd) (inRanges sdFound) := is_flat (by decide +kernel)
theorem is_CI : Is (cpPropertyIs .ci) (fun _ => False) := fun c _ => ⟨false, rfl, by simp⟩

/-- Everything that is found does have the property. -/
theorem subset_of_bits {r s : List (Nat × Nat)}
    (e : Nat.beq (Nat.land (rangesBits r) (rangesBits s)) (rangesBits r) = true) {c : Nat} (h : inRanges r c) :
    inRanges s c := by
  have e := congrArg (Nat.testBit · c) (Nat.eq_of_beq_eq_true e)
  have e2 : Nat.land (rangesBits r) (rangesBits s) = rangesBits r &&& rangesBits s := rfl
  rw [← testBit_rangesBits] at h ⊢
  simp only [e2, Nat.testBit_and, h, Bool.true_and] at e
  exact e

theorem dash_sub {c : Nat} (h : inRanges dashFound c) : inRanges pDash c := subset_of_bits (by decide +kernel) h
theorem ext_sub {c : Nat} (h : inRanges extFound c) : inRanges pExt c := subset_of_bits (by decide +kernel) h
theorem sd_sub {c : Nat} (h : inRanges sdFound c) : inRanges pSD c := subset_of_bits (by decide +kernel) h
theorem pd_sub {c : Nat} (h : inRanges pdFound c) : inRanges gcPd c := subset_of_bits (by decide +kernel) h

end Ctre.Ucd
