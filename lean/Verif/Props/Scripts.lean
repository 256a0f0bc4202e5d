import Verif.Lemmas.UniDenotes
/-
C49, C50, C51: scripts, script extensions, blocks and ages.
-/
set_option maxRecDepth 100000
namespace Ctre
open Unicode14 Ucd

/-- The names lead to the number of the row. -/
def namesLead (T : List (List Nat × Nat)) (dflt : Nat) (out : List (List Nat)) (l : List (Nat × Row)) : Bool :=
  l.all fun x => !Nat.beq x.1 dflt && x.2.names.all fun n => out.contains n || (wordOk n && decide (fromString T n = some x.1))

theorem namesLead_of {T : List (List Nat × Nat)} {dflt : Nat} {out : List (List Nat)} {l : List (Nat × Row)}
    (h : namesLead T dflt out l = true) {x : Nat × Row} (hx : x ∈ l) {n : List Nat} (hn : n ∈ x.2.names) (ho : n ∉ out) :
    x.1 ≠ dflt ∧ Surface.isPropWord n ∧ fromString T n = some x.1 := by
  have h1 := List.all_eq_true.1 h x hx
  rw [Bool.and_eq_true, Bool.not_eq_true'] at h1
  have h2 := List.all_eq_true.1 h1.2 n hn
  rw [Bool.or_eq_true, List.contains_iff_mem, Bool.and_eq_true, decide_eq_true_eq] at h2
  refine ⟨fun e => ?_, ?_⟩
  · have := h1.1
    rw [e, Bool.eq_false_iff] at this
    exact this (Nat.beq_refl dflt)
  · rcases h2 with h2 | h2
    · exact (ho h2).elim
    · exact ⟨wordOk_iff.1 h2.1, h2.2⟩

/-- Other names of scripts that are not accepted. -/
def wrongScripts : List (List Nat) := [n!"Qaac", n!"Qaai"]

theorem script_names : namesLead scriptsNames scriptUnknown wrongScripts (numbered scriptsNames scripts) = true := by
  decide +kernel

theorem extension_names : namesLead scriptsNames scriptUnknown wrongScripts (numbered scriptsNames scriptExtensions) = true := by
  decide +kernel

theorem script_kinds : ((numbered scriptsNames scripts).all fun x =>
    x.2.names.all fun n => wrongScripts.contains n || leadsTo (.script x.1) n) = true := by decide +kernel

theorem numbered_mem {T : List (List Nat × Nat)} {l : List Row} {row : Row} (h : row ∈ l) : (numberOfRow T row, row) ∈ numbered T l :=
  List.mem_map_of_mem h

/-- C49: `\p{w}` for the name of a script matches exactly the code points of the script. -/
theorem C49_script {row : Row} (hr : row ∈ scripts) {n : List Nat} (hn : n ∈ row.names) (hx : n ∉ wrongScripts) {w : List Nat}
    (hw : sameName w n) : Denotes w (inRanges row.ranges) := by
  have hm := numbered_mem (T := scriptsNames) hr
  obtain ⟨h1, _, _⟩ := namesLead_of script_names hm hn hx
  exact denotes_names (k := .script (numberOfRow scriptsNames row)) (List.all_eq_true.1 script_kinds _ hm) (is_script hm h1) hn hx hw

theorem type_word {a b : List Nat} (h : sameName a b) (hb : wordOk b = true) : Surface.isPropWord a :=
  isPropWord_same h (wordOk_iff.1 hb)

/-- C49: so does `\p{sc=w}`. -/
theorem C49_script_value {t : List Nat} (ht : sameName t n!"sc" ∨ sameName t n!"Script") {row : Row} (hr : row ∈ scripts)
    {n : List Nat} (hn : n ∈ row.names) (hx : n ∉ wrongScripts) {w : List Nat} (hw : sameName w n) :
    ValueDenotes t w (inRanges row.ranges) := by
  have hm := numbered_mem (T := scriptsNames) hr
  obtain ⟨h1, h2, h3⟩ := namesLead_of script_names hm hn hx
  refine valueDenotes_of (a := .script (numberOfRow scriptsNames row)) ?_ (isPropWord_same hw h2) ?_ (is_script hm h1)
  · rcases ht with h | h <;> exact type_word h (by decide)
  · have : propertyTypeFromName t = 0 := by
      rcases ht with h | h <;> rw [propertyType_same h] <;> decide
    simp only [table, valuedFind, this]
    rw [fromString_same hw, h3]
    simp only []
    rw [if_neg h1]

/-- C49: `\p{scx=w}` matches exactly the code points with the script among their script extensions. -/
theorem C49_script_extension {t : List Nat} (ht : sameName t n!"scx" ∨ sameName t n!"Script_Extension") {row : Row}
    (hr : row ∈ scriptExtensions) {n : List Nat} (hn : n ∈ row.names) (hx : n ∉ wrongScripts) {w : List Nat} (hw : sameName w n) :
    ValueDenotes t w (inRanges row.ranges) := by
  have hm := numbered_mem (T := scriptsNames) hr
  obtain ⟨h1, h2, h3⟩ := namesLead_of extension_names hm hn hx
  refine valueDenotes_of (a := .scx (numberOfRow scriptsNames row)) ?_ (isPropWord_same hw h2) ?_ (is_scx hm h1)
  · rcases ht with h | h <;> exact type_word h (by decide)
  · have : propertyTypeFromName t = 1 := by
      rcases ht with h | h <;> rw [propertyType_same h] <;> decide
    simp only [table, valuedFind, this]
    rw [fromString_same hw, h3]
    simp only []
    rw [if_neg h1]

/-- `\p{SCRIPT=greek}` matches U+03B1 and not U+0430 -/
example : (sameName n!"SCRIPT" n!"sc" ∨ sameName n!"SCRIPT" n!"Script") ∧ ∃ row ∈ scripts, n!"Greek" ∈ row.names ∧
    n!"Greek" ∉ wrongScripts ∧ sameName n!"greek" n!"Greek" ∧ inRanges row.ranges 0x3B1 ∧ ¬ inRanges row.ranges 0x430 :=
  ⟨by decide, ⟨[n!"Grek", n!"Greek"], scGrek⟩, by simp [scripts], by decide, by decide, by decide, by decide +kernel, by decide +kernel⟩

/-- U+0342 has the script `Zinh` and `Grek` among its script extensions -/
example : inRanges scZinh 0x342 ∧ ¬ inRanges scGrek 0x342 ∧ inRanges scxGrek 0x342 ∧ ¬ inRanges scxZinh 0x342 := by decide +kernel

/-- Other names of blocks that are not accepted. -/
def wrongBlocks : List (List Nat) :=
  [n!"Latin_1", n!"Cyrillic_Supplementary", n!"Canadian_Syllabics", n!"Combining_Marks_For_Symbols", n!"Private_Use"]

theorem block_names : namesLead blocksNames 0 wrongBlocks (numbered blocksNames blocks) = true := by decide +kernel

/-- C50: `\p{block=w}` matches exactly the code points of the block. -/
theorem C50_block {t : List Nat} (ht : sameName t n!"Block") {row : Row} (hr : row ∈ blocks) {n : List Nat} (hn : n ∈ row.names)
    (hx : n ∉ wrongBlocks) {w : List Nat} (hw : sameName w n) : ValueDenotes t w (inRanges row.ranges) := by
  have hm := numbered_mem (T := blocksNames) hr
  obtain ⟨h1, h2, h3⟩ := namesLead_of block_names hm hn hx
  refine valueDenotes_of (a := .block (numberOfRow blocksNames row)) (type_word ht (by decide)) (isPropWord_same hw h2) ?_ (is_block hm h1)
  have : propertyTypeFromName t = 3 := by rw [propertyType_same ht]; decide
  simp only [table, valuedFind, this]
  rw [fromString_same hw, h3]
  simp only []
  rw [if_neg h1]

/-- `\p{block=latin_extended_a}` -/
example : ∃ row ∈ blocks, n!"Latin_Extended_A" ∈ row.names ∧ n!"Latin_Extended_A" ∉ wrongBlocks ∧ row.ranges = [(0x100, 0x17F)] :=
  ⟨⟨[n!"Latin_Ext_A", n!"Latin_Extended_A"], [(0x100, 0x17F)]⟩, by simp [blocks], by decide, by decide, rfl⟩

theorem age_names : ((List.range ages.length).all fun k =>
    match ages[k]? with
    | some r => r.names.all fun n => wordOk n && decide (fromString ageStrings n = some (k + 1))
    | none => false) = true := by decide +kernel

/-- What `\p{age=w}` matches: besides the code points added up to the version also all unassigned ones. -/
theorem age_denotes {t : List Nat} (ht : sameName t n!"Age") {k : Nat} {row : Row} (hr : ages[k]? = some row) {n : List Nat}
    (hn : n ∈ row.names) {w : List Nat} (hw : sameName w n) :
    ValueDenotes t w (fun c => inRanges gcCn c ∨ ∃ r ∈ ages.take (k + 1), inRanges r.ranges c) := by
  have hk : k < ages.length := by
    rcases Nat.lt_or_ge k ages.length with h | h
    · exact h
    · rw [List.getElem?_eq_none h] at hr; simp at hr
  have h0 := List.all_eq_true.1 age_names k (List.mem_range.2 hk)
  simp only [hr] at h0
  have h1 := List.all_eq_true.1 h0 n hn
  rw [Bool.and_eq_true, decide_eq_true_eq] at h1
  refine valueDenotes_of (a := .age (k + 1)) (type_word ht (by decide)) (isPropWord_same hw (wordOk_iff.1 h1.1)) ?_ (is_age hk)
  have : propertyTypeFromName t = 2 := by rw [propertyType_same ht]; decide
  simp only [table, valuedFind, this]
  rw [fromString_same hw, h1.2]
  simp

/-- C51: of the assigned code points `\p{age=w}` matches exactly those added in the version or in an older one. -/
theorem C51_age_partial {t : List Nat} (ht : sameName t n!"Age") {k : Nat} {row : Row} (hr : ages[k]? = some row) {n : List Nat}
    (hn : n ∈ row.names) {w : List Nat} (hw : sameName w n) :
    ∃ q, ValueDenotes t w q ∧ ∀ c, ¬ inRanges gcCn c → (q c ↔ ∃ r ∈ ages.take (k + 1), inRanges r.ranges c) :=
  ⟨_, age_denotes ht hr hn hw, fun c hc => by simp [hc]⟩

/-- C51: exactly what `\p{age=w}` matches: the code points added in the version or in an older one, and the unassigned ones. -/
theorem C51_exact_partial {t : List Nat} (ht : sameName t n!"Age") {k : Nat} {row : Row} (hr : ages[k]? = some row) {n : List Nat}
    (hn : n ∈ row.names) {w : List Nat} (hw : sameName w n) :
    ValueDenotes t w fun c => inRanges gcCn c ∨ ∃ r ∈ ages.take (k + 1), inRanges r.ranges c :=
  age_denotes ht hr hn hw

/-- `\p{AGE=6.0}` -/
example : sameName n!"AGE" n!"Age" ∧ ∃ row, ages[11]? = some row ∧ n!"6.0" ∈ row.names ∧ sameName n!"6.0" n!"6.0" ∧
    ¬ inRanges gcCn 0x20B9 ∧ inRanges row.ranges 0x20B9 :=
  ⟨by decide, ⟨[n!"6.0"], ageV6_0⟩, rfl, by decide, by decide, by decide +kernel, by decide +kernel⟩

/-- C51 fails: U+0378 is unassigned, and every pattern `\p{age=…}` matches it. -/
theorem C51_fails_unassigned {k : Nat} {row : Row} (hr : ages[k]? = some row) {n : List Nat} (hn : n ∈ row.names) :
    ¬ ValueDenotes n!"age" n (fun c => ∃ r ∈ ages.take (k + 1), inRanges r.ranges c) := by
  intro h
  have h1 := age_denotes (t := n!"age") rfl hr hn (w := n) rfl
  have h2 := (exactly_unique h1.1 h.1 (c := 0x378) (by decide)).1 (Or.inl (by decide +kernel))
  obtain ⟨r, hm, hc⟩ := h2
  have h3 : (ages.all fun r => !decide (inRanges r.ranges 0x378)) = true := by decide +kernel
  have h4 := List.all_eq_true.1 h3 r (List.mem_of_mem_take hm)
  rw [Bool.not_eq_true', decide_eq_false_iff_not] at h4
  exact h4 hc

end Ctre
