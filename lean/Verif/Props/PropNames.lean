import Verif.Props.BinaryProps
import Verif.Props.Scripts
/-
C53: which property names are accepted.
-/
set_option maxRecDepth 100000
namespace Ctre
open Unicode14 Ucd Parse

/-! ### Letter case -/

/-- C53: the letter case of a name makes no difference. -/
theorem C53_letter_case {w w' : List Nat} (hw : Surface.isPropWord w) (h : sameName w' w) (neg : Bool) :
    build table (propText neg w') = build table (propText neg w) := by
  have hw' := isPropWord_same h hw
  have e : table.binary w' = table.binary w := by simp only [table, binaryFind]; rw [fromString_same h]
  have hl : w'.length = w.length := by
    have := congrArg List.length h
    simpa using this
  cases hb : table.binary w with
  | none =>
    rw [hb] at e
    have h1 := binary_reject (neg := neg) hw hb
    have h2 := binary_reject (neg := neg) hw' e
    rw [hl] at h2
    rw [propText, propText, h1, h2]
  | some p =>
    rw [hb] at e
    have h1 := cls_build (P := table) (c := .prop neg p w none) ⟨hw, by simp, hb⟩
    have h2 := cls_build (P := table) (c := .prop neg p w' none) ⟨hw', by simp, e⟩
    simp only [Surface.Cls.print, Surface.printValue, List.append_nil] at h1 h2
    rw [propText, propText, h1, h2]
    rfl

/-! ### The accepted names -/

/-- The names of the general categories, scripts and binary properties in Unicode 14.0. -/
def unicodeNames : List (List Nat) :=
  (categories ++ categoryGroups ++ scripts ++ binaryProps).flatMap (·.names) ++
    [n!"Any", n!"ASCII", n!"Assigned", n!"Hrkt", n!"Katakana_Or_Hiragana", n!"Zzzz", n!"Unknown"]

/-- Those that are not accepted. -/
def missingNames : List (List Nat) :=
  [n!"Cntrl", n!"Digit", n!"Combining_Mark", n!"Punct", n!"Qaac", n!"Qaai", n!"EComp", n!"EMod", n!"EBase", n!"EPres", n!"ExtPict"]

def eqList : List Nat → List Nat → Bool
  | [], [] => true
  | a :: l, b :: m => Nat.beq a b && eqList l m
  | _, _ => false

theorem eqList_iff {a b : List Nat} : eqList a b = true ↔ a = b := by
  induction a generalizing b with
  | nil => cases b <;> simp [eqList]
  | cons x a ih => cases b <;> simp [eqList, ih]

/-- Every name of a table is one of the names of a list. -/
def tableIn (T : List (List Nat × Nat)) (dflt : Option Nat) (l : List (List Nat)) : Bool :=
  T.all fun x => (match dflt with | some d => Nat.beq x.2 d | none => false) ||
    l.any fun n => eqList (x.1.map propCharNorm) (n.map propCharNorm)

/-- Every name of a list is found in a table. -/
def listIn (T : List (List Nat × Nat)) (dflt : Option Nat) (l : List (List Nat)) : Bool :=
  l.all fun n =>
    match fromString T n with
    | some v => !(match dflt with | some d => Nat.beq v d | none => false)
    | none => false

theorem norm_propChar {v : Nat} (h : Surface.isPropChar v) : propCharNorm v = small v := by
  simp only [Surface.isPropChar, Surface.isNameChar, Surface.isNameStart, Surface.isDec] at h
  unfold propCharNorm small
  split
  · rfl
  · rw [if_neg (by omega)]

theorem norm_word {w : List Nat} (h : Surface.isPropWord w) : w.map propCharNorm = w.map small :=
  List.map_congr_left fun v hv => norm_propChar (h.2 v hv)

/-- A word is found in the table exactly when it is one of the names. -/
theorem found_iff {T : List (List Nat × Nat)} {dflt : Option Nat} {l : List (List Nat)} (h1 : tableIn T dflt l = true)
    (h2 : listIn T dflt l = true) (h3 : l.all wordOk = true) {w : List Nat} (hw : Surface.isPropWord w) :
    (∃ v, fromString T w = some v ∧ some v ≠ dflt) ↔ ∃ n ∈ l, sameName w n := by
  constructor
  · rintro ⟨v, hv, hd⟩
    obtain ⟨x, hx, e, rfl⟩ := fromString_mem hv
    have h := List.all_eq_true.1 h1 x hx
    rw [Bool.or_eq_true] at h
    rcases h with h | h
    · exfalso
      cases dflt with
      | none => simp at h
      | some d => exact hd (congrArg some (Nat.eq_of_beq_eq_true h))
    · obtain ⟨n, hn, hs⟩ := List.any_eq_true.1 h
      refine ⟨n, hn, ?_⟩
      have hn' := wordOk_iff.1 (List.all_eq_true.1 h3 n hn)
      rw [eqList_iff] at hs
      rw [sameName, ← norm_word hw, ← norm_word hn', e, hs]
  · rintro ⟨n, hn, hs⟩
    have h := List.all_eq_true.1 h2 n hn
    rw [fromString_same hs]
    revert h
    split
    · rename_i v hv
      intro h
      refine ⟨v, hv, ?_⟩
      rintro rfl
      simp [Nat.beq_refl] at h
    · intro h; simp at h

def acceptedNames : List (List Nat) := unicodeNames.filter fun n => !missingNames.any (eqList n)

theorem binary_in : tableIn binaryPropNames none acceptedNames = true := by decide +kernel
theorem binary_all : listIn binaryPropNames none acceptedNames = true := by decide +kernel
theorem binary_words : acceptedNames.all wordOk = true := by decide +kernel

theorem mem_accepted {n : List Nat} : n ∈ acceptedNames ↔ n ∈ unicodeNames ∧ n ∉ missingNames := by
  rw [acceptedNames, List.mem_filter, Bool.not_eq_true', Bool.eq_false_iff, Ne, List.any_eq_true]
  simp only [eqList_iff, exists_eq_right']

/-- C53: `\p{w}` is accepted exactly when `w` is a name of a general category, script or binary property, in any letter case,
and not one of eleven aliases; every other name is a syntax error right behind the brace. -/
theorem C53_accepted_partial {w : List Nat} (hw : Surface.isPropWord w) (neg : Bool) :
    ((∃ r, build table (propText neg w) = .pattern r) ↔ ∃ n ∈ unicodeNames, n ∉ missingNames ∧ sameName w n) ∧
    ((¬ ∃ r, build table (propText neg w) = .pattern r) → build table (propText neg w) = .syntaxError (w.length + 4)) := by
  have h := found_iff binary_in binary_all binary_words hw
  simp only [mem_accepted, and_assoc] at h
  cases hb : table.binary w with
  | none =>
    have h1 : build table (propText neg w) = .syntaxError (w.length + 4) := binary_reject (neg := neg) hw hb
    refine ⟨?_, fun _ => h1⟩
    rw [h1, ← h]
    simp only [table, binaryFind, Option.map_eq_none_iff] at hb
    rw [hb]
    simp
  | some p =>
    have h1 := cls_build (P := table) (c := .prop neg p w none) ⟨hw, by simp, hb⟩
    simp only [Surface.Cls.print, Surface.printValue, List.append_nil] at h1
    refine ⟨?_, fun k => (k ⟨_, h1⟩).elim⟩
    refine ⟨fun _ => h.1 ?_, fun _ => ⟨_, h1⟩⟩
    simp only [table, binaryFind, Option.map_eq_some_iff] at hb
    obtain ⟨v, hv, _⟩ := hb
    exact ⟨v, hv, by simp⟩

example : Surface.isPropWord n!"gReEk" ∧ n!"Greek" ∈ unicodeNames ∧ n!"Greek" ∉ missingNames ∧ sameName n!"gReEk" n!"Greek" :=
  ⟨wordOk_iff.1 (by decide), by decide +kernel, by decide, by decide⟩

/-- C53 fails for eleven aliases of the Unicode database: they are syntax errors. -/
theorem C53_fails_aliases {n : List Nat} (h : n ∈ missingNames) (neg : Bool) :
    n ∈ unicodeNames ∧ build table (propText neg n) = .syntaxError (n.length + 4) := by
  have h1 : (missingNames.all fun n => unicodeNames.any (eqList n) && wordOk n && decide (fromString binaryPropNames n = none)) = true := by
    decide +kernel
  have h2 := List.all_eq_true.1 h1 n h
  rw [Bool.and_eq_true, Bool.and_eq_true, List.any_eq_true, decide_eq_true_eq] at h2
  obtain ⟨⟨⟨m, hm, e⟩, hw⟩, hf⟩ := h2
  rw [eqList_iff] at e
  subst e
  exact ⟨hm, binary_reject (wordOk_iff.1 hw) (by simp only [table, binaryFind]; rw [hf]; rfl)⟩

/-! ### Names with values -/

/-- The names of the values of a property without some names. -/
def valueNames (l : List Row) (extra out : List (List Nat)) : List (List Nat) :=
  (l.flatMap (·.names) ++ extra).filter fun n => !out.any (eqList n)

theorem mem_valueNames {l : List Row} {extra out : List (List Nat)} {n : List Nat} :
    n ∈ valueNames l extra out ↔ (n ∈ l.flatMap (·.names) ∨ n ∈ extra) ∧ n ∉ out := by
  rw [valueNames, List.mem_filter, Bool.not_eq_true', Bool.eq_false_iff, Ne, List.any_eq_true, List.mem_append]
  simp only [eqList_iff, exists_eq_right']

/-- The accepted names of scripts. -/
def scriptValues : List (List Nat) := valueNames scripts [n!"Hrkt", n!"Katakana_Or_Hiragana"] wrongScripts
/-- The accepted names of blocks. -/
def blockValues : List (List Nat) := valueNames blocks [] wrongBlocks
/-- The accepted names of ages. -/
def ageValues : List (List Nat) := valueNames ages [] []

theorem script_in : tableIn scriptsNames (some scriptUnknown) scriptValues = true := by decide +kernel
theorem script_all : listIn scriptsNames (some scriptUnknown) scriptValues = true := by decide +kernel
theorem script_words : scriptValues.all wordOk = true := by decide +kernel
theorem block_in : tableIn blocksNames (some 0) blockValues = true := by decide +kernel
theorem block_all : listIn blocksNames (some 0) blockValues = true := by decide +kernel
theorem block_words : blockValues.all wordOk = true := by decide +kernel
theorem age_in : tableIn ageStrings (some 0) ageValues = true := by decide +kernel
theorem age_all : listIn ageStrings (some 0) ageValues = true := by decide +kernel
theorem age_words : ageValues.all wordOk = true := by decide +kernel

/-- `\p{t=w}` names a property and one of its values. -/
def KnownValue (t w : List Nat) : Prop :=
  ((sameName t n!"sc" ∨ sameName t n!"Script" ∨ sameName t n!"scx" ∨ sameName t n!"Script_Extension") ∧ ∃ n ∈ scriptValues, sameName w n) ∨
  (sameName t n!"Age" ∧ ∃ n ∈ ageValues, sameName w n) ∨
  (sameName t n!"Block" ∧ ∃ n ∈ blockValues, sameName w n)

theorem word_same {t n : List Nat} (ht : Surface.isPropWord t) (hn : wordOk n = true) :
    propNameComp t n = 0 ↔ sameName t n := by
  rw [propNameComp_zero, norm_word ht, norm_word (wordOk_iff.1 hn)]; rfl

theorem valued_iff {t w : List Nat} (ht : Surface.isPropWord t) (hw : Surface.isPropWord w) :
    (∃ p, table.valued t w = some p) ↔ KnownValue t w := by
  have h1 := word_same (n := n!"script") ht (by decide)
  have h2 := word_same (n := n!"sc") ht (by decide)
  have h3 := word_same (n := n!"script_extension") ht (by decide)
  have h4 := word_same (n := n!"scx") ht (by decide)
  have h5 := word_same (n := n!"age") ht (by decide)
  have h6 := word_same (n := n!"block") ht (by decide)
  have e1 : sameName t n!"Script" ↔ sameName t n!"script" := Iff.rfl
  have e3 : sameName t n!"Script_Extension" ↔ sameName t n!"script_extension" := Iff.rfl
  have e5 : sameName t n!"Age" ↔ sameName t n!"age" := Iff.rfl
  have e6 : sameName t n!"Block" ↔ sameName t n!"block" := Iff.rfl
  rw [KnownValue, e1, e3, e5, e6, ← found_iff script_in script_all script_words hw, ← found_iff age_in age_all age_words hw,
    ← found_iff block_in block_all block_words hw, ← h1, ← h2, ← h3, ← h4, ← h5, ← h6]
  have distinct : ∀ {a b : List Nat}, a.map propCharNorm ≠ b.map propCharNorm → propNameComp t a = 0 → propNameComp t b ≠ 0 := by
    intro a b h ha hb
    rw [propNameComp_zero] at ha hb
    exact h (ha.symm.trans hb)
  have key : ∀ {T : List (List Nat × Nat)} {d : Nat} {f : Nat → Nat},
      (∃ p, (match fromString T w with
        | some v => if v = d then none else some (f v)
        | none => none) = some p) ↔ ∃ v, fromString T w = some v ∧ some v ≠ some d := by
    intro T d f
    cases h : fromString T w with
    | none => simp
    | some v => by_cases hd : v = d <;> simp [hd]
  simp only [table, valuedFind, propertyTypeFromName]
  by_cases k1 : propNameComp t n!"script" = 0 ∨ propNameComp t n!"sc" = 0
  · rw [if_pos k1]
    simp only []
    refine (key (f := fun v => (Atom.script v).code)).trans ?_
    have n5 : propNameComp t n!"age" ≠ 0 := by rcases k1 with k | k <;> exact distinct (by decide) k
    have n6 : propNameComp t n!"block" ≠ 0 := by rcases k1 with k | k <;> exact distinct (by decide) k
    simp only [n5, n6, false_and, or_false]
    exact ⟨fun h => ⟨k1.elim (fun k => Or.inr (Or.inl k)) Or.inl, h⟩, And.right⟩
  · rw [if_neg k1]
    rw [not_or] at k1
    by_cases k2 : propNameComp t n!"script_extension" = 0 ∨ propNameComp t n!"scx" = 0
    · rw [if_pos k2]
      simp only []
      refine (key (f := fun v => (Atom.scx v).code)).trans ?_
      have n5 : propNameComp t n!"age" ≠ 0 := by rcases k2 with k | k <;> exact distinct (by decide) k
      have n6 : propNameComp t n!"block" ≠ 0 := by rcases k2 with k | k <;> exact distinct (by decide) k
      simp only [n5, n6, false_and, or_false]
      exact ⟨fun h => ⟨k2.elim (fun k => Or.inr (Or.inr (Or.inr k))) (fun k => Or.inr (Or.inr (Or.inl k))), h⟩, And.right⟩
    · rw [if_neg k2]
      rw [not_or] at k2
      by_cases k3 : propNameComp t n!"age" = 0
      · rw [if_pos k3]
        simp only []
        refine (key (f := fun v => (Atom.age v).code)).trans ?_
        have n6 : propNameComp t n!"block" ≠ 0 := distinct (by decide) k3
        simp only [n6, false_and, or_false, k1.1, k1.2, k2.1, k2.2, or_self, false_or, k3, true_and]
      · rw [if_neg k3]
        by_cases k4 : propNameComp t n!"block" = 0
        · rw [if_pos k4]
          simp only []
          refine (key (f := fun v => (Atom.block v).code)).trans ?_
          simp only [k3, false_and, false_or, k1.1, k1.2, k2.1, k2.2, or_self, k4, true_and]
        · rw [if_neg k4]
          simp [k1.1, k1.2, k2.1, k2.2, k3, k4]

/-- The pattern compiles, but no call ever succeeds, on no subject, from no position, with no flags. -/
def NeverMatches (b : Built) : Prop :=
  ∃ r, b = .pattern r ∧ ∀ (C : Cfg) (s : List Ch) (f : Flags) (start n : Nat), 2 ≤ n →
    (∃ c, matchAt C n s f r start = .done c ∧ c.whole.matched = false) ∧
    (∃ c, startsWithAt C n s f r start = .done c ∧ c.whole.matched = false) ∧
    (∃ c, searchAt C n s f r start = .done c ∧ c.whole.matched = false)

theorem never_reject : NeverMatches (.pattern (.reject false)) := by
  refine ⟨_, rfl, fun C s f start n hn => ?_⟩
  obtain ⟨n, rfl⟩ : ∃ m, n = m + 2 := ⟨n - 2, by omega⟩
  have h1 : ∀ it, attempt C (n + 2) s f (.reject false) it = .fail := by
    intro it
    rw [attempt, eval_startMark, eval_reject]; rfl
  refine ⟨⟨initCaps (.reject false), ?_, rfl⟩, ⟨initCaps (.reject false), ?_, rfl⟩, ?_⟩
  · rw [matchAt, attemptFull, eval_startMark, eval_reject]; rfl
  · rw [startsWithAt, h1]; rfl
  · rw [searchAt]
    generalize (if startsWithAnchor f (.reject false) then 0 else s.length - start) = k
    induction k generalizing start with
    | zero => exact ⟨_, by rw [searchLoop, h1], rfl⟩
    | succ k ih =>
      rw [searchLoop, h1]
      exact ih (start + 1)

/-- C53: `\P{t=w}` is accepted exactly when `t` is one of the six names of properties with values and `w` one of the names of
a value; anything else does not compile. -/
theorem C53_negated_value_accepted {t w : List Nat} (ht : Surface.isPropWord t) (hw : Surface.isPropWord w) :
    ((∃ r, build table (valueText true t w) = .pattern r) ↔ KnownValue t w) ∧
    ((¬ ∃ r, build table (valueText true t w) = .pattern r) → build table (valueText true t w) = .ill) := by
  rw [← valued_iff ht hw]
  cases hb : table.valued t w with
  | none =>
    have h1 : build table (valueText true t w) = .ill := valued_ill ht hw hb
    refine ⟨?_, fun _ => h1⟩
    rw [h1]
    simp
  | some p =>
    have h1 := cls_build (P := table) (c := .prop true p t (some w)) ⟨ht, by simpa using hw, hb⟩
    have e : (Surface.Cls.prop true p t (some w)).print = valueText true t w := by
      simp [Surface.Cls.print, Surface.printValue, valueText]
    rw [e] at h1
    exact ⟨⟨fun _ => ⟨p, rfl⟩, fun _ => ⟨_, h1⟩⟩, fun k => (k ⟨_, h1⟩).elim⟩

/-- C53: `\p{t=w}` is accepted for all words; if `t` is not one of the six names of properties with values or `w` not one of the
names of a value, it never matches. -/
theorem C53_value_accepted {t w : List Nat} (ht : Surface.isPropWord t) (hw : Surface.isPropWord w) :
    (∃ r, build table (valueText false t w) = .pattern r) ∧ (¬ KnownValue t w → NeverMatches (build table (valueText false t w))) := by
  rw [← valued_iff ht hw]
  cases hb : table.valued t w with
  | none =>
    have h1 : build table (valueText false t w) = .pattern (.reject false) := valued_reject ht hw hb
    rw [h1]
    exact ⟨⟨_, rfl⟩, fun _ => never_reject⟩
  | some p =>
    have h1 := cls_build (P := table) (c := .prop false p t (some w)) ⟨ht, by simpa using hw, hb⟩
    have e : (Surface.Cls.prop false p t (some w)).print = valueText false t w := by
      simp [Surface.Cls.print, Surface.printValue, valueText]
    rw [e] at h1
    exact ⟨⟨_, h1⟩, fun h => (h ⟨p, rfl⟩).elim⟩

example : KnownValue n!"scx" n!"grek" := Or.inl ⟨by decide, n!"Grek", by decide +kernel, by decide⟩

/-- C53 fails for names of the Unicode database: `\p{gc=Lu}`, `\p{Script_Extensions=Greek}` and `\p{blk=ASCII}` never match
anything, nor does `\p{block=Latin_1}`. -/
theorem C53_fails_values :
    NeverMatches (build table n!"\\p{gc=Lu}") ∧ NeverMatches (build table n!"\\p{Script_Extensions=Greek}") ∧
    NeverMatches (build table n!"\\p{blk=ASCII}") ∧ NeverMatches (build table n!"\\p{block=Latin_1}") := by
  have key : ∀ {t w : List Nat}, Surface.isPropWord t → Surface.isPropWord w → table.valued t w = none →
      NeverMatches (build table ([92, 112, 123] ++ t ++ [61] ++ w ++ [125])) := by
    intro t w ht hw h
    rw [valued_reject ht hw h]
    exact never_reject
  refine ⟨?_, ?_, ?_, ?_⟩
  · exact key (t := n!"gc") (w := n!"Lu") (wordOk_iff.1 (by decide)) (wordOk_iff.1 (by decide)) (by decide +kernel)
  · exact key (t := n!"Script_Extensions") (w := n!"Greek") (wordOk_iff.1 (by decide)) (wordOk_iff.1 (by decide)) (by decide +kernel)
  · exact key (t := n!"blk") (w := n!"ASCII") (wordOk_iff.1 (by decide)) (wordOk_iff.1 (by decide)) (by decide +kernel)
  · exact key (t := n!"block") (w := n!"Latin_1") (wordOk_iff.1 (by decide)) (wordOk_iff.1 (by decide)) (by decide +kernel)

end Ctre
