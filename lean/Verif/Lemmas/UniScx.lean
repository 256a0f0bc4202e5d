import Verif.Lemmas.UniScripts
/-
Scripts, script extensions, blocks and ages: which of them are those of Unicode 14.0.
-/
set_option maxRecDepth 100000
namespace Ctre.Ucd
open Unicode14

theorem is_script {x : Nat × Row} (hx : x ∈ numbered scriptsNames scripts) (hn : x.1 ≠ scriptUnknown) :
    Is (fun c => (cpScript c).map (· == x.1)) (inRanges x.2.ranges) := fun c hc => by
  have hs : stepsOk script_data_0 = true := by decide +kernel
  obtain ⟨s, h⟩ := compactValue_some hs c scriptUnknown
  refine ⟨s == x.1, ?_, ?_⟩
  · simp only [cpScript, cpScriptN, if_neg (show ¬ c > 0x10FFFF by omega), h, Option.map_some]
  · have h2 := compactValue_iff hs hc hn
    rw [rowsOk_mem script_rows hx, h, Option.some.injEq] at h2
    rw [beq_iff_eq, h2]

/-! ### Script extensions -/

/-- The code points for which a table knows a script. -/
def known (_ v : Nat) : Nat := if Nat.beq (Nat.land v 0xFF) scriptUnknown then 0 else 1

/-- The scripts of the layers from a table on. -/
def layerBits (s : Nat) : List (List Nat) → Nat
  | [] => 0
  | d :: l => Nat.lor (rangesBits (rangesOf s (segs low 0 d))) (layerBits s l)

def knownBits (d : List Nat) : Nat := rangesBits (rangesOf 1 (segs known 0 d))

/-- A layer knows a script only where the layer before knows one. -/
def nested : List (List Nat) → Bool
  | d :: e :: l => Nat.beq (Nat.land (knownBits d) (knownBits e)) (knownBits e) && nested (e :: l)
  | _ => true

def scxBits (s : Nat) : Nat :=
  Nat.lor (layerBits s scriptTables.tail) (without (rangesBits (rangesOf s (segs low 0 script_data_0))) (knownBits script_data_1))

def scxOk : List (Nat × Row) → Bool
  | [] => true
  | x :: l => Nat.beq (scxBits x.1) (rangesBits x.2.ranges) && scxOk l

theorem tables_ok : scriptTables.all stepsOk = true := by decide +kernel
theorem tables_nested : nested scriptTables.tail = true := by decide +kernel
theorem scx_rows : scxOk (numbered scriptsNames scriptExtensions) = true := by decide +kernel

/-- The script a table gives. -/
def val (d : List Nat) (c : Nat) : Nat := (runAt 0 d c).getD scriptUnknown

/-- The scripts met from a script on, the tables behind given. -/
def walk (c : Nat) : Nat → List (List Nat) → List Nat
  | script, l =>
    if script = scriptUnknown then [] else
      match l with
      | [] => [script]
      | d :: l => script :: walk c (val d c) l
termination_by _ l => l.length

theorem cpScriptN_eq {d : List Nat} (hs : stepsOk d = true) {c : Nat} (hc : c < 0x110000) : cpScriptN d c = some (val d c) := by
  rw [cpScriptN, if_neg (by omega), compactValue_eq hs]; rfl

theorem scriptsFrom_eq {c : Nat} (hc : c < 0x110000) {l : List (List Nat)} {n script idx : Nat}
    (hl : scriptTables.drop (idx + 1) = l) (hn : l.length + 2 ≤ n) : scriptsFrom c n script idx = some (walk c script l) := by
  induction l generalizing n script idx with
  | nil =>
    obtain ⟨n, rfl⟩ : ∃ m, n = m + 2 := ⟨n - 2, by simp at hn; omega⟩
    rw [scriptsFrom, walk]
    split
    · rfl
    · have : scriptTables[idx + 1]? = none := List.getElem?_eq_none (List.drop_eq_nil_iff.1 hl)
      simp only [getCpScript, this]
      rw [scriptsFrom, if_pos rfl]; rfl
  | cons d l ih =>
    obtain ⟨n, rfl⟩ : ∃ m, n = m + 1 := ⟨n - 1, by omega⟩
    rw [scriptsFrom, walk]
    split
    · rfl
    · have h1 : scriptTables[idx + 1]? = some d := by
        have := congrArg (·[0]?) hl
        simpa [List.getElem?_drop] using this
      have h2 : scriptTables.drop (idx + 1 + 1) = l := by
        rw [← List.drop_drop, hl]; rfl
      have h3 : stepsOk d = true := List.all_eq_true.1 tables_ok d (List.mem_of_getElem? h1)
      simp only [getCpScript, h1]
      rw [cpScriptN_eq h3 hc]
      simp only []
      rw [ih h2 (by simp at hn; omega)]
      rfl

theorem val_iff {d : List Nat} (hs : stepsOk d = true) {c : Nat} (hc : c < 0x110000) {s : Nat} (hn : s ≠ scriptUnknown) :
    val d c = s ↔ (rangesBits (rangesOf s (segs low 0 d))).testBit c = true := by
  rw [testBit_rangesBits, ← compactValue_iff hs hc hn, compactValue_eq hs, Option.some.injEq]; rfl

theorem known_iff {d : List Nat} (hs : stepsOk d = true) {c : Nat} (hc : c < 0x110000) :
    val d c ≠ scriptUnknown ↔ (knownBits d).testBit c = true := by
  rw [knownBits, testBit_rangesBits, seg_iff hs known c 1 hc, val]
  rcases beforeUpper_spec hs c with ⟨hb, h⟩ | ⟨i, hb, hi, _, _, h⟩
  · rw [hb, h]; simp
  · rw [hb, h]
    simp only [Option.getD_some, Option.some.injEq]
    have e : ∀ v : Nat, v &&& 0xFF ≠ scriptUnknown ↔ known i v = 1 := by
      intro v
      have e2 : Nat.land v 0xFF = v &&& 0xFF := rfl
      rw [known, e2]
      by_cases k : v &&& 0xFF = scriptUnknown
      · simp [k]
      · rw [if_neg]
        · simp [k]
        · intro h; exact k (Nat.eq_of_beq_eq_true h)
    rw [e]
    constructor
    · intro h; exact ⟨i, rfl, h⟩
    · rintro ⟨j, rfl, h⟩; exact h

theorem nested_step {d e : List Nat} {l : List (List Nat)} (h : nested (d :: e :: l) = true) {c : Nat}
    (hk : (knownBits d).testBit c = false) : (knownBits e).testBit c = false := by
  rw [nested, Bool.and_eq_true] at h
  have h1 := congrArg (Nat.testBit · c) (Nat.eq_of_beq_eq_true h.1)
  have e2 : Nat.land (knownBits d) (knownBits e) = knownBits d &&& knownBits e := rfl
  simp only [e2, Nat.testBit_and, hk, Bool.false_and] at h1
  exact h1.symm

theorem nested_tail {d : List Nat} {l : List (List Nat)} (h : nested (d :: l) = true) : nested l = true := by
  cases l with
  | nil => rfl
  | cons e l => rw [nested, Bool.and_eq_true] at h; exact h.2

/-- Behind a layer without a script there is none. -/
theorem layer_none {d : List Nat} {l : List (List Nat)} (hs : (d :: l).all stepsOk = true) (h : nested (d :: l) = true)
    {c : Nat} (hc : c < 0x110000) (hk : val d c = scriptUnknown) {s : Nat} (hn : s ≠ scriptUnknown) :
    (layerBits s (d :: l)).testBit c = false := by
  induction l generalizing d with
  | nil =>
    rw [List.all_cons, Bool.and_eq_true] at hs
    have e : layerBits s [d] = rangesBits (rangesOf s (segs low 0 d)) ||| 0 := rfl
    rw [e, Nat.or_zero, Bool.eq_false_iff, Ne, ← val_iff hs.1 hc hn, hk]
    exact hn.symm
  | cons e l ih =>
    have hs2 := hs
    rw [List.all_cons, Bool.and_eq_true] at hs2
    have e1 : layerBits s (d :: e :: l) = rangesBits (rangesOf s (segs low 0 d)) ||| layerBits s (e :: l) := rfl
    have h1 : (knownBits d).testBit c = false := by
      rw [Bool.eq_false_iff, Ne, ← known_iff hs2.1 hc, hk]; simp
    have h2 : val e c = scriptUnknown := by
      have := nested_step h h1
      by_contra k
      rw [(known_iff (List.all_eq_true.1 hs e (by simp)) hc).1 k] at this
      simp at this
    rw [e1, Nat.testBit_or, ih hs2.2 (nested_tail h) h2, Bool.or_false, Bool.eq_false_iff, Ne, ← val_iff hs2.1 hc hn, hk]
    exact hn.symm

theorem mem_walk {d : List Nat} {l : List (List Nat)} (hs : (d :: l).all stepsOk = true) (h : nested (d :: l) = true)
    {c : Nat} (hc : c < 0x110000) {s : Nat} (hn : s ≠ scriptUnknown) :
    s ∈ walk c (val d c) l ↔ (layerBits s (d :: l)).testBit c = true := by
  induction l generalizing d with
  | nil =>
    by_cases hk : val d c = scriptUnknown
    · rw [layer_none hs h hc hk hn, walk, if_pos hk]; simp
    · rw [List.all_cons, Bool.and_eq_true] at hs
      have e : layerBits s [d] = rangesBits (rangesOf s (segs low 0 d)) ||| 0 := rfl
      rw [e, Nat.or_zero, ← val_iff hs.1 hc hn, walk, if_neg hk]
      simp [eq_comm]
  | cons e l ih =>
    by_cases hk : val d c = scriptUnknown
    · rw [layer_none hs h hc hk hn, walk, if_pos hk]; simp
    · rw [List.all_cons, Bool.and_eq_true] at hs
      have e1 : layerBits s (d :: e :: l) = rangesBits (rangesOf s (segs low 0 d)) ||| layerBits s (e :: l) := rfl
      rw [e1, Nat.testBit_or, Bool.or_eq_true, ← ih hs.2 (nested_tail h), ← val_iff hs.1 hc hn, walk, if_neg hk]
      simp [eq_comm]

theorem scx_bits {c : Nat} (hc : c < 0x110000) {s : Nat} (hn : s ≠ scriptUnknown) :
    (cpScriptExtensions c).map (·.contains s) = some ((scxBits s).testBit c) := by
  have hok := List.all_eq_true.1 tables_ok
  have h0 : stepsOk script_data_0 = true := hok _ (by simp [scriptTables])
  have h1 : stepsOk script_data_1 = true := hok _ (by simp [scriptTables])
  have h2 : stepsOk script_data_2 = true := hok _ (by simp [scriptTables])
  have ht : scriptTables.tail.all stepsOk = true := by
    have := tables_ok
    rw [scriptTables, List.all_cons, Bool.and_eq_true] at this
    exact this.2
  have hg1 : getCpScript c 1 = some (val script_data_1 c) := cpScriptN_eq h1 hc
  have hg0 : cpScript c = some (val script_data_0 c) := cpScriptN_eq h0 hc
  have hd : scriptTables.drop (1 + 1) = script_data_2 :: scriptTables.drop 3 := rfl
  have htl : scriptTables.tail = script_data_1 :: (script_data_2 :: scriptTables.drop 3) := rfl
  have eb : scxBits s = layerBits s scriptTables.tail |||
      without (rangesBits (rangesOf s (segs low 0 script_data_0))) (knownBits script_data_1) := rfl
  rw [eb, Nat.testBit_or, testBit_without]
  have hnest := tables_nested
  rw [htl] at hnest ht ⊢
  rw [cpScriptExtensions, hg1]
  simp only []
  by_cases hk : val script_data_1 c = scriptUnknown
  · rw [if_pos hk, hg0]
    simp only []
    rw [scriptsFrom_eq hc hd (by decide), layer_none ht hnest hc hk hn, Bool.false_or]
    have hkb : (knownBits script_data_1).testBit c = false := by
      rw [Bool.eq_false_iff, Ne, ← known_iff h1 hc, hk]; simp
    have hk2 : val script_data_2 c = scriptUnknown := by
      have := nested_step hnest hkb
      by_contra k
      rw [(known_iff h2 hc).1 k] at this
      simp at this
    rw [hkb, Bool.not_false, Bool.and_true, Option.map_some, Option.some.injEq, Bool.eq_iff_iff, ← val_iff h0 hc hn,
      List.contains_iff_mem, walk]
    by_cases k0 : val script_data_0 c = scriptUnknown
    · rw [if_pos k0, k0]; simp [hn.symm]
    · rw [if_neg k0, hk2]
      rw [walk.eq_def]
      simp only [if_true]
      simp [eq_comm]
  · rw [if_neg hk, scriptsFrom_eq hc hd (by decide), Option.map_some, Option.some.injEq, Bool.eq_iff_iff, List.contains_iff_mem,
      mem_walk ht hnest hc hn, (known_iff h1 hc).1 hk]
    simp

theorem scxOk_mem {l : List (Nat × Row)} (h : scxOk l = true) {x : Nat × Row} (hx : x ∈ l) :
    Nat.beq (scxBits x.1) (rangesBits x.2.ranges) = true := by
  induction l with
  | nil => cases hx
  | cons y l ih =>
    rw [scxOk, Bool.and_eq_true] at h
    rcases List.mem_cons.1 hx with k | k
    · subst k; exact h.1
    · exact ih h.2 k

theorem is_scx {x : Nat × Row} (hx : x ∈ numbered scriptsNames scriptExtensions) (hn : x.1 ≠ scriptUnknown) :
    Is (fun c => (cpScriptExtensions c).map (·.contains x.1)) (inRanges x.2.ranges) :=
  Is.of_bits (fun _ hc => scx_bits hc hn) (scxOk_mem scx_rows hx)

/-! ### Blocks -/

/-- The block number of an entry of the block table and its index. -/
def blockOf (i v : Nat) : Nat :=
  if Nat.beq (Nat.land v 0xFF) 0 then 0 else i - (Nat.land v 0xFF - 1) + 1

/-- No subtraction of `cp_block` is negative. -/
def blocksOk : Nat → List Nat → Bool
  | _, [] => true
  | i, v :: l => Nat.ble (Nat.land v 0xFF - 1) i && blocksOk (i + 1) l

theorem blocksOk_get {i : Nat} {d : List Nat} (h : blocksOk i d = true) {j : Nat} (hj : j < d.length) :
    (d.getD j 0 &&& 0xFF) - 1 ≤ i + j := by
  induction d generalizing i j with
  | nil => simp at hj
  | cons v l ih =>
    rw [blocksOk, Bool.and_eq_true, Nat.ble_eq] at h
    cases j with
    | zero => exact h.1
    | succ j =>
      have := ih h.2 (j := j) (by simpa using hj)
      rw [List.getD_cons_succ]; omega

theorem cpBlock_some (c : Nat) : ∃ b, cpBlock c = some b ∧
    ((beforeUpper block c = some none ∧ b = 0) ∨
      ∃ i, beforeUpper block c = some (some i) ∧ b = blockOf i (block.getD i 0)) := by
  have hs : stepsOk block = true := by decide +kernel
  have hb : blocksOk 0 block = true := by decide +kernel
  unfold cpBlock
  generalize block = d at hs hb ⊢
  rcases beforeUpper_spec hs c with ⟨h, _⟩ | ⟨i, h, hi, _⟩
  · rw [h]; exact ⟨0, rfl, Or.inl ⟨rfl, rfl⟩⟩
  · rw [h]
    refine ⟨blockOf i (d.getD i 0), ?_, Or.inr ⟨i, rfl, rfl⟩⟩
    have hk := blocksOk_get hb (j := i) (by omega)
    simp only [rd_of_lt d (show i < d.length by omega)]
    generalize d.getD i 0 = v at hk ⊢
    have e2 : Nat.land v 0xFF = v &&& 0xFF := rfl
    rw [blockOf, e2]
    by_cases k : v &&& 0xFF = 0
    · simp [k]
    · rw [if_neg k, if_pos (by omega), if_neg]
      intro h; exact k (Nat.eq_of_beq_eq_true h)

theorem block_rows : rowsOk blockOf block (numbered blocksNames blocks) = true := by decide +kernel

theorem is_block {x : Nat × Row} (hx : x ∈ numbered blocksNames blocks) (hn : x.1 ≠ 0) :
    Is (fun c => (cpBlock c).map (· == x.1)) (inRanges x.2.ranges) := fun c hc => by
  have hs : stepsOk block = true := by decide +kernel
  obtain ⟨b, h1, h2⟩ := cpBlock_some c
  refine ⟨b == x.1, by dsimp only; rw [h1]; rfl, ?_⟩
  rw [← rowsOk_mem block_rows hx, seg_iff hs blockOf c x.1 hc, beq_iff_eq]
  rcases h2 with ⟨h, rfl⟩ | ⟨i, h, rfl⟩
  · rw [h]; simp [hn.symm]
  · rw [h]
    constructor
    · intro k; exact ⟨i, rfl, k⟩
    · rintro ⟨j, k, e⟩
      simp only [Option.some.injEq] at k
      subst k; exact e

/-! ### Ages -/

/-- The code points with an age up to `v` in the table. -/
def upTo (v : Nat) : Nat → Nat → Nat := fun _ x => if Nat.beq (Nat.land x 0xFF) 0 then 0 else if Nat.ble (Nat.land x 0xFF) v then 1 else 2

/-- The numbers of the versions with the union of the code points up to the version. -/
def agesOk : Nat → Nat → List Row → Bool
  | _, _, [] => true
  | v, acc, r :: l =>
    let acc := Nat.lor acc (rangesBits r.ranges)
    Nat.beq (rangesBits (rangesOf 1 (segs (upTo v) 0 age))) (without acc (rangesBits pNChar)) && agesOk (v + 1) acc l

theorem ages_ok : agesOk 1 0 ages = true := by decide +kernel

/-- The code points with an age in the table. -/
def aged (_ x : Nat) : Nat := if Nat.beq (Nat.land x 0xFF) 0 then 0 else 1

theorem aged_ok : partitions (rangesBits (rangesOf 1 (segs aged 0 age))) [gcCn] = true := by decide +kernel

theorem agesOk_take {l : List Row} {v acc : Nat} (h : agesOk v acc l = true) {k : Nat} (hk : k < l.length) {c : Nat} :
    (rangesBits (rangesOf 1 (segs (upTo (v + k)) 0 age))).testBit c = true ↔
      (acc.testBit c = true ∨ ∃ r ∈ l.take (k + 1), inRanges r.ranges c) ∧ ¬ inRanges pNChar c := by
  induction l generalizing v acc k with
  | nil => simp at hk
  | cons r l ih =>
    simp only [agesOk, Bool.and_eq_true] at h
    have e : Nat.lor acc (rangesBits r.ranges) = acc ||| rangesBits r.ranges := rfl
    cases k with
    | zero =>
      rw [Nat.add_zero, Nat.eq_of_beq_eq_true h.1, testBit_without, Bool.and_eq_true, Bool.not_eq_true', Bool.eq_false_iff, Ne,
        testBit_rangesBits, e, Nat.testBit_or, Bool.or_eq_true, testBit_rangesBits]
      simp
    | succ k =>
      have := ih h.2 (k := k) (by simpa using hk)
      rw [show v + (k + 1) = v + 1 + k by omega, this, e, Nat.testBit_or, Bool.or_eq_true, testBit_rangesBits]
      simp [or_assoc]

theorem cpAge_some (c : Nat) : ∃ a, cpAge c = some a ∧ a = (runAt 0 age c).getD 0 :=
  ⟨_, compactValue_eq (by decide +kernel) c 0, rfl⟩

/-- The code points of a version in front of the `k`-th one or of it, and those that are unassigned. -/
theorem is_age {k : Nat} (hk : k < ages.length) :
    Is (fun c => (cpAge c).map fun a => decide (a ≤ k + 1))
      (fun c => inRanges gcCn c ∨ ∃ r ∈ ages.take (k + 1), inRanges r.ranges c) := fun c hc => by
  have hs : stepsOk age = true := by decide +kernel
  have h2 := agesOk_take ages_ok hk (c := c)
  have h3 := aged_ok
  have hN : ∀ {c}, inRanges pNChar c → inRanges gcCn c := fun h => subset_of_bits (by decide +kernel) h
  refine ⟨_, by dsimp only; rw [cpAge, compactValue_eq hs]; rfl, ?_⟩
  rw [testBit_rangesBits, seg_iff hs _ c 1 hc] at h2
  simp only [Nat.zero_testBit, Bool.false_eq_true, false_or] at h2
  have h4 : (∃ i, beforeUpper age c = some (some i) ∧ aged i (age.getD i 0) = 1) ↔ ¬ inRanges gcCn c := by
    rw [← seg_iff hs aged c 1 hc, ← testBit_rangesBits]
    constructor
    · intro h; exact partitions_acc h3 h (List.mem_singleton.2 rfl)
    · intro h
      rcases partitions_cover h3 hc with k | ⟨r, hr, hk⟩
      · exact k
      · rw [List.mem_singleton] at hr; subst hr; exact (h hk).elim
  rw [decide_eq_true_eq]
  generalize age = d at hs h2 h4 ⊢
  rcases beforeUpper_spec hs c with ⟨hb, h⟩ | ⟨i, hb, hi, _, _, h⟩
  · rw [hb] at h4
    simp only [Option.some.injEq, reduceCtorEq, false_and, exists_false, false_iff, not_not] at h4
    rw [h]
    simp [h4]
  · rw [hb] at h2 h4
    rw [h]
    simp only [Option.some.injEq, exists_eq_left'] at h2 h4
    rw [Option.getD_some]
    generalize d.getD i 0 = x at h2 h4 ⊢
    have e2 : Nat.land x 0xFF = x &&& 0xFF := rfl
    simp only [upTo, aged, e2] at h2 h4
    generalize x &&& 0xFF = y at h2 h4 ⊢
    by_cases hy : y = 0
    · subst hy
      have hb : Nat.beq 0 0 = true := rfl
      simp only [hb, if_true, Nat.zero_ne_one, false_iff, not_not] at h4
      simp [h4]
    · have hb : Nat.beq y 0 = false := by
        rw [Bool.eq_false_iff]; intro h; exact hy (Nat.eq_of_beq_eq_true h)
      simp only [hb, Bool.false_eq_true, if_false, true_iff] at h4 h2
      have hle : (if Nat.ble y (1 + k) = true then 1 else 2) = 1 ↔ y ≤ k + 1 := by
        by_cases hy2 : y ≤ k + 1
        · rw [if_pos (Nat.ble_eq ▸ (show y ≤ 1 + k by omega))]; simp [hy2]
        · rw [if_neg (fun h => hy2 (by rw [Nat.ble_eq] at h; omega))]; simp [hy2]
      rw [hle] at h2
      rw [h2]
      constructor
      · exact fun h => Or.inr h.1
      · rintro (h | h)
        · exact (h4 h).elim
        · exact ⟨h, fun k => h4 (hN k)⟩

end Ctre.Ucd
