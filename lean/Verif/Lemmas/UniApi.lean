import Verif.Lemmas.UniScx
import Verif.Spec.UcdApi
/-
The look-up functions of the Unicode interface.
-/
set_option maxRecDepth 100000
namespace Ctre.Ucd
open Unicode14

/-! ### Categories -/

/-- The tables of a list are disjoint from each other and from `acc`. -/
def apartTables : Nat → List Table → Bool
  | _, [] => true
  | acc, t :: l => Nat.beq (Nat.land acc (tableBits t)) 0 && apartTables (Nat.lor acc (tableBits t)) l

theorem apartTables_acc {acc : Nat} {l : List Table} (h : apartTables acc l = true) {t : Table} (ht : t ∈ l) {c : Nat}
    (hb : (tableBits t).testBit c = true) : acc.testBit c = false := by
  induction l generalizing acc with
  | nil => cases ht
  | cons s l ih =>
    rw [apartTables, Bool.and_eq_true] at h
    rcases List.mem_cons.1 ht with k | k
    · subst k
      have e : acc &&& tableBits t = 0 := Nat.eq_of_beq_eq_true h.1
      have e2 := congrArg (Nat.testBit · c) e
      simpa [Nat.testBit_and, hb] using e2
    · have := ih h.2 k
      have e : Nat.lor acc (tableBits s) = acc ||| tableBits s := rfl
      rw [e, Nat.testBit_or, Bool.or_eq_false_iff] at this
      exact this.1

theorem firstCategory_apart {acc : Nat} {l : List (Table × Cat)} (hok : l.all (fun x => x.1.ok) = true)
    (h : apartTables acc (l.map (·.1)) = true) {t : Table} {k : Cat} (hm : (t, k) ∈ l) {c : Nat} (hc : c < 0x110000)
    (hb : (tableBits t).testBit c = true) : firstCategory l c = some k := by
  induction l generalizing acc with
  | nil => cases hm
  | cons x l ih =>
    obtain ⟨t0, k0⟩ := x
    rw [List.all_cons, Bool.and_eq_true] at hok
    rw [List.map_cons, apartTables, Bool.and_eq_true] at h
    rw [firstCategory, bits_table hok.1 c hc]
    rcases List.mem_cons.1 hm with e | e
    · injection e with e1 e2
      subst e1; subst e2
      rw [hb]
    · have h2 := apartTables_acc h.2 (List.mem_map_of_mem (f := (·.1)) e) hb
      have e3 : Nat.lor acc (tableBits t0) = acc ||| tableBits t0 := rfl
      rw [e3, Nat.testBit_or, Bool.or_eq_false_iff] at h2
      rw [h2.2]
      exact ih hok.2 h.2 e

theorem firstCategory_found {l : List (Table × Cat)} {c : Nat} {k : Cat} (h : firstCategory l c = some k) (hk : k ≠ .cn) :
    ∃ t, (t, k) ∈ l ∧ t.lookup c = some true := by
  induction l with
  | nil => rw [firstCategory, Option.some.injEq] at h; exact (hk h.symm).elim
  | cons x l ih =>
    obtain ⟨t0, k0⟩ := x
    rw [firstCategory] at h
    split at h
    · cases h
    · next e => injection h with h; subst h; exact ⟨t0, by simp, e⟩
    · obtain ⟨t, h1, h2⟩ := ih h
      exact ⟨t, by simp [h1], h2⟩

theorem chain_apart : apartTables 0 (categoryChain.map (·.1)) = true := by decide +kernel
theorem chain_ok : categoryChain.all (fun x => x.1.ok) = true := by decide +kernel
theorem chain_nodup : (categoryChain.map (·.2)).Nodup := by decide

theorem chain_unique {l : List (Table × Cat)} (h : (l.map (·.2)).Nodup) {t s : Table} {k : Cat} (ht : (t, k) ∈ l) (hs : (s, k) ∈ l) :
    t = s := by
  induction l with
  | nil => cases ht
  | cons x l ih =>
    rw [List.map_cons, List.nodup_cons] at h
    rcases List.mem_cons.1 ht with a | a <;> rcases List.mem_cons.1 hs with b | b
    · rw [← a] at b; injection b with b1; exact b1.symm
    · exact (h.1 (by rw [← a]; exact List.mem_map_of_mem (f := (·.2)) b)).elim
    · exact (h.1 (by rw [← b]; exact List.mem_map_of_mem (f := (·.2)) a)).elim
    · exact ih h.2 a b

/-- `cp_category` gives a category exactly where its table has the code point. -/
theorem category_iff {t : Table} {k : Cat} (hm : (t, k) ∈ categoryChain) (hk : k ≠ .cn) {r : List (Nat × Nat)}
    (h : Is t.lookup (inRanges r)) {c : Nat} (hc : c < 0x110000) : cpCategory c = some k ↔ inRanges r c := by
  obtain ⟨b, h1, h2⟩ := h c hc
  have hb := bits_table (List.all_eq_true.1 chain_ok _ hm) c hc
  rw [cpCategory, if_neg (by omega), getCategory]
  constructor
  · intro e
    obtain ⟨s, hs, hl⟩ := firstCategory_found e hk
    obtain rfl := chain_unique chain_nodup hm hs
    rw [h1, Option.some.injEq] at hl
    exact h2.1 hl
  · intro e
    refine firstCategory_apart chain_ok chain_apart hm hc ?_
    rw [hb, Option.some.injEq] at h1
    rw [h1]; exact h2.2 e

theorem category_cn {c : Nat} (hc : c < 0x110000) : cpCategory c = some .cn ↔ inRanges (gcCn ++ pdMissed) c := by
  obtain ⟨b, h1, h2⟩ := is_cn c hc
  rw [← h2]
  rw [cpCategoryIs] at h1
  cases e : cpCategory c with
  | none => rw [e] at h1; cases h1
  | some k =>
    rw [e] at h1
    simp only [Option.map_some, Option.some.injEq] at h1
    rw [← h1]; simp

/-! ### Scripts, blocks and ages -/

theorem script_cover : partitions (rangesBits (rangesOf scriptUnknown (segs low 0 script_data_0))) (scripts.map Row.ranges) = true := by
  decide +kernel

theorem value_of_seg {d : List Nat} (hs : stepsOk d = true) {c : Nat} (hc : c < 0x110000) {dflt s : Nat}
    (h : inRanges (rangesOf s (segs low 0 d)) c) : compactValue d c dflt = some s := by
  obtain ⟨i, hb, e⟩ := (seg_iff hs low c s hc).1 h
  rcases beforeUpper_spec hs c with ⟨hb', _⟩ | ⟨j, hb', hj, _⟩
  · rw [hb] at hb'; cases hb'
  · rw [hb] at hb'
    simp only [Option.some.injEq] at hb'
    subst hb'
    rw [compactValue, hb]
    simp only []
    rw [rd_of_lt _ (by omega)]
    simp only [Option.map_some, Option.some.injEq]
    exact e

theorem cpScript_eq {c : Nat} (hc : c < 0x110000) : cpScript c = compactValue script_data_0 c scriptUnknown := by
  rw [cpScript, cpScriptN, if_neg (by omega)]

theorem script_iff {x : Nat × Row} (hx : x ∈ numbered scriptsNames scripts) (hn : x.1 ≠ scriptUnknown) {c : Nat}
    (hc : c < 0x110000) : cpScript c = some x.1 ↔ inRanges x.2.ranges c := by
  rw [cpScript_eq hc, compactValue_iff (by decide +kernel) hc hn, rowsOk_mem script_rows hx]

theorem script_unknown {c : Nat} (hc : c < 0x110000) :
    cpScript c = some scriptUnknown ↔ ∀ row ∈ scripts, ¬ inRanges row.ranges c := by
  have hs : stepsOk script_data_0 = true := by decide +kernel
  constructor
  · intro h row hr hi
    have hm : (numberOfRow scriptsNames row, row) ∈ numbered scriptsNames scripts := List.mem_map_of_mem hr
    have hk : (numbered scriptsNames scripts).all (fun x => !Nat.beq x.1 scriptUnknown) = true := by decide +kernel
    have hn : numberOfRow scriptsNames row ≠ scriptUnknown := by
      have := List.all_eq_true.1 hk _ hm
      intro e
      simp only [e, Bool.not_eq_true', Bool.eq_false_iff] at this
      exact this (Nat.beq_refl _)
    have h2 := (script_iff hm hn hc).2 hi
    rw [h, Option.some.injEq] at h2
    exact hn h2.symm
  · intro h
    rcases partitions_cover script_cover hc with k | ⟨r, hr, k⟩
    · rw [testBit_rangesBits] at k
      rw [cpScript_eq hc]
      exact value_of_seg hs hc k
    · obtain ⟨row, hm, rfl⟩ := List.mem_map.1 hr
      exact (h row hm k).elim

theorem block_cover : partitions (rangesBits (rangesOf 0 (segs blockOf 0 block))) (blocks.map Row.ranges) = true := by
  decide +kernel

theorem block_iff {x : Nat × Row} (hx : x ∈ numbered blocksNames blocks) (hn : x.1 ≠ 0) {c : Nat} (hc : c < 0x110000) :
    cpBlock c = some x.1 ↔ inRanges x.2.ranges c := by
  obtain ⟨b, h1, h2⟩ := is_block hx hn c hc
  rw [← h2]
  dsimp only at h1
  cases e : cpBlock c with
  | none => rw [e] at h1; cases h1
  | some k =>
    rw [e] at h1
    simp only [Option.map_some, Option.some.injEq] at h1
    rw [← h1]; simp

theorem no_block {c : Nat} (hc : c < 0x110000) : cpBlock c = some 0 ↔ ∀ row ∈ blocks, ¬ inRanges row.ranges c := by
  have hs : stepsOk block = true := by decide +kernel
  constructor
  · intro h row hr hi
    have hm : (numberOfRow blocksNames row, row) ∈ numbered blocksNames blocks := List.mem_map_of_mem hr
    have hk : (numbered blocksNames blocks).all (fun x => !Nat.beq x.1 0) = true := by decide +kernel
    have hn : numberOfRow blocksNames row ≠ 0 := by
      have := List.all_eq_true.1 hk _ hm
      intro e
      simp only [e, Bool.not_eq_true', Bool.eq_false_iff] at this
      exact this (Nat.beq_refl _)
    have h2 := (block_iff hm hn hc).2 hi
    rw [h, Option.some.injEq] at h2
    exact hn h2.symm
  · intro h
    obtain ⟨b, h1, h2⟩ := cpBlock_some c
    rw [h1]
    rcases h2 with ⟨_, rfl⟩ | ⟨i, hb, rfl⟩
    · rfl
    · rcases partitions_cover block_cover hc with k | ⟨r, hr, k⟩
      · rw [testBit_rangesBits] at k
        obtain ⟨j, hj, e⟩ := (seg_iff hs blockOf c 0 hc).1 k
        rw [hb] at hj
        simp only [Option.some.injEq] at hj
        subst hj
        rw [e]
      · obtain ⟨row, hm, rfl⟩ := List.mem_map.1 hr
        exact (h row hm k).elim

/-- Every version has the number of its place. -/
def agesExact : Nat → List Row → Bool
  | _, [] => true
  | v, r :: l =>
    Nat.beq (rangesBits (rangesOf v (segs low 0 age))) (without (rangesBits r.ranges) (rangesBits pNChar)) && agesExact (v + 1) l

theorem ages_exact : agesExact 1 ages = true := by decide +kernel

theorem agesExact_get {v : Nat} {l : List Row} (h : agesExact v l = true) {k : Nat} {r : Row} (hk : l[k]? = some r) (c : Nat) :
    inRanges (rangesOf (v + k) (segs low 0 age)) c ↔ inRanges r.ranges c ∧ ¬ inRanges pNChar c := by
  induction l generalizing v k with
  | nil => simp at hk
  | cons x l ih =>
    rw [agesExact, Bool.and_eq_true] at h
    cases k with
    | zero =>
      simp only [List.getElem?_cons_zero, Option.some.injEq] at hk
      subst hk
      rw [Nat.add_zero, ← testBit_rangesBits, Nat.eq_of_beq_eq_true h.1, testBit_without, Bool.and_eq_true, Bool.not_eq_true',
        Bool.eq_false_iff, Ne, testBit_rangesBits, testBit_rangesBits]
    | succ k =>
      rw [List.getElem?_cons_succ] at hk
      rw [show v + (k + 1) = v + 1 + k by omega]
      exact ih h.2 hk

theorem age_iff {k : Nat} {r : Row} (hk : ages[k]? = some r) {c : Nat} (hc : c < 0x110000) :
    cpAge c = some (k + 1) ↔ inRanges r.ranges c ∧ ¬ inRanges pNChar c := by
  rw [cpAge, compactValue_iff (by decide +kernel) hc (by omega), ← agesExact_get ages_exact hk, Nat.add_comm]

theorem age_none {c : Nat} (hc : c < 0x110000) : cpAge c = some 0 ↔ inRanges gcCn c := by
  have hs : stepsOk age = true := by decide +kernel
  obtain ⟨a, h1, h2⟩ := cpAge_some c
  rw [h1, Option.some.injEq]
  have h4 : (∃ i, beforeUpper age c = some (some i) ∧ aged i (age.getD i 0) = 1) ↔ ¬ inRanges gcCn c := by
    rw [← seg_iff hs aged c 1 hc, ← testBit_rangesBits]
    constructor
    · intro h; exact partitions_acc aged_ok h (List.mem_singleton.2 rfl)
    · intro h
      rcases partitions_cover aged_ok hc with k | ⟨r, hr, hk⟩
      · exact k
      · rw [List.mem_singleton] at hr; subst hr; exact (h hk).elim
  rw [h2]
  generalize age = d at hs h4 ⊢
  rcases beforeUpper_spec hs c with ⟨hb, h⟩ | ⟨i, hb, hi, _, _, h⟩
  · rw [hb] at h4
    simp only [Option.some.injEq, reduceCtorEq, false_and, exists_false, false_iff, not_not] at h4
    rw [h]; simp [h4]
  · rw [hb] at h4
    rw [h]
    simp only [Option.some.injEq, exists_eq_left'] at h4
    rw [Option.getD_some]
    generalize d.getD i 0 = x at h4 ⊢
    have e2 : Nat.land x 0xFF = x &&& 0xFF := rfl
    simp only [aged, e2] at h4
    generalize x &&& 0xFF = y at h4 ⊢
    by_cases hy : y = 0
    · subst hy
      have hb : Nat.beq 0 0 = true := rfl
      simp only [hb, if_true, Nat.zero_ne_one, false_iff, not_not] at h4
      simp [h4]
    · have hb : Nat.beq y 0 = false := by
        rw [Bool.eq_false_iff]; intro h; exact hy (Nat.eq_of_beq_eq_true h)
      simp only [hb, Bool.false_eq_true, if_false, true_iff] at h4
      simp [h4, hy]

/-! ### Script extensions -/

/-- The code points with script `s` in the tables of a list are disjoint from each other and from `acc`. -/
def apartLayers (s : Nat) : Nat → List (List Nat) → Bool
  | _, [] => true
  | acc, d :: l =>
    Nat.beq (Nat.land acc (rangesBits (rangesOf s (segs low 0 d)))) 0 &&
      apartLayers s (Nat.lor acc (rangesBits (rangesOf s (segs low 0 d)))) l

theorem layers_apart : ((List.range 256).all fun s => Nat.beq s scriptUnknown || apartLayers s 0 scriptTables.tail) = true := by decide +kernel

theorem apartLayers_acc {s acc : Nat} {l : List (List Nat)} (h : apartLayers s acc l = true) {d : List Nat} (hd : d ∈ l) {c : Nat}
    (hb : (rangesBits (rangesOf s (segs low 0 d))).testBit c = true) : acc.testBit c = false := by
  induction l generalizing acc with
  | nil => cases hd
  | cons e l ih =>
    rw [apartLayers, Bool.and_eq_true] at h
    rcases List.mem_cons.1 hd with k | k
    · subst k
      have e : acc &&& rangesBits (rangesOf s (segs low 0 d)) = 0 := Nat.eq_of_beq_eq_true h.1
      have e2 := congrArg (Nat.testBit · c) e
      simpa [Nat.testBit_and, hb] using e2
    · have := ih h.2 k
      have e : ∀ x, Nat.lor acc x = acc ||| x := fun _ => rfl
      rw [e, Nat.testBit_or, Bool.or_eq_false_iff] at this
      exact this.1

theorem walk_mem {c s t : Nat} {l : List (List Nat)} (h : t ∈ walk c s l) : t ≠ scriptUnknown ∧ (t = s ∨ ∃ d ∈ l, val d c = t) := by
  induction l generalizing s with
  | nil =>
    rw [walk] at h
    split at h
    · cases h
    · next hs => rw [List.mem_singleton] at h; subst h; exact ⟨hs, Or.inl rfl⟩
  | cons d l ih =>
    rw [walk] at h
    split at h
    · cases h
    · next hs =>
      rcases List.mem_cons.1 h with k | k
      · subst k; exact ⟨hs, Or.inl rfl⟩
      · obtain ⟨h1, h2⟩ := ih k
        refine ⟨h1, Or.inr ?_⟩
        rcases h2 with rfl | ⟨e, he, rfl⟩
        · exact ⟨d, by simp, rfl⟩
        · exact ⟨e, by simp [he], rfl⟩

theorem walk_nodup {c : Nat} (hc : c < 0x110000) {d : List Nat} {l : List (List Nat)} (hs : (d :: l).all stepsOk = true)
    {acc : Nat → Nat} (ha : ∀ s, s < 256 → s ≠ scriptUnknown → apartLayers s (acc s) (d :: l) = true) : (walk c (val d c) l).Nodup := by
  have hv : ∀ {d : List Nat}, stepsOk d = true → val d c < 256 := by
    intro d hd
    have e : ∀ v : Nat, v &&& 0xFF < 256 := fun v => Nat.lt_of_le_of_lt Nat.and_le_right (by decide)
    rw [val]
    rcases beforeUpper_spec hd c with ⟨_, h⟩ | ⟨i, _, _, _, _, h⟩
    · rw [h]; decide
    · rw [h]; exact e _
  induction l generalizing d acc with
  | nil => rw [walk]; split <;> simp
  | cons e l ih =>
    rw [List.all_cons, Bool.and_eq_true] at hs
    rw [walk]
    split
    · simp
    · next hk =>
      have ha2 : ∀ s, s < 256 → s ≠ scriptUnknown → apartLayers s (Nat.lor (acc s) (rangesBits (rangesOf s (segs low 0 d)))) (e :: l) = true := by
        intro s h hn
        have := ha s h hn
        rw [apartLayers, Bool.and_eq_true] at this
        exact this.2
      refine List.nodup_cons.2 ⟨fun hm => ?_, ih hs.2 ha2⟩
      obtain ⟨_, h2⟩ := walk_mem hm
      have h3 : ∃ x ∈ e :: l, val x c = val d c := by
        rcases h2 with h2 | ⟨x, hx, h2⟩
        · exact ⟨e, by simp, h2.symm⟩
        · exact ⟨x, by simp [hx], h2⟩
      obtain ⟨x, hx, h3⟩ := h3
      have hb := (val_iff (List.all_eq_true.1 hs.2 x hx) hc hk).1 h3
      have := apartLayers_acc (ha2 _ (hv hs.1) hk) hx hb
      have e : ∀ y, Nat.lor (acc (val d c)) y = acc (val d c) ||| y := fun _ => rfl
      rw [e, Nat.testBit_or, Bool.or_eq_false_iff, (val_iff hs.1 hc hk).1 rfl] at this
      cases this.2

/-- What is visited for a code point. -/
theorem extensions_walk {c : Nat} (hc : c < 0x110000) : cpScriptExtensions c = some
    (if val script_data_1 c = scriptUnknown then walk c (val script_data_0 c) [] else walk c (val script_data_1 c) (scriptTables.drop 2)) := by
  have hok := List.all_eq_true.1 tables_ok
  have h0 : stepsOk script_data_0 = true := hok _ (by simp [scriptTables])
  have h1 : stepsOk script_data_1 = true := hok _ (by simp [scriptTables])
  have h2 : stepsOk script_data_2 = true := hok _ (by simp [scriptTables])
  have hg1 : getCpScript c 1 = some (val script_data_1 c) := cpScriptN_eq h1 hc
  have hg0 : cpScript c = some (val script_data_0 c) := cpScriptN_eq h0 hc
  have hd : scriptTables.drop (1 + 1) = script_data_2 :: scriptTables.drop 3 := rfl
  have htl : scriptTables.tail = script_data_1 :: (script_data_2 :: scriptTables.drop 3) := rfl
  have hnest := tables_nested
  rw [htl] at hnest
  rw [cpScriptExtensions, hg1]
  simp only []
  by_cases hk : val script_data_1 c = scriptUnknown
  · rw [if_pos hk, if_pos hk, hg0]
    simp only []
    rw [scriptsFrom_eq hc hd (by decide)]
    have hkb : (knownBits script_data_1).testBit c = false := by
      rw [Bool.eq_false_iff, Ne, ← known_iff h1 hc, hk]; simp
    have hk2 : val script_data_2 c = scriptUnknown := by
      have := nested_step hnest hkb
      by_contra k
      rw [(known_iff h2 hc).1 k] at this
      simp at this
    congr 1
    rw [walk, walk]
    by_cases k0 : val script_data_0 c = scriptUnknown
    · rw [if_pos k0, if_pos k0]
    · rw [if_neg k0, if_neg k0, hk2]
      rw [walk.eq_def]
      simp
  · rw [if_neg hk, if_neg hk, scriptsFrom_eq hc hd (by decide)]
    rfl

theorem extensions_nodup {c : Nat} (hc : c < 0x110000) : ∃ l, cpScriptExtensions c = some l ∧ l.Nodup ∧ ∀ s ∈ l, s ≠ scriptUnknown := by
  refine ⟨_, extensions_walk hc, ?_, ?_⟩
  · split
    · rw [walk]; split <;> simp
    · have ht : scriptTables.tail = script_data_1 :: scriptTables.drop 2 := rfl
      have h1 := layers_apart
      have h2 : scriptTables.tail.all stepsOk = true := by
        have := tables_ok
        rw [scriptTables, List.all_cons, Bool.and_eq_true] at this
        exact this.2
      rw [ht] at h1 h2
      refine walk_nodup hc h2 (acc := fun _ => 0) fun s hs hn => ?_
      have := List.all_eq_true.1 h1 s (List.mem_range.2 hs)
      rw [Bool.or_eq_true] at this
      exact this.resolve_left fun e => hn (Nat.eq_of_beq_eq_true e)
  · intro s hs
    split at hs <;> exact (walk_mem hs).1

theorem visits_from {c n script idx : Nat} {l : List Nat} (h : scriptsFrom c n script idx = some l) : Visits ⟨c, script, idx⟩ l := by
  induction n generalizing script idx l with
  | zero => cases h
  | succ n ih =>
    rw [scriptsFrom] at h
    split at h
    · next e =>
      injection h with h; subst h
      exact .stop (by rw [ScxIter.atEnd, e]; exact beq_self_eq_true _)
    · next e =>
      split at h
      · cases h
      · next s hs =>
        cases hl : scriptsFrom c n s (idx + 1) with
        | none => rw [hl] at h; cases h
        | some l' =>
          rw [hl] at h
          simp only [Option.map_some, Option.some.injEq] at h
          subst h
          refine .step (v := ⟨c, script, idx⟩) (next := ⟨c, s, idx + 1⟩) ?_ ?_ (ih hl)
          · rw [ScxIter.atEnd]; exact beq_false_of_ne e
          · simp only [ScxIter.preIncrement, ScxIter.next, hs, Option.map_some]

theorem extensions_of {c : Nat} {l : List Nat} (h : cpScriptExtensions c = some l) : Extensions c l := by
  rw [cpScriptExtensions] at h
  split at h
  · cases h
  · next s hs =>
    split at h
    · next e =>
      split at h
      · cases h
      · next t ht =>
        refine ⟨⟨c, t, 1⟩, ?_, visits_from h⟩
        simp only [ScxIter.begin, hs, e, ht, if_true, Option.map_some]
    · next e =>
      refine ⟨⟨c, s, 1⟩, ?_, visits_from h⟩
      simp only [ScxIter.begin, hs]
      rw [if_neg e]

theorem visits_unique {it : ScxIter} {a b : List Nat} (ha : Visits it a) (hb : Visits it b) : a = b := by
  induction ha generalizing b with
  | stop h =>
    cases hb with
    | stop _ => rfl
    | step h' _ _ => rw [h] at h'; cases h'
  | step h hi hl ih =>
    cases hb with
    | stop h' => rw [h] at h'; cases h'
    | step _ hi' hl' =>
      rw [hi] at hi'
      simp only [Option.some.injEq, Prod.mk.injEq] at hi'
      obtain ⟨_, rfl⟩ := hi'
      rw [ih hl']

theorem extensions_unique {c : Nat} {a b : List Nat} (ha : Extensions c a) (hb : Extensions c b) : a = b := by
  obtain ⟨i, h1, h2⟩ := ha
  obtain ⟨j, h3, h4⟩ := hb
  rw [h1, Option.some.injEq] at h3
  subst h3
  exact visits_unique h2 h4

/-- Every script number in the tables is that of a row. -/
def rowNumbers (l : List (Nat × Row)) (d : List Nat) : Bool :=
  (segs low 0 d).all fun s => Nat.beq s.2.2 scriptUnknown || l.any fun x => Nat.beq x.1 s.2.2

theorem tables_rows : scriptTables.all (rowNumbers (numbered scriptsNames scriptExtensions)) = true := by decide +kernel

theorem val_row {d : List Nat} (hs : stepsOk d = true) {l : List (Nat × Row)} (h : rowNumbers l d = true) {c : Nat}
    (hv : val d c ≠ scriptUnknown) : ∃ x ∈ l, x.1 = val d c := by
  rw [val] at hv ⊢
  rcases beforeUpper_spec hs c with ⟨_, e⟩ | ⟨i, _, hi, _, _, e⟩
  · rw [e] at hv; exact (hv rfl).elim
  · rw [e, Option.getD_some] at hv ⊢
    have hm : (key (d.getD i 0), key (d.getD (i + 1) 0), low (0 + i) (d.getD i 0)) ∈ segs low 0 d := mem_segs.2 ⟨i, hi, rfl⟩
    have h2 := List.all_eq_true.1 h _ hm
    rw [Bool.or_eq_true, List.any_eq_true] at h2
    rcases h2 with h2 | ⟨x, hx, h2⟩
    · exact (hv (Nat.eq_of_beq_eq_true h2)).elim
    · exact ⟨x, hx, Nat.eq_of_beq_eq_true h2⟩

theorem extension_row {c : Nat} (hc : c < 0x110000) {l : List Nat} (h : cpScriptExtensions c = some l) {s : Nat} (hs : s ∈ l) :
    ∃ x ∈ numbered scriptsNames scriptExtensions, x.1 = s := by
  rw [extensions_walk hc, Option.some.injEq] at h
  subst h
  have key : ∀ d ∈ scriptTables, val d c = s → s ≠ scriptUnknown → ∃ x ∈ numbered scriptsNames scriptExtensions, x.1 = s := by
    rintro d hd rfl hn
    exact val_row (List.all_eq_true.1 tables_ok d hd) (List.all_eq_true.1 tables_rows d hd) hn
  have h0 : script_data_0 ∈ scriptTables := by simp [scriptTables]
  have h1 : script_data_1 ∈ scriptTables := by simp [scriptTables]
  split at hs
  · obtain ⟨hn, hm⟩ := walk_mem hs
    rcases hm with hm | ⟨d, hd, hm⟩
    · exact key _ h0 hm.symm hn
    · cases hd
  · obtain ⟨hn, hm⟩ := walk_mem hs
    rcases hm with hm | ⟨d, hd, hm⟩
    · exact key _ h1 hm.symm hn
    · exact key _ (List.mem_of_mem_drop hd) hm hn

/-! ### Values that are no code points -/

theorem runAt_beyond {cur : Nat} {d : List Nat} {c : Nat} (hc : 0x110000 ≤ c)
    (h : d.dropLast.all (fun v => Nat.ble (key v) 0x110000) = true) (hd : d ≠ []) :
    runAt cur d c = none ∨ runAt cur d c = some ((d.dropLast.map fun v => v &&& 0xFF).getLastD cur) := by
  induction d generalizing cur with
  | nil => exact (hd rfl).elim
  | cons v l ih =>
    cases l with
    | nil =>
      simp only [runAt]
      by_cases hk : c < key v
      · right; rw [if_pos hk]; rfl
      · left; rw [if_neg hk]
    | cons w l =>
      rw [List.dropLast_cons_cons, List.all_cons, Bool.and_eq_true, Nat.ble_eq] at h
      rw [runAt, if_neg (by omega)]
      rcases ih (cur := v &&& 0xFF) h.2 (by simp) with k | k
      · exact Or.inl k
      · right
        rw [k, List.dropLast_cons_cons, List.map_cons, List.getLastD_cons]

theorem age_beyond {c : Nat} (hc : 0x110000 ≤ c) : cpAge c = some 0 := by
  rw [cpAge, compactValue_eq (by decide +kernel)]
  rcases runAt_beyond (cur := 0) (d := age) hc (by decide +kernel) (by decide) with h | h
  · rw [h]; rfl
  · rw [h, show ((age.dropLast.map fun v => v &&& 0xFF).getLastD 0) = 0 by decide +kernel]; rfl

theorem extensions_beyond {c : Nat} (hc : 0x110000 ≤ c) : cpScriptExtensions c = some [] := by
  have h1 : getCpScript c 1 = some scriptUnknown := by
    show cpScriptN script_data_1 c = _
    rw [cpScriptN, if_pos (by omega)]
  have h0 : cpScript c = some scriptUnknown := by rw [cpScript, cpScriptN, if_pos (by omega)]
  rw [cpScriptExtensions, h1]
  simp only [if_true, h0]
  rw [scriptsFrom, if_pos rfl]

end Ctre.Ucd
