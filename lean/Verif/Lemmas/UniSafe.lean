import Verif.Lemmas.UniNames
/-
No test of a property is undefined, for any 32-bit value.
-/
set_option maxRecDepth 100000
namespace Ctre.Ucd

theorem table_some {t : Table} (h : t.ok = true) (c : Nat) : ∃ b, t.lookup c = some b := by
  cases t with
  | ranges d => exact ⟨_, lookup_ranges h c⟩
  | flat t => exact ⟨_, lookup_flat t c⟩
  | trie t => exact lookup_trie_some h c

theorem or_some {a b : Option Bool} (ha : ∃ x, a = some x) (hb : ∃ x, b = some x) : ∃ x, orB a b = some x := by
  obtain ⟨x, rfl⟩ := ha
  obtain ⟨y, rfl⟩ := hb
  cases x <;> exact ⟨_, rfl⟩

theorem andNot_some {a b : Option Bool} (ha : ∃ x, a = some x) (hb : ∃ x, b = some x) : ∃ x, andNot a b = some x := by
  obtain ⟨x, rfl⟩ := ha
  obtain ⟨y, rfl⟩ := hb
  cases x <;> exact ⟨_, rfl⟩

theorem map_some' {α β : Type} {a : Option α} {f : α → β} (ha : ∃ x, a = some x) : ∃ x, a.map f = some x := by
  obtain ⟨x, rfl⟩ := ha
  exact ⟨_, rfl⟩

theorem any_some {l : List Table} (h : l.all Table.ok = true) (c : Nat) : ∃ b, anyOf l c = some b := by
  induction l with
  | nil => exact ⟨false, rfl⟩
  | cons t l ih =>
    rw [List.all_cons, Bool.and_eq_true] at h
    exact or_some (table_some h.1 c) (ih h.2)

theorem firstCategory_some' {l : List (Table × Cat)} (h : l.all (fun x => x.1.ok) = true) (c : Nat) :
    ∃ k, firstCategory l c = some k := by
  induction l with
  | nil => exact ⟨.cn, rfl⟩
  | cons x l ih =>
    obtain ⟨t, k⟩ := x
    rw [List.all_cons, Bool.and_eq_true] at h
    obtain ⟨b, hb⟩ := table_some h.1 c
    rw [firstCategory, hb]
    cases b
    · exact ih h.2
    · exact ⟨_, rfl⟩

theorem trie_some {t : BoolTrie} (h : t.ok = true) (c : Nat) : ∃ b, t.lookup c = some b := lookup_trie_some h c
theorem ranges_some {d : List Nat} (h : stepsOk d = true) (c : Nat) : ∃ b, rangeLookup d c = some b := ⟨_, lookup_ranges h c⟩
theorem flat_some (t : FlatArray) (c : Nat) : ∃ b, t.lookup c = some b := ⟨_, lookup_flat t c⟩

theorem category_some (k : Cat) (c : Nat) : ∃ b, cpCategoryIs k c = some b := by
  cases k
  case cn =>
    refine map_some' ?_
    rw [cpCategory]
    split
    · exact ⟨_, rfl⟩
    · exact firstCategory_some' (by decide +kernel) c
  all_goals first
    | exact trie_some (by decide +kernel) c
    | exact ranges_some (by decide +kernel) c
    | exact flat_some _ c
    | exact any_some (by decide +kernel) c

theorem property_some (p : Prp) (c : Nat) : ∃ b, cpPropertyIs p c = some b := by
  cases p
  case nchar => exact ⟨_, rfl⟩
  case ci => exact ⟨_, rfl⟩
  case cased =>
    exact or_some (any_some (by decide +kernel) c) (or_some (any_some (by decide +kernel) c) (ranges_some (by decide +kernel) c))
  case ids =>
    exact andNot_some (or_some (category_some .l c) (any_some (by decide +kernel) c)) (any_some (by decide +kernel) c)
  case idc =>
    exact andNot_some (or_some (category_some .l c) (any_some (by decide +kernel) c)) (any_some (by decide +kernel) c)
  case di =>
    obtain ⟨x, hx⟩ := any_some (l := [.flat prop_odi, .ranges cat_cf, .ranges prop_vs]) (by decide +kernel) c
    obtain ⟨y, hy⟩ := ranges_some (d := prop_wspace) (by decide +kernel) c
    obtain ⟨z, hz⟩ := flat_some prop_pcm c
    rw [cpPropertyIs, hx, hy, hz]
    cases x
    · exact ⟨_, rfl⟩
    · simp only []
      split
      · exact ⟨_, rfl⟩
      · split
        · exact ⟨_, rfl⟩
        · cases y <;> exact ⟨_, rfl⟩
  all_goals first
    | exact trie_some (by decide +kernel) c
    | exact ranges_some (by decide +kernel) c
    | exact flat_some _ c
    | exact any_some (by decide +kernel) c

theorem cpScriptN_some {d : List Nat} (h : stepsOk d = true) (c : Nat) : ∃ s, cpScriptN d c = some s := by
  rw [cpScriptN]
  split
  · exact ⟨_, rfl⟩
  · exact compactValue_some h c _

theorem getCpScript_some (c i : Nat) : ∃ s, getCpScript c i = some s := by
  rw [getCpScript]
  split
  · rename_i d hd
    exact cpScriptN_some (List.all_eq_true.1 tables_ok d (List.mem_of_getElem? hd)) c
  · exact ⟨_, rfl⟩

theorem cpScript_some (c : Nat) : ∃ s, cpScript c = some s :=
  cpScriptN_some (List.all_eq_true.1 tables_ok _ (by simp [scriptTables])) c

theorem scriptsFrom_some (c : Nat) : ∀ {n s idx : Nat}, 0 < n → 24 ≤ n + idx → (22 ≤ idx → s = scriptUnknown) →
    ∃ l, scriptsFrom c n s idx = some l
  | 0, _, _, h, _, _ => by omega
  | n + 1, s, idx, _, h, hs => by
    rw [scriptsFrom]
    split
    · exact ⟨_, rfl⟩
    · rename_i hk
      have hi : ¬ 22 ≤ idx := fun k => hk (hs k)
      obtain ⟨s', hs'⟩ := getCpScript_some c (idx + 1)
      simp only [hs']
      refine map_some' (scriptsFrom_some c (by omega) (by omega) fun k => ?_)
      have : scriptTables[idx + 1]? = none := List.getElem?_eq_none (by simp [scriptTables]; omega)
      rw [getCpScript, this] at hs'
      exact (Option.some.inj hs').symm

theorem extensions_some (c : Nat) : ∃ l, cpScriptExtensions c = some l := by
  obtain ⟨s, hs⟩ := getCpScript_some c 1
  obtain ⟨s', hs'⟩ := cpScript_some c
  rw [cpScriptExtensions, hs]
  simp only [hs']
  split
  · exact scriptsFrom_some c (by omega) (by omega) (by omega)
  · exact scriptsFrom_some c (by omega) (by omega) (by omega)

/-- Every enumerator has a test. -/
def Atom.known : Atom → Bool
  | .binary p => decide (p < binaryPropKinds.length)
  | _ => true

theorem test_some {a : Atom} (h : a.known = true) (c : Nat) : ∃ b, a.test c = some b := by
  cases a with
  | binary p =>
    rw [Atom.known, decide_eq_true_eq] at h
    have e : binaryPropKinds[p]? = some binaryPropKinds[p] := List.getElem?_eq_getElem h
    simp only [Atom.test, e]
    cases binaryPropKinds[p] with
    | prop p => exact property_some p c
    | cat k => exact category_some k c
    | script s => exact map_some' (cpScript_some c)
    | valid => exact ⟨_, rfl⟩
    | ascii => exact ⟨_, rfl⟩
    | assigned => exact trie_some (by decide +kernel) c
  | script s => exact map_some' (cpScript_some c)
  | scx s => exact map_some' (extensions_some c)
  | age v =>
    obtain ⟨a, ha, _⟩ := cpAge_some c
    exact map_some' ⟨a, ha⟩
  | block b =>
    obtain ⟨x, hx, _⟩ := cpBlock_some c
    exact map_some' ⟨x, hx⟩

theorem names_known : (binaryPropNames.all fun x => Nat.blt x.2 binaryPropKinds.length) = true := by decide +kernel

/-- What the parser finds has a test. -/
theorem find_known {name : List Nat} {value : Option (List Nat)} {p : Nat} (h : table.find name value = some p) :
    (Atom.ofCode p).known = true := by
  cases value with
  | none =>
    simp only [Parse.PropTable.find, table, binaryFind, Option.map_eq_some_iff] at h
    obtain ⟨q, h1, rfl⟩ := h
    rw [atom_code, Atom.known, decide_eq_true_eq]
    obtain ⟨x, hx, _, rfl⟩ := fromString_mem h1
    have := List.all_eq_true.1 names_known x hx
    rwa [Nat.blt_eq] at this
  | some w =>
    have hv : valuedFind name w = some p := h
    unfold valuedFind at hv
    split at hv <;> (try (split at hv <;> (try (split at hv)))) <;> simp only [reduceCtorEq, Option.some.injEq] at hv <;>
      subst hv <;> rw [atom_code] <;> rfl

end Ctre.Ucd
