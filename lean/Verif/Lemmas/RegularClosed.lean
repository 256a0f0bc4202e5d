import Mathlib.Computability.MyhillNerode
import Mathlib.Data.Set.Finite.Powerset
import Mathlib.Data.Finite.Prod
import Verif.Spec.TextLanguage
/-
Languages recognised by finite automata are closed under concatenation, powers and the Kleene star.  The alphabet may be infinite.
-/
namespace Ctre
open Language

variable {α : Type} {L M : Language α}

theorem mem_letters {p : α → Prop} {w : List α} : w ∈ letters p ↔ ∃ v, w = [v] ∧ p v := Iff.rfl
theorem mem_powers {S : Nat → Prop} {w : List α} : w ∈ powers L S ↔ ∃ k, S k ∧ w ∈ L ^ k := Iff.rfl

theorem isRegular_of_key {β : Type} {key : List α → β} {F : β → Language α} (hk : (Set.range key).Finite)
    (h : ∀ x, L.leftQuotient x = F (key x)) : L.IsRegular := by
  apply IsRegular.of_finite_range_leftQuotient
  refine (hk.image F).subset ?_
  rintro _ ⟨x, rfl⟩
  exact ⟨key x, ⟨x, rfl⟩, (h x).symm⟩

theorem isRegular_zero : (0 : Language α).IsRegular := by
  refine isRegular_of_key (key := fun _ => ()) (F := fun _ => 0) (Set.toFinite _) fun x => ?_
  ext y; simp [mem_leftQuotient, notMem_zero]

theorem isRegular_single (p : α → Prop) : (letters p).IsRegular := by
  classical
  refine isRegular_of_key (key := fun x => (decide (x = []), decide (∃ v, x = [v] ∧ p v)))
    (F := fun b => if b.1 then letters p else if b.2 then 1 else 0) (Set.toFinite _) fun x => ?_
  ext y
  rw [mem_leftQuotient, mem_letters]
  match x with
  | [] => simp [mem_letters]
  | [a] =>
    by_cases hp : p a
    · simp [hp, mem_one]
    · simp [hp, notMem_zero]
  | a :: b :: l => simp [notMem_zero]

theorem isRegular_one : (1 : Language α).IsRegular := by
  classical
  refine isRegular_of_key (key := fun x => decide (x = [])) (F := fun b => if b then 1 else 0) (Set.toFinite _) fun x => ?_
  ext y
  rw [mem_leftQuotient]
  by_cases hx : x = []
  · subst hx; simp
  · simp [hx, mem_one, notMem_zero]

theorem isRegular_mul (hL : L.IsRegular) (hM : M.IsRegular) : (L * M).IsRegular := by
  refine isRegular_of_key (key := fun x => (L.leftQuotient x, {K | ∃ u v, x = u ++ v ∧ u ∈ L ∧ K = M.leftQuotient v}))
    (F := fun k => {y | y ∈ k.1 * M ∨ ∃ K ∈ k.2, y ∈ K}) ?_ fun x => ?_
  · refine (Set.Finite.prod hL.finite_range_leftQuotient hM.finite_range_leftQuotient.powerset).subset ?_
    rintro _ ⟨x, rfl⟩
    refine ⟨⟨x, rfl⟩, ?_⟩
    rintro _ ⟨u, v, _, _, rfl⟩
    exact ⟨v, rfl⟩
  · ext y
    rw [mem_leftQuotient, mem_mul]
    show _ ↔ y ∈ L.leftQuotient x * M ∨ ∃ K, (∃ u v, x = u ++ v ∧ u ∈ L ∧ K = M.leftQuotient v) ∧ y ∈ K
    constructor
    · rintro ⟨a, ha, b, hb, e⟩
      rcases List.append_eq_append_iff.1 e with ⟨c, rfl, rfl⟩ | ⟨c, rfl, rfl⟩
      · exact .inr ⟨_, ⟨a, c, rfl, ha, rfl⟩, hb⟩
      · exact .inl (mem_mul.2 ⟨c, ha, b, hb, rfl⟩)
    · rintro (h | ⟨_, ⟨u, v, rfl, hu, rfl⟩, hy⟩)
      · obtain ⟨a, ha, b, hb, rfl⟩ := mem_mul.1 h
        exact ⟨x ++ a, ha, b, hb, by simp⟩
      · exact ⟨u, hu, v ++ y, hy, by simp⟩

theorem isRegular_pow (hL : L.IsRegular) : ∀ k : Nat, (L ^ k).IsRegular
  | 0 => by rw [pow_zero]; exact isRegular_one
  | k + 1 => by rw [pow_succ]; exact isRegular_mul (isRegular_pow hL k) hL

open Computability in
theorem kstar_cut : ∀ {ws : List (List α)} {x y : List α}, (∀ w ∈ ws, w ∈ L) → x ≠ [] → ws.flatten = x ++ y →
    ∃ u v z, x = u ++ v ∧ u ∈ L∗ ∧ v ++ z ∈ L ∧ ∃ t ∈ L∗, y = z ++ t := by
  intro ws
  induction ws with
  | nil => intro x y _ hx e; simp at e; exact (hx e.1).elim
  | cons w ws ih =>
    intro x y hw hx e
    rw [List.flatten_cons] at e
    rcases List.append_eq_append_iff.1 e with ⟨c, rfl, e'⟩ | ⟨c, e1, rfl⟩
    · by_cases hc : c = []
      · subst hc
        refine ⟨[], w, [], by simp, nil_mem_kstar _, by simpa using hw w (by simp), y, ?_, rfl⟩
        rw [List.nil_append] at e'
        exact e' ▸ join_mem_kstar fun v hv => hw v (by simp [hv])
      · obtain ⟨u, v, z, rfl, hu, hv, t, ht, rfl⟩ := ih (fun v hv => hw v (by simp [hv])) hc e'
        refine ⟨w ++ u, v, z, by simp, ?_, hv, t, ht, rfl⟩
        obtain ⟨us, rfl, hus⟩ := mem_kstar.1 hu
        exact mem_kstar.2 ⟨w :: us, by simp, by
          intro a ha
          rcases List.mem_cons.1 ha with rfl | ha
          · exact hw _ (by simp)
          · exact hus a ha⟩
    · exact ⟨[], x, c, by simp, nil_mem_kstar _, by rw [← e1]; exact hw w (by simp), ws.flatten,
        join_mem_kstar fun v hv => hw v (by simp [hv]), rfl⟩

open Computability in
theorem kstar_append {u v : List α} (hu : u ∈ L∗) (hv : v ∈ L∗) : u ++ v ∈ L∗ := by
  obtain ⟨us, rfl, hus⟩ := mem_kstar.1 hu
  obtain ⟨vs, rfl, hvs⟩ := mem_kstar.1 hv
  refine mem_kstar.2 ⟨us ++ vs, by simp, ?_⟩
  intro a ha
  rcases List.mem_append.1 ha with ha | ha
  · exact hus a ha
  · exact hvs a ha

open Computability in
theorem kstar_one {u : List α} (hu : u ∈ L) : u ∈ L∗ := mem_kstar.2 ⟨[u], by simp, by simpa using hu⟩

open Computability in
theorem isRegular_kstar (hL : L.IsRegular) : (L∗).IsRegular := by
  classical
  refine isRegular_of_key (key := fun x => (decide (x = []), {K | ∃ u v, x = u ++ v ∧ u ∈ L∗ ∧ K = L.leftQuotient v}))
    (F := fun k => {y | (k.1 = true ∧ y ∈ L∗) ∨ ∃ K ∈ k.2, y ∈ K * L∗}) ?_ fun x => ?_
  · refine (Set.Finite.prod (Set.toFinite (Set.univ : Set Bool)) hL.finite_range_leftQuotient.powerset).subset ?_
    rintro _ ⟨x, rfl⟩
    refine ⟨trivial, ?_⟩
    rintro _ ⟨u, v, _, _, rfl⟩
    exact ⟨v, rfl⟩
  · ext y
    rw [mem_leftQuotient]
    show _ ↔ (decide (x = []) = true ∧ y ∈ L∗) ∨ ∃ K, (∃ u v, x = u ++ v ∧ u ∈ L∗ ∧ K = L.leftQuotient v) ∧ y ∈ K * L∗
    constructor
    · intro h
      by_cases hx : x = []
      · subst hx; exact .inl ⟨by simp, by simpa using h⟩
      · obtain ⟨ws, e, hw⟩ := mem_kstar.1 h
        obtain ⟨u, v, z, rfl, hu, hv, t, ht, rfl⟩ := kstar_cut hw hx e.symm
        exact .inr ⟨_, ⟨u, v, rfl, hu, rfl⟩, mem_mul.2 ⟨z, hv, t, ht, rfl⟩⟩
    · rintro (⟨hx, hy⟩ | ⟨_, ⟨u, v, rfl, hu, rfl⟩, hy⟩)
      · simp at hx; subst hx; simpa using hy
      · obtain ⟨z, hz, t, ht, rfl⟩ := mem_mul.1 hy
        have := kstar_append (kstar_append hu (kstar_one hz)) ht
        simpa using this

/-- Powers between two bounds. -/
theorem isRegular_between (hL : L.IsRegular) (a : Nat) : ∀ n : Nat, (powers L fun k => a ≤ k ∧ k < a + n).IsRegular
  | 0 => by
    have : (powers L fun k => a ≤ k ∧ k < a + 0) = 0 := by
      ext w
      simp only [notMem_zero, iff_false]
      rintro ⟨k, ⟨h1, h2⟩, _⟩
      omega
    rw [this]; exact isRegular_zero
  | n + 1 => by
    have : (powers L fun k => a ≤ k ∧ k < a + (n + 1)) =
        (powers L fun k => a ≤ k ∧ k < a + n) + L ^ (a + n) := by
      ext w
      rw [mem_add]
      constructor
      · rintro ⟨k, ⟨h1, h2⟩, h3⟩
        by_cases hk : k = a + n
        · subst hk; exact .inr h3
        · exact .inl ⟨k, ⟨h1, by omega⟩, h3⟩
      · rintro (⟨k, ⟨h1, h2⟩, h3⟩ | h)
        · exact ⟨k, ⟨h1, by omega⟩, h3⟩
        · exact ⟨a + n, ⟨by omega, by omega⟩, h⟩
    rw [this]
    exact (isRegular_between hL a n).add (isRegular_pow hL _)

/-- Powers from a bound on. -/
theorem isRegular_atLeast (hL : L.IsRegular) (a : Nat) : (powers L fun k => a ≤ k).IsRegular := by
  have : (powers L fun k => a ≤ k) = L ^ a * KStar.kstar L := by
    ext w
    rw [kstar_eq_iSup_pow]
    constructor
    · rintro ⟨k, h, hw⟩
      obtain ⟨m, rfl⟩ := Nat.exists_eq_add_of_le h
      rw [pow_add] at hw
      obtain ⟨u, hu, v, hv, rfl⟩ := mem_mul.1 hw
      exact mem_mul.2 ⟨u, hu, v, mem_iSup.2 ⟨m, hv⟩, rfl⟩
    · intro hw
      obtain ⟨u, hu, v, hv, rfl⟩ := mem_mul.1 hw
      obtain ⟨m, hm⟩ := mem_iSup.1 hv
      exact ⟨a + m, by omega, by rw [pow_add]; exact append_mem_mul hu hm⟩
  rw [this]
  exact isRegular_mul (isRegular_pow hL a) (isRegular_kstar hL)

end Ctre
