import Verif.Props.Loops
import Verif.Lemmas.SurfaceMeaning
import Verif.Lemmas.Single
import Verif.Spec.Fusion
import Mathlib.Tactic.ByContra

/-
Two repetitions of the same character class as one.
-/
namespace Ctre

variable {U : Uni} {s : List Ch} {f : Flags} {x : Re} {a b c d p : Nat}

theorem canTake_join {i j : Nat} (h : CanTake U s f x a b p i) (h' : CanTake U s f x c d (p + i) j) :
    CanTake U s f x (a + c) (fusedMax b d) p (i + j) := by
  obtain ⟨h1, h2, h3⟩ := h
  obtain ⟨h4, h5, h6⟩ := h'
  refine ⟨by omega, ?_, fun k hk => ?_⟩
  · unfold fusedMax; split <;> omega
  · by_cases h : k < i
    · exact h3 k h
    · have := h6 (k - i) (by omega)
      rwa [show p + i + (k - i) = p + k by omega] at this

theorem canTake_parts {i j : Nat} (h : ∀ k, k < i + j → takes U s f (p + k) x) (h1 : a ≤ i) (h2 : b = 0 ∨ i ≤ b) (h3 : c ≤ j)
    (h4 : d = 0 ∨ j ≤ d) : CanTake U s f x a b p i ∧ CanTake U s f x c d (p + i) j :=
  ⟨⟨h1, h2, fun k hk => h k (by omega)⟩, h3, h4, fun k hk => by rw [Nat.add_assoc]; exact h _ (by omega)⟩

theorem most_join {K : Nat → Out → Prop} (h1 : b = 0 ∨ a ≤ b) (h2 : d = 0 ∨ c ≤ d) {o : Out} :
    MostTimes (CanTake U s f x a b p) (fun k => MostTimes (CanTake U s f x c d (p + k)) (fun j => K (k + j))) o ↔
    MostTimes (CanTake U s f x (a + c) (fusedMax b d) p) K o := by
  have hinner : ∀ {k j}, MostTimes (CanTake U s f x c d (p + k)) (fun j => K (k + j)) .fail → CanTake U s f x c d (p + k) j →
      K (k + j) .fail := by
    intro k j h hj
    rcases h with ⟨_, h⟩ | ⟨h, _⟩
    · exact h j hj
    · exact (h rfl).elim
  constructor
  · rintro (⟨rfl, h⟩ | ⟨ho, k, hk, hin, hmax⟩)
    · refine .inl ⟨rfl, fun n ⟨h3, h4, h5⟩ => ?_⟩
      have : ∃ i j, i + j = n ∧ a ≤ i ∧ (b = 0 ∨ i ≤ b) ∧ c ≤ j ∧ (d = 0 ∨ j ≤ d) := by
        unfold fusedMax at h4
        by_cases hb : b = 0
        · exact ⟨n - c, c, by omega, by omega, .inl hb, Nat.le_refl _, by omega⟩
        · by_cases hn : n - c ≤ b
          · exact ⟨n - c, c, by omega, by omega, .inr hn, Nat.le_refl _, by omega⟩
          · refine ⟨b, n - b, by omega, by omega, .inr (Nat.le_refl _), by omega, ?_⟩
            split at h4 <;> omega
      obtain ⟨i, j, rfl, h6, h7, h8, h9⟩ := this
      obtain ⟨h10, h11⟩ := canTake_parts h5 h6 h7 h8 h9
      exact hinner (h i h10) h11
    · rcases hin with ⟨h, _⟩ | ⟨_, j, hj, hKj, hmax'⟩
      · exact (ho h).elim
      · refine .inr ⟨ho, k + j, canTake_join hk hj, hKj, fun n hn ⟨h3, h4, h5⟩ => ?_⟩
        by_cases hkn : d = 0 ∨ n - k ≤ d
        · have := canTake_parts (i := k) (j := n - k) (a := a) (b := b) (c := c) (d := d) (fun m hm => h5 m (by omega)) hk.1 hk.2.1
            (by have := hj.1; omega) hkn
          have : K (k + (n - k)) .fail := hmax' (n - k) (by omega) this.2
          rwa [show k + (n - k) = n by omega] at this
        · have hd : d ≠ 0 := by omega
          have hdn : d < n - k := by omega
          have := canTake_parts (i := n - d) (j := d) (a := a) (b := b) (c := c) (d := d) (fun m hm => h5 m (by omega)) (by have := hk.1; omega)
            (by unfold fusedMax at h4; split at h4 <;> omega) (by omega) (by omega)
          have := hinner (hmax (n - d) (by omega) this.1) this.2
          rwa [show n - d + d = n by omega] at this
  · rintro (⟨rfl, h⟩ | ⟨ho, n, ⟨h3, h4, h5⟩, hKn, hmax⟩)
    · exact .inl ⟨rfl, fun k hk => .inl ⟨rfl, fun j hj => h _ (canTake_join hk hj)⟩⟩
    · -- the first loop takes as many as possible
      obtain ⟨k, hk1, hk2, hk3, hk4, hk5⟩ : ∃ k, a ≤ k ∧ (b = 0 ∨ k ≤ b) ∧ k + c ≤ n ∧ (d = 0 ∨ n - k ≤ d) ∧ (k = n - c ∨ (b ≠ 0 ∧ k = b)) := by
        unfold fusedMax at h4
        by_cases hb : b = 0 ∨ n - c ≤ b
        · exact ⟨n - c, by omega, by omega, by omega, by omega, .inl rfl⟩
        · refine ⟨b, by omega, by omega, by omega, ?_, .inr ⟨by omega, rfl⟩⟩
          split at h4 <;> omega
      obtain ⟨h6, h7⟩ := canTake_parts (i := k) (j := n - k) (a := a) (b := b) (c := c) (d := d) (fun m hm => h5 m (by omega)) hk1 hk2
        (by omega) hk4
      refine .inr ⟨ho, k, h6, .inr ⟨ho, n - k, h7, ?_, fun j' hj' hc => ?_⟩, fun k' hk' hc => .inl ⟨rfl, fun j hj => ?_⟩⟩
      · dsimp only; rwa [show k + (n - k) = n by omega]
      · exact hmax _ (by omega) (canTake_join h6 hc)
      · refine hmax _ ?_ (canTake_join hc hj)
        have := hc.2.1; have := hj.1
        omega

theorem fewest_join {K : Nat → Out → Prop} (h1 : b = 0 ∨ a ≤ b) (h2 : d = 0 ∨ c ≤ d) {o : Out} :
    FewestTimes (CanTake U s f x a b p) (fun k => FewestTimes (CanTake U s f x c d (p + k)) (fun j => K (k + j))) o ↔
    FewestTimes (CanTake U s f x (a + c) (fusedMax b d) p) K o := by
  have hinner : ∀ {k j}, FewestTimes (CanTake U s f x c d (p + k)) (fun j => K (k + j)) .fail → CanTake U s f x c d (p + k) j →
      K (k + j) .fail := by
    intro k j h hj
    rcases h with ⟨_, h⟩ | ⟨h, _⟩
    · exact h j hj
    · exact (h rfl).elim
  have hsplit : ∀ n, CanTake U s f x (a + c) (fusedMax b d) p n → ∃ k, a ≤ k ∧ (b = 0 ∨ k ≤ b) ∧ k + c ≤ n ∧ (d = 0 ∨ n - k ≤ d) ∧
      (k = a ∨ (d ≠ 0 ∧ k + d = n)) := by
    rintro n ⟨h3, h4, h5⟩
    unfold fusedMax at h4
    by_cases hd : d = 0 ∨ n - a ≤ d
    · exact ⟨a, by omega, by omega, by omega, by omega, .inl rfl⟩
    · refine ⟨n - d, by omega, ?_, by omega, by omega, .inr ⟨by omega, by omega⟩⟩
      split at h4 <;> omega
  constructor
  · rintro (⟨rfl, h⟩ | ⟨ho, k, hk, hin, hmin⟩)
    · refine .inl ⟨rfl, fun n hn => ?_⟩
      obtain ⟨i, h6, h7, h8, h9, _⟩ := hsplit n hn
      obtain ⟨h10, h11⟩ := canTake_parts (i := i) (j := n - i) (a := a) (b := b) (c := c) (d := d) (fun m hm => hn.2.2 m (by omega)) h6 h7
        (by omega) h9
      have := hinner (h i h10) h11
      rwa [show i + (n - i) = n by omega] at this
    · rcases hin with ⟨h, _⟩ | ⟨_, j, hj, hKj, hmin'⟩
      · exact (ho h).elim
      · refine .inr ⟨ho, k + j, canTake_join hk hj, hKj, fun n hn hc => ?_⟩
        obtain ⟨i, h6, h7, h8, h9, _⟩ := hsplit n hc
        obtain ⟨h10, h11⟩ := canTake_parts (i := i) (j := n - i) (a := a) (b := b) (c := c) (d := d) (fun m hm => hc.2.2 m (by omega)) h6 h7
          (by omega) h9
        by_cases hik : i < k
        · have := hinner (hmin i hik h10) h11
          rwa [show i + (n - i) = n by omega] at this
        · have := canTake_parts (i := k) (j := n - k) (a := a) (b := b) (c := c) (d := d) (fun m hm => hc.2.2 m (by omega)) hk.1 hk.2.1
            (by omega) (by have := hj.2.1; omega)
          have : K (k + (n - k)) .fail := hmin' (n - k) (by omega) this.2
          rwa [show k + (n - k) = n by omega] at this
  · rintro (⟨rfl, h⟩ | ⟨ho, n, hn, hKn, hmin⟩)
    · exact .inl ⟨rfl, fun k hk => .inl ⟨rfl, fun j hj => h _ (canTake_join hk hj)⟩⟩
    · obtain ⟨k, h6, h7, h8, h9, h12⟩ := hsplit n hn
      obtain ⟨h10, h11⟩ := canTake_parts (i := k) (j := n - k) (a := a) (b := b) (c := c) (d := d) (fun m hm => hn.2.2 m (by omega)) h6 h7
        (by omega) h9
      refine .inr ⟨ho, k, h10, .inr ⟨ho, n - k, h11, ?_, fun j' hj' hc => ?_⟩, fun k' hk' hc => .inl ⟨rfl, fun j hj => ?_⟩⟩
      · dsimp only; rwa [show k + (n - k) = n by omega]
      · exact hmin _ (by omega) (canTake_join h10 hc)
      · refine hmin _ ?_ (canTake_join hc hj)
        have := hc.1; have := hj.2.1
        omega

theorem Caps.afterChars_afterChars {c : Caps} {p i j : Nat} : (c.afterChars p i).afterChars (p + i) j = c.afterChars p (i + j) := by
  unfold Caps.afterChars
  by_cases hi : i = 0
  · subst hi; simp
  · by_cases hj : j = 0
    · subst hj; simp [hi]
    · simp [hi, hj, Caps.endedAt, Nat.add_assoc]

theorem Flags.consumed_consumed {f : Flags} {x y : Bool} : (f.consumed x).consumed y = f.consumed (x || y) := by
  cases x <;> cases y <;> simp [Flags.consumed]

theorem canTake_flags {f g : Flags} (h : f.ci = g.ci) (h' : f.ml = g.ml) : CanTake U s f x a b p = CanTake U s g x a b p := by
  funext k
  have : ∀ q, takes U s f q x = takes U s g q x := by
    intro q; cases x <;> simp [takes, h, h']
  simp only [CanTake, this]

theorem Flags.consumed_ci {f : Flags} {x : Bool} : (f.consumed x).ci = f.ci ∧ (f.consumed x).ml = f.ml := by
  cases x <;> simp [Flags.consumed]

theorem MostTimes.congr {adm : Nat → Prop} {K K' : Nat → Out → Prop} (h : ∀ k, adm k → ∀ o, K k o ↔ K' k o) {o : Out} :
    MostTimes adm K o ↔ MostTimes adm K' o := by
  unfold MostTimes
  constructor
  · rintro (⟨h1, h2⟩ | ⟨h1, k, h2, h3, h4⟩)
    · exact .inl ⟨h1, fun k hk => (h k hk _).1 (h2 k hk)⟩
    · exact .inr ⟨h1, k, h2, (h k h2 _).1 h3, fun k' hk' hc => (h k' hc _).1 (h4 k' hk' hc)⟩
  · rintro (⟨h1, h2⟩ | ⟨h1, k, h2, h3, h4⟩)
    · exact .inl ⟨h1, fun k hk => (h k hk _).2 (h2 k hk)⟩
    · exact .inr ⟨h1, k, h2, (h k h2 _).2 h3, fun k' hk' hc => (h k' hc _).2 (h4 k' hk' hc)⟩

theorem FewestTimes.congr {adm : Nat → Prop} {K K' : Nat → Out → Prop} (h : ∀ k, adm k → ∀ o, K k o ↔ K' k o) {o : Out} :
    FewestTimes adm K o ↔ FewestTimes adm K' o := by
  unfold FewestTimes
  constructor
  · rintro (⟨h1, h2⟩ | ⟨h1, k, h2, h3, h4⟩)
    · exact .inl ⟨h1, fun k hk => (h k hk _).1 (h2 k hk)⟩
    · exact .inr ⟨h1, k, h2, (h k h2 _).1 h3, fun k' hk' hc => (h k' hc _).1 (h4 k' hk' hc)⟩
  · rintro (⟨h1, h2⟩ | ⟨h1, k, h2, h3, h4⟩)
    · exact .inl ⟨h1, fun k hk => (h k hk _).2 (h2 k hk)⟩
    · exact .inr ⟨h1, k, h2, (h k h2 _).2 h3, fun k' hk' hc => (h k' hc _).2 (h4 k' hk' hc)⟩

theorem AllTimes.congr {adm : Nat → Prop} {K K' : Nat → Out → Prop} (h : ∀ k, adm k → ∀ o, K k o ↔ K' k o) {o : Out} :
    AllTimes adm K o ↔ AllTimes adm K' o := by
  unfold AllTimes
  constructor
  · rintro (⟨h1, h2⟩ | ⟨k, h2, h3, h4⟩)
    · exact .inl ⟨h1, h2⟩
    · exact .inr ⟨k, h2, (h k h2 _).1 h3, h4⟩
  · rintro (⟨h1, h2⟩ | ⟨k, h2, h3, h4⟩)
    · exact .inl ⟨h1, h2⟩
    · exact .inr ⟨k, h2, (h k h2 _).2 h3, h4⟩

theorem canTake_le (hx : x.isSingle = true) (hp : p ≤ s.length) {k : Nat} (h : CanTake U s f x a b p k) : p + k ≤ s.length := by
  cases k with
  | zero => exact hp
  | succ k =>
    have := h.2.2 k (by omega)
    cases x with
    | cc c =>
      simp only [takes, inClass] at this
      obtain ⟨v, hv, _⟩ := this
      have := (List.getElem?_eq_some_iff.1 hv).1
      omega
    | any => simp only [takes] at this; omega
    | _ => simp [Re.isSingle] at hx

theorem exists_max {P : Nat → Prop} {N : Nat} (hb : ∀ k, P k → k ≤ N) : ∀ m k, N = k + m → P k → ∃ k, P k ∧ ∀ k', P k' → k' ≤ k := by
  intro m
  induction m with
  | zero => intro k hk h; exact ⟨k, h, fun k' hk' => by have := hb k' hk'; omega⟩
  | succ m ih =>
    intro k hk h
    by_cases hP : ∃ k', k < k' ∧ P k'
    · induction m using Nat.strongRecOn generalizing k with
      | _ m _ =>
        obtain ⟨k', h1, h2⟩ := hP
        by_contra hno
        have key : ∀ j, ∃ k'', k' + j ≤ k'' ∧ P k'' := by
          intro j
          induction j with
          | zero => exact ⟨k', by omega, h2⟩
          | succ j ihj =>
            obtain ⟨q, h3, h4⟩ := ihj
            by_contra hn
            exact hno ⟨q, h4, fun r hr => by
              by_contra hlt
              exact hn ⟨r, by omega, hr⟩⟩
        obtain ⟨q, h3, h4⟩ := key (N + 1)
        have := hb q h4
        omega
    · exact ⟨k, h, fun k' hk' => by
        by_contra hlt
        exact hP ⟨k', by omega, hk'⟩⟩

theorem canTake_max (hx : x.isSingle = true) (hp : p ≤ s.length) {k : Nat} (h : CanTake U s f x a b p k) :
    ∃ k, CanTake U s f x a b p k ∧ ∀ k', CanTake U s f x a b p k' → k' ≤ k := by
  have hb : ∀ k, CanTake U s f x a b p k → k ≤ s.length := fun k hk => by have := canTake_le hx hp hk; omega
  exact exists_max hb (s.length - k) k (by have := hb k h; omega) h

/-- When the largest number of iterations is below the limit, the next character cannot be taken. -/
theorem canTake_stops {k : Nat} (h : CanTake U s f x a b p k) (hm : ∀ k', CanTake U s f x a b p k' → k' ≤ k) (hk : b = 0 ∨ k < b) :
    ¬ takes U s f (p + k) x := by
  intro ht
  have := hm (k + 1) ⟨by have := h.1; omega, by omega, fun j hj => by
    by_cases hjk : j < k
    · exact h.2.2 j hjk
    · rw [show j = k by omega]; exact ht⟩
  omega

theorem all_join_bounded (hx : x.isSingle = true) (hp : p ≤ s.length) {K : Nat → Out → Prop} (hb : b ≠ 0) (h1 : a ≤ b)
    (h2 : d = 0 ∨ c ≤ d) {o : Out} :
    AllTimes (CanTake U s f x a b p) (fun k => AllTimes (CanTake U s f x c d (p + k)) (fun j => K (k + j))) o ↔
    AllTimes (CanTake U s f x (if c = 0 then a else b + c) (fusedMax b d) p) K o := by
  have hle : ∀ n, CanTake U s f x (if c = 0 then a else b + c) (fusedMax b d) p n → ∃ k, CanTake U s f x a b p k := by
    rintro n ⟨h3, h4, h5⟩
    by_cases hn : n ≤ b
    · exact ⟨n, by split at h3 <;> omega, .inr hn, h5⟩
    · exact ⟨b, h1, .inr (Nat.le_refl _), fun j hj => h5 j (by omega)⟩
  -- what the fused loop can take is taken by the two loops together
  have hlow : ∀ {k n}, CanTake U s f x a b p k → (∀ k', CanTake U s f x a b p k' → k' ≤ k) →
      CanTake U s f x (if c = 0 then a else b + c) (fusedMax b d) p n → n ≤ k ∧ c = 0 ∨ k = b ∧ b ≤ n := by
    rintro k n hk hmax ⟨h3, h4, h5⟩
    by_cases hkb : k = b
    · by_cases hn : n < b
      · left; refine ⟨by omega, ?_⟩; split at h3 <;> omega
      · right; omega
    · have hstop := canTake_stops hk hmax (by have := hk.2.1; omega)
      have hn : n ≤ k := by
        by_contra hn
        exact hstop (h5 k (by omega))
      left
      refine ⟨hn, ?_⟩
      have := hk.2.1
      split at h3 <;> omega
  have hup : ∀ {k j}, CanTake U s f x a b p k → (∀ k', CanTake U s f x a b p k' → k' ≤ k) → CanTake U s f x c d (p + k) j →
      CanTake U s f x (if c = 0 then a else b + c) (fusedMax b d) p (k + j) := by
    intro k j hk hmax hj
    obtain ⟨h3, h4, h5⟩ := canTake_join hk hj
    refine ⟨?_, h4, h5⟩
    split
    · have := hk.1; omega
    · rename_i hc
      have : k = b := by
        by_contra hkb
        have hstop := canTake_stops hk hmax (by have := hk.2.1; omega)
        have hj0 : 0 < j := by have := hj.1; omega
        exact hstop (by have := hj.2.2 0 hj0; rwa [Nat.add_zero] at this)
      have := hj.1
      omega
  have hrest : ∀ {n}, b ≤ n → CanTake U s f x (if c = 0 then a else b + c) (fusedMax b d) p n → CanTake U s f x c d (p + b) (n - b) := by
    rintro n hn ⟨h3, h4, h5⟩
    refine ⟨?_, ?_, fun j hj => ?_⟩
    · split at h3 <;> omega
    · unfold fusedMax at h4; split at h4 <;> omega
    · rw [Nat.add_assoc]; exact h5 _ (by omega)
  constructor
  · rintro (⟨rfl, h⟩ | ⟨k, hk, hin, hmax⟩)
    · refine .inl ⟨rfl, fun n hn => ?_⟩
      obtain ⟨k, hk⟩ := hle n hn
      exact h k hk
    · rcases hin with ⟨rfl, h⟩ | ⟨j, hj, hK, hmax'⟩
      · refine .inl ⟨rfl, fun n hn => ?_⟩
        rcases hlow hk hmax hn with ⟨h3, h4⟩ | ⟨h3, h4⟩
        · exact h 0 ⟨by omega, by omega, fun j hj => by omega⟩
        · subst h3; exact h _ (hrest h4 hn)
      · refine .inr ⟨k + j, hup hk hmax hj, hK, fun n hn => ?_⟩
        rcases hlow hk hmax hn with ⟨h3, h4⟩ | ⟨h3, h4⟩
        · omega
        · subst h3; have := hmax' _ (hrest h4 hn); omega
  · intro h
    by_cases he : ∃ k, CanTake U s f x a b p k
    · obtain ⟨k0, hk0⟩ := he
      obtain ⟨k, hk, hmax⟩ := canTake_max hx hp hk0
      refine .inr ⟨k, hk, ?_, hmax⟩
      rcases h with ⟨rfl, h⟩ | ⟨n, hn, hK, hmax'⟩
      · exact .inl ⟨rfl, fun j hj => h _ (hup hk hmax hj)⟩
      · have hcase : ∃ j, n = k + j ∧ CanTake U s f x c d (p + k) j := by
          rcases hlow hk hmax hn with ⟨h3, h4⟩ | ⟨h3, h4⟩
          · have h0 : CanTake U s f x c d (p + k) 0 := ⟨by omega, by omega, fun j hj => by omega⟩
            have := hmax' _ (hup hk hmax h0)
            exact ⟨0, by omega, h0⟩
          · subst h3; exact ⟨n - k, by omega, hrest h4 hn⟩
        obtain ⟨j, rfl, hj⟩ := hcase
        exact .inr ⟨j, hj, hK, fun j' hj' => by have := hmax' _ (hup hk hmax hj'); omega⟩
    · rcases h with ⟨rfl, _⟩ | ⟨n, hn, _⟩
      · exact .inl ⟨rfl, fun k hk => he ⟨k, hk⟩⟩
      · exact (he (hle n hn)).elim

theorem all_join_reject (hx : x.isSingle = true) (hp : p ≤ s.length) {K : Nat → Out → Prop} (hc : 0 < c) {o : Out} :
    AllTimes (CanTake U s f x a 0 p) (fun k => AllTimes (CanTake U s f x c d (p + k)) (fun j => K (k + j))) o ↔ o = .fail := by
  have hno : ∀ {k j}, CanTake U s f x a 0 p k → (∀ k', CanTake U s f x a 0 p k' → k' ≤ k) → ¬ CanTake U s f x c d (p + k) j := by
    intro k j hk hmax hj
    have := canTake_stops hk hmax (.inl rfl)
    exact this (by have := hj.2.2 0 (by have := hj.1; omega); rwa [Nat.add_zero] at this)
  constructor
  · rintro (⟨rfl, _⟩ | ⟨k, hk, hin, hmax⟩)
    · rfl
    · rcases hin with ⟨rfl, _⟩ | ⟨j, hj, _⟩
      · rfl
      · exact (hno hk hmax hj).elim
  · rintro rfl
    by_cases he : ∃ k, CanTake U s f x a 0 p k
    · obtain ⟨k0, hk0⟩ := he
      obtain ⟨k, hk, hmax⟩ := canTake_max hx hp hk0
      exact .inr ⟨k, hk, .inl ⟨rfl, fun j hj => hno hk hmax hj⟩, hmax⟩
    · exact .inl ⟨rfl, fun k hk => he ⟨k, hk⟩⟩

theorem all_join_rest (hx : x.isSingle = true) (hp : p ≤ s.length) {K : Nat → Out → Prop} {o : Out} :
    AllTimes (CanTake U s f x a 0 p) (fun k => AllTimes (CanTake U s f x 0 d (p + k)) (fun j => K (k + j))) o ↔
    AllTimes (CanTake U s f x a 0 p) K o := by
  have hzero : ∀ {k j}, CanTake U s f x a 0 p k → (∀ k', CanTake U s f x a 0 p k' → k' ≤ k) → CanTake U s f x 0 d (p + k) j → j = 0 := by
    intro k j hk hmax hj
    by_contra hj0
    exact canTake_stops hk hmax (.inl rfl) (by have := hj.2.2 0 (by omega); rwa [Nat.add_zero] at this)
  have h0 : ∀ {k}, CanTake U s f x 0 d (p + k) 0 := fun {k} => ⟨by omega, by omega, fun j hj => by omega⟩
  constructor
  · rintro (⟨rfl, h⟩ | ⟨k, hk, hin, hmax⟩)
    · exact .inl ⟨rfl, h⟩
    · rcases hin with ⟨rfl, h⟩ | ⟨j, hj, hK, _⟩
      · exact (h 0 h0).elim
      · have := hzero hk hmax hj
        subst this
        exact .inr ⟨k, hk, hK, hmax⟩
  · rintro (⟨rfl, h⟩ | ⟨k, hk, hK, hmax⟩)
    · exact .inl ⟨rfl, h⟩
    · exact .inr ⟨k, hk, .inr ⟨0, h0, hK, fun j hj => by have := hzero hk hmax hj; omega⟩, hmax⟩

mutual
theorem CC.same_refl : ∀ a : CC, CC.same a a = true
  | .chr _ | .range _ _ | .enum _ | .prop _ => by simp [CC.same]
  | .set l | .negSet l | .negate l => by simp [CC.same, CC.sameList_refl l]
theorem CC.sameList_refl : ∀ l : List CC, CC.sameList l l = true
  | [] => rfl
  | a :: l => by simp [CC.sameList, CC.same_refl a, CC.sameList_refl l]
end

mutual
theorem Re.same_refl : ∀ a : Re, Re.same a a = true
  | .cc c | .boundary c | .notBoundary c => by simp [Re.same, CC.same_refl]
  | .sel l | .seq l | .rep _ _ _ l | .cap _ _ l | .ahead _ l | .behind _ l | .atomic l => by simp [Re.same, Re.sameList_refl l]
  | .any | .str _ | .empty | .bref _ | .brefName _ | .sBegin | .sEnd | .sEndLine | .lBegin | .lEnd | .mode _ | .reject _ => by
    simp [Re.same]
theorem Re.sameList_refl : ∀ l : List Re, Re.sameList l l = true
  | [] => rfl
  | a :: l => by simp [Re.sameList, Re.same_refl a, Re.sameList_refl l]
end

namespace Parse
open Surface

theorem quantTree_counts {q : Quant} (h : q.counts = true) (r : Re) :
    quantTree q r = .rep q.kind (q.least % szMod) (q.most % szMod) (unpack r) := by
  cases q with
  | none => simp [Quant.counts] at h
  | opt k => simp [Quant.counts] at h
  | exactly ds => rfl
  | star k => cases k <;> rfl
  | plus k => cases k <;> rfl
  | atLeast ds k => cases k <;> simp [quantTree, kindTree, Quant.kind, Quant.least, Quant.most]
  | between ds es k => cases k <;> rfl

end Parse

end Ctre
