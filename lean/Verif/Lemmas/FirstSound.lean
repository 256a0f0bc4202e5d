import Verif.Lemmas.Terminates
import Verif.Lemmas.Collides
import Verif.Spec.Steady

/-
The first-character analysis is right about what it looks at: if a stack succeeds at a position before the end, either
the character there belongs to the computed list, or the stack succeeds everywhere without consuming.
-/
namespace Ctre

/-! ### Lists of first characters -/

variable {U : Uni}

/-- Every member of the first list is in the second. -/
def Sub (U : Uni) (l l' : List FC) : Prop := ∀ v, Has U v l → Has U v l'

theorem Sub.refl (l : List FC) : Sub U l l := fun _ h => h
theorem Sub.trans {a b c : List FC} (h : Sub U a b) (h' : Sub U b c) : Sub U a c := fun v hv => h' v (h v hv)

theorem sub_append (l m : List FC) : Sub U l (l ++ m) := by
  rintro v ⟨x, hx, h⟩
  exact ⟨x, by simp [hx], h⟩

theorem sub_anything (l : List FC) : Sub U l [.anything] := fun _ _ => ⟨.anything, by simp, trivial⟩

theorem Sub.append {l l' : List FC} (h : Sub U l l') (m : List FC) : Sub U (l ++ m) (l' ++ m) := by
  rintro v ⟨x, hx, hh⟩
  rcases List.mem_append.1 hx with hx | hx
  · obtain ⟨y, hy, h2⟩ := h v ⟨x, hx, hh⟩
    exact ⟨y, by simp [hy], h2⟩
  · exact ⟨x, by simp [hx], hh⟩

theorem firstCC_sub {l l' : List FC} (h : Sub U l l') (c : CC) : Sub U (firstCC l c) (firstCC l' c) := by
  cases c <;> simp only [firstCC] <;> first | exact h.append _ | exact Sub.refl _

theorem firstCC_has {l : List FC} {c : CC} {v : Ch} (h : c.matchChar U false v = true) : Has U v (firstCC l c) := by
  cases c with
  | chr c => exact ⟨.cc (.chr c), by simp [firstCC], h⟩
  | range a b => exact ⟨.cc (.range a b), by simp [firstCC], h⟩
  | enum cs =>
    simp only [CC.matchChar, List.any_eq_true] at h
    obtain ⟨c, hc, h⟩ := h
    exact ⟨.cc (.chr c), by simp [firstCC, hc], by simpa [FC.Has, CC.matchChar] using h⟩
  | set m =>
    simp only [CC.matchChar] at h
    have key : ∀ m : List CC, CC.matchAny U false v m = true → ∃ c ∈ m, c.matchChar U false v = true := by
      intro m
      induction m with
      | nil => simp [CC.matchAny]
      | cons c m ih =>
        intro h
        simp only [CC.matchAny, Bool.or_eq_true] at h
        rcases h with h | h
        · exact ⟨c, by simp, h⟩
        · obtain ⟨d, hd, h⟩ := ih h
          exact ⟨d, by simp [hd], h⟩
    obtain ⟨c, hc, h⟩ := key m h
    exact ⟨.cc c, by simp [firstCC, hc], h⟩
  | negSet m => exact ⟨.cc (.negSet m), by simp [firstCC], h⟩
  | negate m => exact ⟨.cc (.negSet m), by simp [firstCC], by simpa [FC.Has, CC.matchChar] using h⟩
  | prop p => exact ⟨.anything, by simp [firstCC], trivial⟩

/-- `k0` computes less than `k`. -/
def Below (U : Uni) (k0 k : List FC → Option (List FC)) : Prop :=
  ∀ l0 l x, k l = some x → Sub U l0 l → ∃ x0, k0 l0 = some x0 ∧ Sub U x0 x

/-- `k` keeps what it is given. -/
def Keeps (U : Uni) (k : List FC → Option (List FC)) : Prop := ∀ l x, k l = some x → Sub U l x

theorem below_some {k : List FC → Option (List FC)} (h : Keeps U k) : Below U some k := by
  intro l0 l x hx hl
  exact ⟨l0, rfl, hl.trans (h l x hx)⟩

mutual
theorem firstRe_keeps : ∀ (r : Re) {k : List FC → Option (List FC)}, Keeps U k → Keeps U (fun l => firstRe k l r)
  | .cc c, k, hk, l, x, h => by
    simp only [firstRe, Option.some.injEq] at h; subst h
    cases c <;> simp only [firstCC] <;> first | exact sub_append _ _ | exact sub_anything _
  | .any, k, hk, l, x, h => by simp only [firstRe, Option.some.injEq] at h; subst h; exact sub_anything _
  | .str [], k, hk, l, x, h => by simp only [firstRe] at h; exact hk l x h
  | .str (c :: cs), k, hk, l, x, h => by
    simp only [firstRe, Option.some.injEq] at h; subst h; exact sub_append _ _
  | .sel opts, k, hk, l, x, h => by simp only [firstRe] at h; exact firstSel_keeps opts hk l x h
  | .seq m, k, hk, l, x, h => by simp only [firstRe] at h; exact firstSeq_keeps m hk l x h
  | .empty, k, hk, l, x, h => by simp only [firstRe] at h; exact hk l x h
  | .rep kind a b m, k, hk, l, x, h => by
    simp only [firstRe] at h
    split at h
    · split at h
      · cases h1 : firstSeq k l m with
        | none => simp [h1] at h
        | some l' => simp only [h1] at h; exact (firstSeq_keeps m hk l l' h1).trans (hk l' x h)
      · cases h1 : k l with
        | none => simp [h1] at h
        | some l' => simp only [h1] at h; exact (hk l l' h1).trans (firstSeq_keeps m hk l' x h)
    · exact firstSeq_keeps m hk l x h
  | .cap _ _ m, k, hk, l, x, h => by simp only [firstRe] at h; exact firstSeq_keeps m hk l x h
  | .bref _, k, hk, l, x, h => by simp only [firstRe, Option.some.injEq] at h; subst h; exact sub_anything _
  | .brefName _, k, hk, l, x, h => by simp only [firstRe, Option.some.injEq] at h; subst h; exact sub_anything _
  | .ahead _ _, k, hk, l, x, h => by simp only [firstRe, Option.some.injEq] at h; subst h; exact sub_anything _
  | .behind _ _, k, hk, l, x, h => by simp only [firstRe, Option.some.injEq] at h; subst h; exact sub_anything _
  | .atomic m, k, hk, l, x, h => by simp only [firstRe] at h; exact firstSeq_keeps m hk l x h
  | .boundary _, k, hk, l, x, h => by simp only [firstRe] at h; exact hk l x h
  | .notBoundary _, k, hk, l, x, h => by simp [firstRe] at h
  | .sBegin, k, hk, l, x, h => by simp only [firstRe] at h; exact hk l x h
  | .sEnd, k, hk, l, x, h => by simp only [firstRe, Option.some.injEq] at h; subst h; exact Sub.refl _
  | .sEndLine, k, hk, l, x, h => by simp only [firstRe, Option.some.injEq] at h; subst h; exact Sub.refl _
  | .lBegin, k, hk, l, x, h => by simp only [firstRe] at h; exact hk l x h
  | .lEnd, k, hk, l, x, h => by simp only [firstRe, Option.some.injEq] at h; subst h; exact Sub.refl _
  | .mode _, k, hk, l, x, h => by simp [firstRe] at h
  | .reject _, k, hk, l, x, h => by simp [firstRe] at h

theorem firstSeq_keeps : ∀ (m : List Re) {k : List FC → Option (List FC)}, Keeps U k → Keeps U (fun l => firstSeq k l m)
  | [], k, hk, l, x, h => by simp only [firstSeq] at h; exact hk l x h
  | r :: m, k, hk, l, x, h => by
    simp only [firstSeq] at h
    exact firstRe_keeps r (firstSeq_keeps m hk) l x h

theorem firstSel_keeps : ∀ (m : List Re) {k : List FC → Option (List FC)}, Keeps U k → Keeps U (fun l => firstSel k l m)
  | [], k, hk, l, x, h => by simp only [firstSel, Option.some.injEq] at h; subst h; exact Sub.refl _
  | r :: m, k, hk, l, x, h => by
    simp only [firstSel] at h
    cases h1 : firstRe k l r with
    | none => simp [h1] at h
    | some l' =>
      simp only [h1] at h
      exact (firstRe_keeps r hk l l' h1).trans (firstSel_keeps m hk l' x h)
end

mutual
theorem firstRe_below : ∀ (r : Re) {k0 k : List FC → Option (List FC)}, Below U k0 k →
    Below U (fun l => firstRe k0 l r) (fun l => firstRe k l r)
  | .cc c, k0, k, hk, l0, l, x, h, hl => by
    simp only [firstRe, Option.some.injEq] at h; subst h
    exact ⟨_, rfl, firstCC_sub hl c⟩
  | .any, k0, k, hk, l0, l, x, h, hl => by
    simp only [firstRe, Option.some.injEq] at h; subst h; exact ⟨_, rfl, Sub.refl _⟩
  | .str [], k0, k, hk, l0, l, x, h, hl => by simp only [firstRe] at h ⊢; exact hk l0 l x h hl
  | .str (c :: cs), k0, k, hk, l0, l, x, h, hl => by
    simp only [firstRe, Option.some.injEq] at h; subst h; exact ⟨_, rfl, hl.append _⟩
  | .sel opts, k0, k, hk, l0, l, x, h, hl => by simp only [firstRe] at h ⊢; exact firstSel_below opts hk l0 l x h hl
  | .seq m, k0, k, hk, l0, l, x, h, hl => by simp only [firstRe] at h ⊢; exact firstSeq_below m hk l0 l x h hl
  | .empty, k0, k, hk, l0, l, x, h, hl => by simp only [firstRe] at h ⊢; exact hk l0 l x h hl
  | .rep kind a b m, k0, k, hk, l0, l, x, h, hl => by
    simp only [firstRe] at h ⊢
    by_cases ha : a = 0
    · rw [if_pos ha] at h ⊢
      by_cases hb : b = 1 ∧ kind ≠ .poss
      · rw [if_pos hb] at h ⊢
        cases h1 : firstSeq k l m with
        | none => simp [h1] at h
        | some l' =>
          simp only [h1] at h
          obtain ⟨l0', e1, s1⟩ := firstSeq_below m hk l0 l l' h1 hl
          dsimp only at e1
          simp only [e1]
          exact hk l0' l' x h s1
      · rw [if_neg hb] at h ⊢
        cases h1 : k l with
        | none => simp [h1] at h
        | some l' =>
          simp only [h1] at h
          obtain ⟨l0', e1, s1⟩ := hk l0 l l' h1 hl
          simp only [e1]
          exact firstSeq_below m hk l0' l' x h s1
    · rw [if_neg ha] at h ⊢
      exact firstSeq_below m hk l0 l x h hl
  | .cap _ _ m, k0, k, hk, l0, l, x, h, hl => by simp only [firstRe] at h ⊢; exact firstSeq_below m hk l0 l x h hl
  | .bref _, k0, k, hk, l0, l, x, h, hl => by
    simp only [firstRe, Option.some.injEq] at h; subst h; exact ⟨_, rfl, Sub.refl _⟩
  | .brefName _, k0, k, hk, l0, l, x, h, hl => by
    simp only [firstRe, Option.some.injEq] at h; subst h; exact ⟨_, rfl, Sub.refl _⟩
  | .ahead _ _, k0, k, hk, l0, l, x, h, hl => by
    simp only [firstRe, Option.some.injEq] at h; subst h; exact ⟨_, rfl, Sub.refl _⟩
  | .behind _ _, k0, k, hk, l0, l, x, h, hl => by
    simp only [firstRe, Option.some.injEq] at h; subst h; exact ⟨_, rfl, Sub.refl _⟩
  | .atomic m, k0, k, hk, l0, l, x, h, hl => by simp only [firstRe] at h ⊢; exact firstSeq_below m hk l0 l x h hl
  | .boundary _, k0, k, hk, l0, l, x, h, hl => by simp only [firstRe] at h ⊢; exact hk l0 l x h hl
  | .notBoundary _, k0, k, hk, l0, l, x, h, hl => by simp [firstRe] at h
  | .sBegin, k0, k, hk, l0, l, x, h, hl => by simp only [firstRe] at h ⊢; exact hk l0 l x h hl
  | .sEnd, k0, k, hk, l0, l, x, h, hl => by
    simp only [firstRe, Option.some.injEq] at h; subst h; exact ⟨_, rfl, hl⟩
  | .sEndLine, k0, k, hk, l0, l, x, h, hl => by
    simp only [firstRe, Option.some.injEq] at h; subst h; exact ⟨_, rfl, hl⟩
  | .lBegin, k0, k, hk, l0, l, x, h, hl => by simp only [firstRe] at h ⊢; exact hk l0 l x h hl
  | .lEnd, k0, k, hk, l0, l, x, h, hl => by
    simp only [firstRe, Option.some.injEq] at h; subst h; exact ⟨_, rfl, hl⟩
  | .mode _, k0, k, hk, l0, l, x, h, hl => by simp [firstRe] at h
  | .reject _, k0, k, hk, l0, l, x, h, hl => by simp [firstRe] at h

theorem firstSeq_below : ∀ (m : List Re) {k0 k : List FC → Option (List FC)}, Below U k0 k →
    Below U (fun l => firstSeq k0 l m) (fun l => firstSeq k l m)
  | [], k0, k, hk, l0, l, x, h, hl => by simp only [firstSeq] at h ⊢; exact hk l0 l x h hl
  | r :: m, k0, k, hk, l0, l, x, h, hl => by
    simp only [firstSeq] at h ⊢
    exact firstRe_below r (firstSeq_below m hk) l0 l x h hl

theorem firstSel_below : ∀ (m : List Re) {k0 k : List FC → Option (List FC)}, Below U k0 k →
    Below U (fun l => firstSel k0 l m) (fun l => firstSel k l m)
  | [], k0, k, hk, l0, l, x, h, hl => by
    simp only [firstSel, Option.some.injEq] at h; subst h; exact ⟨_, rfl, hl⟩
  | r :: m, k0, k, hk, l0, l, x, h, hl => by
    simp only [firstSel] at h ⊢
    cases h1 : firstRe k l r with
    | none => simp [h1] at h
    | some l' =>
      simp only [h1] at h
      obtain ⟨l0', e1, s1⟩ := firstRe_below r hk l0 l l' h1 hl
      dsimp only at e1
      simp only [e1]
      exact firstSel_below m hk l0' l' x h s1
end

theorem first_items (m : List Re) (t : Stack) : ∀ l, first (items m t) l = firstSeq (first t) l m := by
  induction m with
  | nil => intro l; simp [items, firstSeq]
  | cons r m ih =>
    intro l
    simp only [items, List.map_cons, List.cons_append, first, firstSeq] at *
    congr 1
    funext l'
    exact ih l'

theorem first_keeps (t : Stack) : Keeps U (first t) := by
  induction t with
  | nil => intro l x h; simp only [first, Option.some.injEq] at h; subst h; exact Sub.refl _
  | cons i t ih =>
    intro l x h
    cases i with
    | re r => simp only [first] at h; exact firstRe_keeps r ih l x h
    | numMark id => simp only [first] at h; exact ih l x h
    | startMark => simp [first] at h
    | endBehind => simp [first] at h
    | _ => simp only [first, Option.some.injEq] at h; subst h; exact Sub.refl _

theorem first_body {m : List Re} {k : List FC → Option (List FC)} (hk : ∀ U, Keeps U k) {l x : List FC}
    (h : firstSeq k l m = some x) : ∃ y, first (items m [.endCycle]) [] = some y ∧ ∀ U, Sub U y x := by
  have key := fun U => firstSeq_below (U := U) m (below_some (hk U)) [] l x h (by rintro v ⟨_, h, _⟩; simp at h)
  obtain ⟨y, h1, _⟩ := key (fun _ _ => false)
  refine ⟨y, by rw [first_items]; exact h1, fun U => ?_⟩
  obtain ⟨y', h2, h3⟩ := key U
  obtain rfl : y' = y := Option.some.inj (h2.symm.trans h1)
  exact h3

/-! ### Sane lists -/

/-- Only sane entries. -/
def Sane (l : List FC) : Prop := ∀ x ∈ l, x.sane = true

theorem Sane.append {l m : List FC} (h : Sane l) (h' : Sane m) : Sane (l ++ m) := by
  intro x hx
  rcases List.mem_append.1 hx with hx | hx
  · exact h x hx
  · exact h' x hx

theorem sane_anything : Sane [.anything] := by
  intro x hx
  simp only [List.mem_singleton] at hx
  subst hx; rfl

theorem saneCCs_mem : ∀ {m : List CC}, saneCCs m = true → ∀ c ∈ m, c.sane = true
  | [], _, c, hc => by simp at hc
  | d :: m, h, c, hc => by
    simp only [saneCCs, Bool.and_eq_true] at h
    rcases List.mem_cons.1 hc with rfl | hc
    · exact h.1
    · exact saneCCs_mem h.2 c hc

theorem firstCC_sane {l : List FC} {c : CC} (h : Sane l) (hc : c.sane = true) : Sane (firstCC l c) := by
  have one : ∀ c : CC, c.sane = true → Sane [.cc c] := by
    intro c hc x hx
    simp only [List.mem_singleton] at hx
    subst hx; exact hc
  cases c with
  | chr c => exact h.append (one _ hc)
  | range a b => exact h.append (one _ hc)
  | enum cs =>
    refine h.append ?_
    intro x hx
    obtain ⟨c, h1, rfl⟩ := List.mem_map.1 hx
    simp only [CC.sane, List.all_eq_true] at hc
    exact hc c h1
  | set m =>
    refine h.append ?_
    intro x hx
    obtain ⟨c, h1, rfl⟩ := List.mem_map.1 hx
    simp only [CC.sane] at hc
    exact saneCCs_mem hc c h1
  | negSet m => exact h.append (one _ hc)
  | negate m => exact h.append (one (.negSet m) hc)
  | prop p => exact sane_anything

/-- `k` keeps lists sane. -/
def KSane (k : List FC → Option (List FC)) : Prop := ∀ l x, Sane l → k l = some x → Sane x

mutual
theorem firstRe_sane {ml : Bool} : ∀ (r : Re) {M K : Bool} {k : List FC → Option (List FC)}, r.steady ml M K = true → KSane k →
    KSane (fun l => firstRe k l r)
  | .cc c, M, K, k, hr, hk, l, x, hl, h => by
    simp only [firstRe, Option.some.injEq] at h; subst h
    exact firstCC_sane hl hr
  | .any, M, K, k, hr, hk, l, x, hl, h => by simp only [firstRe, Option.some.injEq] at h; subst h; exact sane_anything
  | .str [], M, K, k, hr, hk, l, x, hl, h => by simp only [firstRe] at h; exact hk l x hl h
  | .str (c :: cs), M, K, k, hr, hk, l, x, hl, h => by
    simp only [firstRe, Option.some.injEq] at h; subst h
    refine hl.append ?_
    intro x hx
    simp only [List.mem_singleton] at hx
    subst hx
    simp only [Re.steady, List.all_cons, Bool.and_eq_true] at hr
    exact hr.1
  | .sel opts, M, K, k, hr, hk, l, x, hl, h => by
    simp only [firstRe] at h; exact firstSel_sane opts (by simpa only [Re.steady] using hr) hk l x hl h
  | .seq m, M, K, k, hr, hk, l, x, hl, h => by
    simp only [firstRe] at h; exact firstSeq_sane m (by simpa only [Re.steady] using hr) hk l x hl h
  | .empty, M, K, k, hr, hk, l, x, hl, h => by simp only [firstRe] at h; exact hk l x hl h
  | .rep kind a b m, M, K, k, hr, hk, l, x, hl, h => by
    simp only [Re.steady, Bool.and_eq_true] at hr
    simp only [firstRe] at h
    split at h
    · split at h
      · cases h1 : firstSeq k l m with
        | none => simp [h1] at h
        | some l' => simp only [h1] at h; exact hk l' x (firstSeq_sane m hr.2 hk l l' hl h1) h
      · cases h1 : k l with
        | none => simp [h1] at h
        | some l' => simp only [h1] at h; exact firstSeq_sane m hr.2 hk l' x (hk l l' hl h1) h
    · exact firstSeq_sane m hr.2 hk l x hl h
  | .cap _ _ m, M, K, k, hr, hk, l, x, hl, h => by
    simp only [firstRe] at h; exact firstSeq_sane m (by simpa only [Re.steady] using hr) hk l x hl h
  | .bref _, M, K, k, hr, hk, l, x, hl, h => by simp only [firstRe, Option.some.injEq] at h; subst h; exact sane_anything
  | .brefName _, M, K, k, hr, hk, l, x, hl, h => by simp only [firstRe, Option.some.injEq] at h; subst h; exact sane_anything
  | .ahead _ _, M, K, k, hr, hk, l, x, hl, h => by simp only [firstRe, Option.some.injEq] at h; subst h; exact sane_anything
  | .behind _ _, M, K, k, hr, hk, l, x, hl, h => by simp only [firstRe, Option.some.injEq] at h; subst h; exact sane_anything
  | .atomic m, M, K, k, hr, hk, l, x, hl, h => by
    simp only [Re.steady, Bool.and_eq_true] at hr
    simp only [firstRe] at h; exact firstSeq_sane m hr.2 hk l x hl h
  | .boundary _, M, K, k, hr, hk, l, x, hl, h => by simp only [firstRe] at h; exact hk l x hl h
  | .notBoundary _, M, K, k, hr, hk, l, x, hl, h => by simp [firstRe] at h
  | .sBegin, M, K, k, hr, hk, l, x, hl, h => by simp only [firstRe] at h; exact hk l x hl h
  | .sEnd, M, K, k, hr, hk, l, x, hl, h => by simp only [firstRe, Option.some.injEq] at h; subst h; exact hl
  | .sEndLine, M, K, k, hr, hk, l, x, hl, h => by simp only [firstRe, Option.some.injEq] at h; subst h; exact hl
  | .lBegin, M, K, k, hr, hk, l, x, hl, h => by simp only [firstRe] at h; exact hk l x hl h
  | .lEnd, M, K, k, hr, hk, l, x, hl, h => by simp only [firstRe, Option.some.injEq] at h; subst h; exact hl
  | .mode _, M, K, k, hr, hk, l, x, hl, h => by simp [firstRe] at h
  | .reject _, M, K, k, hr, hk, l, x, hl, h => by simp [firstRe] at h

theorem firstSeq_sane {ml : Bool} : ∀ (m : List Re) {M K : Bool} {k : List FC → Option (List FC)},
    steadyAll ml M K m = true → KSane k → KSane (fun l => firstSeq k l m)
  | [], M, K, k, hr, hk, l, x, hl, h => by simp only [firstSeq] at h; exact hk l x hl h
  | r :: m, M, K, k, hr, hk, l, x, hl, h => by
    simp only [steadyAll, Bool.and_eq_true] at hr
    simp only [firstSeq] at h
    exact firstRe_sane r hr.1 (firstSeq_sane m hr.2 hk) l x hl h

theorem firstSel_sane {ml : Bool} : ∀ (m : List Re) {M K : Bool} {k : List FC → Option (List FC)},
    steadyEach ml M K m = true → KSane k → KSane (fun l => firstSel k l m)
  | [], M, K, k, hr, hk, l, x, hl, h => by simp only [firstSel, Option.some.injEq] at h; subst h; exact hl
  | r :: m, M, K, k, hr, hk, l, x, hl, h => by
    simp only [steadyEach, Bool.and_eq_true] at hr
    simp only [firstSel] at h
    cases h1 : firstRe k l r with
    | none => simp [h1] at h
    | some l' =>
      simp only [h1] at h
      exact firstSel_sane m hr.2 hk l' x (firstRe_sane r hr.1 hk l l' hl h1) h
end

end Ctre
