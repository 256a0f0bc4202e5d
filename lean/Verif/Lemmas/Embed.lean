import Verif.Spec.Within
import Verif.Lemmas.Inner
import Verif.Lemmas.SurfaceFirm

/-
The ways of a text that looks only at what it matches, on a part of a subject and on the whole of it.
-/
namespace Ctre.Parse
open Surface
variable {E : Env} {u v w : List Ch}

theorem flatMap_cong {α β : Type} {l : List α} {f g : α → List β} (h : ∀ x ∈ l, f x = g x) : l.flatMap f = l.flatMap g := by
  induction l with
  | nil => rfl
  | cons a l ih => rw [List.flatMap_cons, List.flatMap_cons, h a (by simp), ih fun x hx => h x (by simp [hx])]

/-- The ways that do not go beyond `L`. -/
def upTo (L : Nat) (l : List MState) : List MState := l.filter fun τ => Decidable.decide (τ.pos ≤ L)

/-- `g'` does on the whole subject `u ++ v ++ w` what `g` does on the part `v`, and in the same order. -/
structure Lifts (u v w : List Ch) (g g' : MState → List MState) : Prop where
  eq : ∀ σ, σ.Fit → σ.pos ≤ v.length → (g σ).map (MState.up u.length) = upTo (v.length + u.length) (g' (σ.up u.length))
  fit : ∀ σ τ, σ.Fit → σ.pos ≤ v.length → τ ∈ g σ → τ.Fit ∧ σ.pos ≤ τ.pos ∧ τ.pos ≤ v.length
  fwd : ∀ σ τ, τ ∈ g' σ → MFwd (u ++ v ++ w) σ τ

theorem upTo_append (L : Nat) (l m : List MState) : upTo L (l ++ m) = upTo L l ++ upTo L m := List.filter_append ..

theorem upTo_flatMap {L : Nat} {h : MState → List MState} {l : List MState}
    (hf : ∀ ρ ∈ l, L < ρ.pos → upTo L (h ρ) = []) : upTo L (l.flatMap h) = (upTo L l).flatMap fun ρ => upTo L (h ρ) := by
  induction l with
  | nil => rfl
  | cons a l ih =>
    rw [List.flatMap_cons, upTo_append, ih fun ρ hρ => hf ρ (by simp [hρ])]
    by_cases ha : a.pos ≤ L
    · simp only [upTo, List.filter_cons, ha, decide_true, if_true, List.flatMap_cons]
    · rw [hf a (by simp) (by omega)]
      simp only [upTo, List.filter_cons, ha, decide_false, Bool.false_eq_true, if_false, List.nil_append]

theorem Lifts.comp {g g' h h' : MState → List MState} (hg : Lifts u v w g g') (hh : Lifts u v w h h') :
    Lifts u v w (fun σ => (g σ).flatMap h) (fun σ => (g' σ).flatMap h') where
  eq σ hσ hp := by
    have hin : ∀ ρ ∈ g' (σ.up u.length), ρ.pos ≤ (u ++ v ++ w).length := fun ρ hρ =>
      (hg.fwd _ _ hρ (by simp only [MState.up, List.length_append]; omega)).2
    rw [upTo_flatMap, ← hg.eq σ hσ hp, List.map_flatMap, List.flatMap_map]
    · refine flatMap_cong fun ρ hρ => ?_
      have := hg.fit σ ρ hσ hp hρ
      exact hh.eq ρ this.1 this.2.2
    · intro ρ hρ hlt
      refine List.filter_eq_nil_iff.2 fun τ hτ => ?_
      have := (hh.fwd _ _ hτ (hin ρ hρ)).1
      simp only [decide_eq_true_eq]
      omega
  fit σ τ hσ hp hτ := by
    obtain ⟨ρ, h1, h2⟩ := List.mem_flatMap.1 hτ
    have a := hg.fit σ ρ hσ hp h1
    have b := hh.fit ρ τ a.1 a.2.2 h2
    exact ⟨b.1, by omega, b.2.2⟩
  fwd σ τ hτ := by
    obtain ⟨ρ, h1, h2⟩ := List.mem_flatMap.1 hτ
    intro hp
    have a := hg.fwd σ ρ h1 hp
    have b := hh.fwd ρ τ h2 a.2
    omega

theorem Lifts.append {g g' h h' : MState → List MState} (hg : Lifts u v w g g') (hh : Lifts u v w h h') :
    Lifts u v w (fun σ => g σ ++ h σ) (fun σ => g' σ ++ h' σ) where
  eq σ hσ hp := by rw [List.map_append, upTo_append, hg.eq σ hσ hp, hh.eq σ hσ hp]
  fit σ τ hσ hp hτ := (List.mem_append.1 hτ).elim (hg.fit σ τ hσ hp) (hh.fit σ τ hσ hp)
  fwd σ τ hτ := (List.mem_append.1 hτ).elim (hg.fwd σ τ) (hh.fwd σ τ)

theorem Lifts.stay : Lifts u v w (fun σ => [σ]) (fun σ => [σ]) where
  eq σ hσ hp := by simp [upTo, MState.up, hp]
  fit σ τ hσ hp hτ := by simp only [List.mem_singleton] at hτ; subst hτ; exact ⟨hσ, Nat.le_refl _, hp⟩
  fwd σ τ hτ := by simp only [List.mem_singleton] at hτ; subst hτ; exact mfwd_same rfl

theorem Lifts.never : Lifts u v w (fun _ => []) (fun _ => []) where
  eq σ hσ hp := rfl
  fit σ τ hσ hp hτ := by simp at hτ
  fwd σ τ hτ := by simp at hτ

/-- Afterwards something is done that changes neither the position nor the end of a group to come. -/
theorem Lifts.post {g g' : MState → List MState} (hg : Lifts u v w g g') {m m' : MState → MState → MState}
    (hm : ∀ σ ρ, MState.up u.length (m σ ρ) = m' (σ.up u.length) (ρ.up u.length)) (h0 : ∀ σ ρ, (m' σ ρ).pos = ρ.pos)
    (hf : ∀ σ ρ, σ.pos ≤ ρ.pos → ρ.Fit → (m σ ρ).Fit) (h1 : ∀ σ ρ, (m σ ρ).pos = ρ.pos) :
    Lifts u v w (fun σ => (g σ).map (m σ)) (fun σ => (g' σ).map (m' σ)) where
  eq σ hσ hp := by
    have : upTo (v.length + u.length) ((g' (σ.up u.length)).map (m' (σ.up u.length))) =
        (upTo (v.length + u.length) (g' (σ.up u.length))).map (m' (σ.up u.length)) := by
      simp only [upTo, List.filter_map]
      congr 2
      funext ρ
      simp [h0]
    rw [this, ← hg.eq σ hσ hp]
    simp [Function.comp_def, hm]
  fit σ τ hσ hp hτ := by
    obtain ⟨ρ, h2, rfl⟩ := List.mem_map.1 hτ
    have := hg.fit σ ρ hσ hp h2
    rw [h1]
    exact ⟨hf σ ρ this.2.1 this.1, this.2⟩
  fwd σ τ hτ := by
    obtain ⟨ρ, h2, rfl⟩ := List.mem_map.1 hτ
    exact (hg.fwd σ ρ h2).of rfl (h0 _ _)

theorem Lifts.step (p : Bool → Bool → Ch → Bool) :
    Lifts u v w (fun σ => stepIf (p σ.multiline σ.caseless) v σ) (fun σ => stepIf (p σ.multiline σ.caseless) (u ++ v ++ w) σ) where
  eq σ hσ hp := by
    unfold stepIf
    have hup : (σ.up u.length).pos = σ.pos + u.length := rfl
    rw [hup]
    rcases Nat.lt_or_ge σ.pos v.length with hlt | hge
    · rw [at_inner hlt]
      rw [List.getElem?_eq_getElem hlt]
      simp only
      split
      · rename_i hc
        rw [if_pos (show p (σ.up u.length).multiline (σ.up u.length).caseless _ = true from hc)]
        simp only [List.map_cons, List.map_nil, upTo]
        rw [List.filter_cons_of_pos (by simp; omega), List.filter_nil]
        exact congrArg (fun x => [x]) (up_step σ u.length 1)
      · rename_i hc
        rw [if_neg (show ¬ p (σ.up u.length).multiline (σ.up u.length).caseless _ = true from hc)]
        rfl
    · rw [List.getElem?_eq_none hge]
      symm
      refine List.filter_eq_nil_iff.2 fun τ hτ => ?_
      obtain ⟨_, _, _, rfl⟩ := stepIf_mem (p := p (σ.up u.length).multiline (σ.up u.length).caseless) (s := u ++ v ++ w) (σ := σ.up u.length) hτ
      rw [decide_eq_true_eq]
      show ¬ (σ.pos + u.length + 1 ≤ v.length + u.length)
      omega
  fit σ τ hσ hp hτ := by
    obtain ⟨x, hx, _, rfl⟩ := stepIf_mem hτ
    have := (List.getElem?_eq_some_iff.1 hx).1
    exact ⟨hσ.step 1, by show σ.pos ≤ σ.pos + 1; omega, by show σ.pos + 1 ≤ _; omega⟩
  fwd σ τ hτ := stepIf_fwd hτ

theorem Lifts.again (id : Nat) : Lifts u v w (fun σ => waysAgain v σ id) (fun σ => waysAgain (u ++ v ++ w) σ id) where
  eq σ hσ hp := by
    unfold waysAgain
    have hc : (σ.up u.length).cap id = (σ.cap id).map fun x => (x.1 + u.length, x.2 + u.length) := rfl
    rw [hc]
    cases hi : σ.cap id with
    | none => rfl
    | some x =>
      obtain ⟨b, e⟩ := x
      have he := hσ id b e hi
      simp only [Option.map_some]
      have hup : (σ.up u.length).pos = σ.pos + u.length := rfl
      rw [hup, show e + u.length - (b + u.length) = e - b by omega]
      by_cases hlt : σ.pos + (e - b) ≤ v.length
      · have t1 : text (u ++ v ++ w) (b + u.length) (e + u.length) = text v b e := text_inner (by omega)
        have t2 : text (u ++ v ++ w) (σ.pos + u.length) (σ.pos + u.length + (e - b)) = text v σ.pos (σ.pos + (e - b)) := by
          rw [show σ.pos + u.length + (e - b) = σ.pos + (e - b) + u.length by omega]; exact text_inner hlt
        rw [t1, t2]
        by_cases hcond : b ≤ e ∧ σ.pos + (e - b) ≤ v.length ∧ text v b e = text v σ.pos (σ.pos + (e - b))
        · rw [if_pos hcond, if_pos ⟨by omega, by simp only [List.length_append]; omega, hcond.2.2⟩]
          simp only [List.map_cons, List.map_nil, upTo]
          rw [List.filter_cons_of_pos (by simp; omega), List.filter_nil]
          exact congrArg (fun x => [x]) (up_step σ u.length (e - b))
        · rw [if_neg hcond, if_neg (fun h => hcond ⟨by omega, hlt, h.2.2⟩)]
          rfl
      · rw [if_neg (fun h => hlt h.2.1)]
        symm
        refine List.filter_eq_nil_iff.2 fun τ hτ => ?_
        split at hτ
        · simp only [List.mem_singleton] at hτ
          subst hτ
          simp only [decide_eq_true_eq]
          omega
        · simp at hτ
  fit σ τ hσ hp hτ := by
    obtain ⟨b, e, _, h1, h2, _, rfl⟩ := mem_waysAgain hτ
    exact ⟨hσ.step _, by simp only; omega, h2⟩
  fwd σ τ hτ := again_fwd hτ

theorem Lifts.iter {g g' : MState → List MState} (hg : Lifts u v w g g') : Lifts u v w (iteration false g) (iteration false g') :=
  hg.post (m := fun σ ρ => { ρ with multiline := σ.multiline, caseless := σ.caseless }) (m' := fun σ ρ => { ρ with multiline := σ.multiline, caseless := σ.caseless })
    (fun _ _ => rfl) (fun _ _ => rfl) (fun _ _ _ h => h) fun _ _ => rfl

theorem Lifts.times {g g' : MState → List MState} (hg : Lifts u v w g g') : ∀ n, Lifts u v w (Ctre.times g n) (Ctre.times g' n)
  | 0 => Lifts.stay
  | n + 1 => hg.comp (Lifts.times hg n)

theorem Lifts.most {g g' : MState → List MState} (hg : Lifts u v w g g') : ∀ n, Lifts u v w (Ctre.most g n) (Ctre.most g' n)
  | 0 => Lifts.stay
  | n + 1 => (hg.comp (Lifts.most hg n)).append Lifts.stay

theorem Lifts.fewest {g g' : MState → List MState} (hg : Lifts u v w g g') : ∀ n, Lifts u v w (Ctre.fewest g n) (Ctre.fewest g' n)
  | 0 => Lifts.stay
  | n + 1 => Lifts.stay.append (g := fun σ => [σ]) (hg.comp (Lifts.fewest hg n))

theorem Lifts.congr {g g' h h' : MState → List MState} (hg : Lifts u v w g g') (e : ∀ σ, σ.pos ≤ v.length → h σ = g σ)
    (e' : ∀ σ, h' σ = g' σ) : Lifts u v w h h' where
  eq σ hσ hp := by rw [e σ hp, e']; exact hg.eq σ hσ hp
  fit σ τ hσ hp hτ := hg.fit σ τ hσ hp (e σ hp ▸ hτ)
  fwd σ τ hτ := hg.fwd σ τ (e' σ ▸ hτ)

theorem Lifts.quant {g g' : MState → List MState} (hg : Lifts u v w g g') (q : Quant) (hk : q.kind ≠ .poss)
    (hlt : ∀ σ τ, σ.pos ≤ v.length → τ ∈ g σ → σ.pos < τ.pos ∧ τ.pos ≤ v.length) :
    Lifts u v w (fun σ => q.ways g v.length σ) (fun σ => q.ways g' (u ++ v ++ w).length σ) := by
  have hI : ∀ x y : MState, x.pos ≤ v.length → y ∈ g x → y.pos ≤ v.length ∧ v.length - y.pos < v.length - x.pos := by
    intro x y hx hy
    have := hlt x y hx hy
    omega
  have ht : ∀ n (x y : MState), x.pos ≤ v.length → y ∈ Ctre.times g n x → y.pos ≤ v.length := by
    intro n
    induction n with
    | zero => intro x y hx hy; simp only [Ctre.times, List.mem_singleton] at hy; subst hy; exact hx
    | succ n ih =>
      intro x y hx hy
      obtain ⟨z, h1, h2⟩ := List.mem_flatMap.1 hy
      exact ih z y (hlt x z hx h1).2 h2
  have hr : ∀ σ : MState, σ.pos ≤ v.length → q.ways g v.length σ = q.ways g (u ++ v ++ w).length σ := by
    intro σ hσ
    have hx : q.extra v.length = q.extra (u ++ v ++ w).length ∨ (v.length = q.extra v.length ∧ q.extra (u ++ v ++ w).length = (u ++ v ++ w).length) := by
      cases q <;> simp [Quant.extra]
    rcases hx with hx | ⟨hx, hy⟩
    · unfold Quant.ways; rw [hx]
    · unfold Quant.ways
      rw [hy, ← hx]
      split
      · refine flatMap_cong fun z hz => (fewest_room (I := fun x : MState => x.pos ≤ v.length) (μ := fun x : MState => v.length - x.pos) hI _ _ z
          (ht _ _ _ hσ hz) ?_ ?_) <;> (try simp only [List.length_append]) <;> omega
      · refine flatMap_cong fun z hz => (most_room (I := fun x : MState => x.pos ≤ v.length) (μ := fun x : MState => v.length - x.pos) hI _ _ z
          (ht _ _ _ hσ hz) ?_ ?_) <;> (try simp only [List.length_append]) <;> omega
      · rename_i h; exact (hk h).elim
  cases hkk : q.kind with
  | «lazy» =>
    refine ((hg.times q.low).comp (hg.fewest (q.extra (u ++ v ++ w).length))).congr (fun σ hσ => ?_) (fun σ => ?_)
    · rw [hr σ hσ]; unfold Quant.ways; simp only [hkk]
    · unfold Quant.ways; simp only [hkk]
  | greedy =>
    refine ((hg.times q.low).comp (hg.most (q.extra (u ++ v ++ w).length))).congr (fun σ hσ => ?_) (fun σ => ?_)
    · rw [hr σ hσ]; unfold Quant.ways; simp only [hkk]
    · unfold Quant.ways; simp only [hkk]
  | poss => exact (hk hkk).elim

theorem fit_setCap {ρ : MState} (h : ρ.Fit) (id b : Nat) : (ρ.setCap id b ρ.pos).Fit := by
  intro i x y hc
  simp only [MState.setCap] at hc ⊢
  split at hc
  · simp only [Option.some.injEq, Prod.mk.injEq] at hc; omega
  · exact h i x y hc

theorem up_setCap (ρ : MState) (k id b : Nat) : MState.up k (ρ.setCap id b ρ.pos) = (ρ.up k).setCap id (b + k) (ρ.up k).pos := by
  simp only [MState.up, MState.setCap, MState.mk.injEq, true_and]
  funext i
  by_cases hi : i = id <;> simp [hi]

theorem item_lifts (a : Atom) (q : Quant) (hl : (Decidable.decide (q = .none) || (Decidable.decide (q.kind ≠ .poss) && a.consumes)) = true)
    (ha : Lifts u v w (fun σ => a.ways false E v σ) (fun σ => a.ways false E (u ++ v ++ w) σ)) :
    Lifts u v w (fun σ => (Cat.one a q).ways false E v σ) (fun σ => (Cat.one a q).ways false E (u ++ v ++ w) σ) := by
  by_cases hq : q = .none
  · subst hq; simp only [Cat.ways]; exact ha
  · simp only [hq, decide_false, Bool.false_or, Bool.and_eq_true, decide_eq_true_eq] at hl
    simp only [one_ways hq]
    refine ha.iter.quant q hl.1 fun σ τ hσ hτ => ?_
    obtain ⟨ρ, h1, rfl⟩ := mem_iteration hτ
    have h2 := atom_lt hl.2 hσ h1
    exact ⟨h2, (atom_fwd h1 hσ).2⟩

mutual
theorem atom_lifts : ∀ (a : Atom), a.within = true → a.loose = true →
    Lifts u v w (fun σ => a.ways false E v σ) (fun σ => a.ways false E (u ++ v ++ w) σ)
  | .ch c, _, _ => by
    simp only [Atom.ways]; exact Lifts.step fun _ ci x => (CC.chr c.code).matchChar E.uni ci x
  | .cls c, _, _ => by
    simp only [Atom.ways]; exact Lifts.step fun _ ci x => Decidable.decide (c.has E.uni ci x)
  | .set neg l, _, _ => by
    simp only [Atom.ways]; exact Lifts.step fun _ ci x => Decidable.decide (∃ i ∈ l, i.has E.uni ci x) != neg
  | .dot, _, _ => by
    simp only [Atom.ways]; exact Lifts.step fun ml _ x => !(ml && Decidable.decide (x = 10))
  | .unknown _ _, _, _ => by simp only [Atom.ways]; exact Lifts.never
  | .ref _, _, _ | .refNumber _, _, _ | .refRelative _ _, _, _ => by simp only [Atom.ways]; exact Lifts.again _
  | .refName n, _, _ => by
    simp only [Atom.ways]
    cases E.number n with
    | none => exact Lifts.never
    | some id => exact Lifts.again id
  | .cap id b, h, hl => by
    simp only [Atom.within, Atom.loose] at h hl
    simp only [Atom.ways]
    exact (body_lifts b h hl).post (m := fun σ ρ => ρ.setCap id σ.pos ρ.pos) (m' := fun σ ρ => ρ.setCap id σ.pos ρ.pos)
      (fun σ ρ => up_setCap ρ _ _ _) (fun _ _ => rfl) (fun σ ρ _ h => fit_setCap h _ _) fun _ _ => rfl
  | .named id _ b, h, hl => by
    simp only [Atom.within, Atom.loose] at h hl
    simp only [Atom.ways]
    exact (body_lifts b h hl).post (m := fun σ ρ => ρ.setCap id σ.pos ρ.pos) (m' := fun σ ρ => ρ.setCap id σ.pos ρ.pos)
      (fun σ ρ => up_setCap ρ _ _ _) (fun _ _ => rfl) (fun σ ρ _ h => fit_setCap h _ _) fun _ _ => rfl
  | .group b, h, hl => by
    simp only [Atom.within, Atom.loose] at h hl
    simp only [Atom.ways]
    exact body_lifts b h hl
  | .mode m, _, _ => by
    simp only [Atom.ways]
    exact Lifts.stay.post (g := fun σ => [σ]) (m := fun _ ρ => ρ.setMode m) (m' := fun _ ρ => ρ.setMode m) (fun _ _ => by cases m <;> rfl)
      (fun _ _ => by cases m <;> rfl) (fun _ ρ _ h => by cases m <;> exact h) fun _ _ => by cases m <;> rfl
  | .bol, h, _ | .eol, h, _ | .subjectBegin, h, _ | .subjectEnd, h, _ | .subjectEndLine, h, _ | .wordBoundary, h, _
  | .notWordBoundary, h, _ | .ahead _ _, h, _ | .behind _ _, h, _ => by cases h
  | .atomic _, _, h => by cases h

theorem cat_lifts : ∀ (c : Cat), c.within = true → c.loose = true →
    Lifts u v w (fun σ => c.ways false E v σ) (fun σ => c.ways false E (u ++ v ++ w) σ)
  | .one a q, h, hl => by
    simp only [Cat.within, Cat.loose, Bool.and_eq_true] at h hl
    exact item_lifts a q hl.1 (atom_lifts a h hl.2)
  | .cons a q l, h, hl => by
    simp only [Cat.within, Cat.loose, Bool.and_eq_true] at h hl
    simp only [cons_ways]
    exact (item_lifts a q hl.1.1 (atom_lifts a h.1 hl.1.2)).comp (cat_lifts l h.2 hl.2)

theorem alt_lifts : ∀ (l : Alt), l.within = true → l.loose = true →
    Lifts u v w (fun σ => l.ways false E v σ) (fun σ => l.ways false E (u ++ v ++ w) σ)
  | .empty, _, _ => by simp only [Alt.ways]; exact Lifts.stay
  | .one c, h, hl => by
    simp only [Alt.within, Alt.loose] at h hl
    simp only [Alt.ways]; exact cat_lifts c h hl
  | .bar c l, h, hl => by
    simp only [Alt.within, Alt.loose, Bool.and_eq_true] at h hl
    simp only [Alt.ways]; exact (cat_lifts c h.1 hl.1).append (alt_lifts l h.2 hl.2)

theorem body_lifts : ∀ (b : Body), b.within = true → b.loose = true →
    Lifts u v w (fun σ => b.ways false E v σ) (fun σ => b.ways false E (u ++ v ++ w) σ)
  | .alt l, h, hl => by
    simp only [Body.within, Body.loose] at h hl
    simp only [Body.ways]; exact alt_lifts l h hl
  | .lead l, h, hl => by
    simp only [Body.within, Body.loose] at h hl
    simp only [Body.ways]; exact Lifts.stay.append (g := fun σ => [σ]) (alt_lifts l h hl)
end

end Ctre.Parse
