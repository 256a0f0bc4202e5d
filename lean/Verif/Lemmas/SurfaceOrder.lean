import Verif.Lemmas.FirstSame
import Verif.Lemmas.SurfaceCaps
import Verif.Spec.SurfaceWays

/-
The trees built by the parser have the ways of the syntax trees, in the same order: `body_order`.
-/
namespace Ctre.Parse
open Surface
variable {E : Env}

/-! ### Iterations -/

theorem iteration_le (A : MState → List MState) (σ : MState) : (iteration true A σ).length ≤ 1 := by
  simp only [iteration, if_true, List.length_map, List.length_take]; omega

theorem iteration_mem {A : MState → List MState} {σ τ : MState} (h : τ ∈ iteration true A σ) :
    ∃ ρ ∈ A σ, ρ.pos ≠ σ.pos ∧ τ = { ρ with multiline := σ.multiline, caseless := σ.caseless } := by
  simp only [iteration, if_true, List.mem_map] at h
  obtain ⟨ρ, h1, rfl⟩ := h
  have := List.mem_filter.1 (List.mem_of_mem_take h1)
  exact ⟨ρ, this.1, by simpa using this.2, rfl⟩

theorem iteration_fwd {A : MState → List MState} {s : List Ch} (hA : ∀ σ τ, τ ∈ A σ → MFwd s σ τ) {σ τ : MState}
    (hσ : σ.pos ≤ s.length) (h : τ ∈ iteration true A σ) : τ.pos ≤ s.length ∧ s.length - τ.pos < s.length - σ.pos := by
  obtain ⟨ρ, h1, h2, rfl⟩ := iteration_mem h
  have := hA σ ρ h1 hσ
  simp only
  omega

theorem iteration_congr {A B : MState → List MState} {σ : MState} (h : FirstSame (A σ) (B σ)) : iteration true A σ = iteration true B σ := by
  simp only [iteration, if_true]
  rw [(h.filter _).take_one]

/-- An iteration of an optional part is an iteration of the part. -/
theorem iteration_optional (A : MState → List MState) (k : RepKind) (room : Nat) (σ : MState) :
    iteration true (fun σ => repeats (iteration true A) k 0 1 room σ) σ = iteration true A σ := by
  have hl := iteration_le A σ
  rcases hT : iteration true A σ with _ | ⟨z, _ | ⟨w, T⟩⟩
  · have hrep : repeats (iteration true A) k 0 1 room σ = [σ] := by
      cases k <;> simp [repeats, times, most, fewest, hT]
    rw [iteration]
    simp [hrep]
  · have hz : z ∈ iteration true A σ := by rw [hT]; simp
    obtain ⟨ρ, h1, h2, h3⟩ := iteration_mem hz
    have hp : z.pos ≠ σ.pos := by rw [h3]; exact h2
    have hm : ({ z with multiline := σ.multiline, caseless := σ.caseless } : MState) = z := by rw [h3]
    have hrep : repeats (iteration true A) k 0 1 room σ = match k with
        | .lazy => [σ, z] | .greedy => [z, σ] | .poss => [z] := by
      cases k <;> simp [repeats, times, most, fewest, hT]
    rw [iteration]
    simp only [hrep, if_true]
    cases k <;> simp [hp, hm]
  · rw [hT] at hl; simp at hl

/-! ### Concatenation -/

theorem waysAll_unpack {r : Re} {s : List Ch} {σ : MState} : waysAll true E (unpack r) s σ = r.ways true E s σ := by
  unfold unpack
  split
  · simp only [Re.ways]
  · simp [waysAll]

theorem ways_chr {x : Nat} {s : List Ch} {σ : MState} : (Re.cc (.chr x)).ways true E s σ =
    if inClass E.uni σ.caseless s σ.pos (.chr x) then [{ σ with pos := σ.pos + 1 }] else [] := by
  simp only [Re.ways]

theorem ways_str_cons {x : Nat} {w : List Nat} {s : List Ch} {σ : MState} :
    (Re.str (x :: w)).ways true E s σ = ((Re.cc (.chr x)).ways true E s σ).flatMap fun ρ => (Re.str w).ways true E s ρ := by
  simp only [Re.ways]
  by_cases h : inClass E.uni σ.caseless s σ.pos (.chr x)
  · rw [if_pos h]
    simp only [List.flatMap_cons, List.flatMap_nil, List.append_nil, List.length_cons]
    have : (∀ (i : Nat) (h : i < w.length + 1), inClass E.uni σ.caseless s (σ.pos + i) (.chr (x :: w)[i])) ↔
        ∀ (i : Nat) (h : i < w.length), inClass E.uni σ.caseless s (σ.pos + 1 + i) (.chr w[i]) := by
      constructor
      · intro h' i hi
        have := h' (i + 1) (by omega)
        rw [show σ.pos + 1 + i = σ.pos + (i + 1) by omega]
        simpa using this
      · intro h' i hi
        cases i with
        | zero => simpa using h
        | succ i =>
          have := h' i (by omega)
          rw [show σ.pos + (i + 1) = σ.pos + 1 + i by omega]
          simpa using this
    simp only [this, show σ.pos + 1 + w.length = σ.pos + (w.length + 1) by omega]
  · rw [if_neg h, if_neg]
    · rfl
    · intro h'
      have h0 := h' 0 (by simp)
      rw [List.getElem_cons_zero, Nat.add_zero] at h0
      exact h h0

theorem ways_str_one {y : Nat} {s : List Ch} {σ : MState} : (Re.str [y]).ways true E s σ = (Re.cc (.chr y)).ways true E s σ := by
  rw [ways_str_cons]
  have : ∀ ρ, (Re.str []).ways true E s ρ = [ρ] := by intro ρ; simp [Re.ways]
  simp [this]

theorem ways_seq {a : Re} {l : List Re} {s : List Ch} {σ : MState} :
    (Re.seq (a :: l)).ways true E s σ = (a.ways true E s σ).flatMap fun ρ => (Re.seq l).ways true E s ρ := by
  simp only [Re.ways, waysAll]

theorem combine_ways {k : RepKind} (hk : k ≠ .poss) {a b c d n m : Nat} {l : List Re} {s : List Ch} {σ : MState} (hp : σ.pos ≤ s.length)
    (h1 : BoundOK n a b) (h2 : BoundOK m c d) (hnm : n + m < szMod) :
    FirstSame ((combineRepeat k a b c d l).ways true E s σ)
      (((Re.rep k a b l).ways true E s σ).flatMap fun ρ => (Re.rep k c d l).ways true E s ρ) := by
  have h3 : (a + c) % szMod = a + c := Nat.mod_eq_of_lt (by have := h1.2.1; have := h2.2.1; omega)
  have h4 : combineMax b d = if b ≠ 0 ∧ d ≠ 0 then b + d else 0 := by
    unfold combineMax
    rw [Nat.mod_eq_of_lt (by have := h1.2.2; have := h2.2.2; omega)]
  have h5 : combineRepeat k a b c d l = .rep k (a + c) (if b ≠ 0 ∧ d ≠ 0 then b + d else 0) l := by
    cases k with
    | poss => exact (hk rfl).elim
    | _ => simp only [combineRepeat, h3, h4]
  rw [h5]
  simp only [Re.ways]
  refine (repeats_join (I := fun σ => σ.pos ≤ s.length) (μ := fun σ => s.length - σ.pos) (fun x _ => iteration_le _ x) ?_ ?_ hk h1.1 h2.1 σ hp).symm
  · intro x y hx hy
    exact iteration_fwd (fun _ _ h => waysAll_fwd h) hx hy
  · intro x _; omega

theorem repeats_comm {k : RepKind} (hk : k ≠ .poss) {a b c d n m : Nat} {l : List Re} {s : List Ch} {σ : MState} (hp : σ.pos ≤ s.length)
    (h1 : BoundOK n a b) (h2 : BoundOK m c d) (hnm : n + m < szMod) :
    FirstSame ((combineRepeat k c d a b l).ways true E s σ)
      (((Re.rep k a b l).ways true E s σ).flatMap fun ρ => (Re.rep k c d l).ways true E s ρ) := by
  have : combineRepeat k c d a b l = combineRepeat k a b c d l := by
    cases k with
    | poss => exact (hk rfl).elim
    | _ => simp only [combineRepeat, combineMax, Nat.add_comm c a, Nat.add_comm d b, And.comm (a := d ≠ 0)]
  rw [this]
  exact combine_ways hk hp h1 h2 hnm

theorem makeSequence_ways {b a : Re} {n m : Nat} (ha : LeadOK n a) (hb : LeadOK m b) (hnm : n + m < szMod)
    (hp : ¬ (isPoss a ∧ leadPoss b)) {s : List Ch} {σ : MState} (hσ : σ.pos ≤ s.length) :
    FirstSame ((makeSequence b a).ways true E s σ) ((a.ways true E s σ).flatMap fun ρ => b.ways true E s ρ) := by
  have hone : ∀ (r : Re) (s : List Ch) (σ : MState), (Re.seq [r]).ways true E s σ = r.ways true E s σ := by
    intro r s σ; simp [Re.ways, waysAll]
  unfold makeSequence
  split
  · rw [ways_str_cons]; simp only [ways_str_one]; exact .refl _
  · rw [ways_str_cons]; exact .refl _
  · rw [ways_seq, ways_str_cons, List.flatMap_assoc]
    simp only [ways_seq, ways_str_one]; exact .refl _
  · rw [ways_seq, ways_str_cons, List.flatMap_assoc]
    simp only [ways_seq]; exact .refl _
  · rename_i k minB maxB l k' minA maxA l'
    split
    · rename_i hk
      obtain ⟨rfl, hl⟩ := hk
      have hl := Re.sameList_eq hl
      subst hl
      refine combine_ways ?_ hσ (ha _ _ _ rfl) (hb _ _ _ rfl) hnm
      rintro rfl
      exact hp ⟨⟨_, _, _, rfl⟩, ⟨_, _, rfl⟩⟩
    · rw [ways_seq]; simp only [hone]; exact .refl _
  · rename_i k minB maxB l as k' minA maxA l'
    split
    · rename_i hk
      obtain ⟨rfl, hl⟩ := hk
      have hl := Re.sameList_eq hl
      subst hl
      have hk : k ≠ .poss := by
        rintro rfl
        exact hp ⟨⟨_, _, _, rfl⟩, ⟨_, _, rfl⟩⟩
      rw [ways_seq]
      simp only [ways_seq]
      rw [← List.flatMap_assoc]
      exact (repeats_comm hk hσ (ha _ _ _ rfl) (hb _ _ _ rfl) hnm).flatMap fun _ _ => .refl _
    · rw [ways_seq]; exact .refl _
  · rw [ways_seq]; exact .refl _
  · rw [ways_seq]; simp only [hone]; exact .refl _

theorem makeAlternate_ways {b a : Re} {s : List Ch} {σ : MState} :
    (makeAlternate b a).ways true E s σ = a.ways true E s σ ++ b.ways true E s σ := by
  unfold makeAlternate
  split <;> simp [Re.ways, waysAny]

/-! ### Quantifiers -/

theorem ways_rep {k : RepKind} {a b : Nat} {r : Re} {s : List Ch} {σ : MState} :
    (Re.rep k a b (unpack r)).ways true E s σ = repeats (iteration true fun σ => r.ways true E s σ) k a b s.length σ := by
  simp only [Re.ways, waysAll_unpack]

theorem quant_ways {q : Quant} (hq : q ≠ .none) (h : q.Faithful) {r : Re} (hl : ∀ k, q = .opt k → k ≠ .lazy → ∀ x, r ≠ .rep .lazy 0 1 [x])
    {s : List Ch} {σ : MState} :
    (quantTree q r).ways true E s σ = q.ways (iteration true fun σ => r.ways true E s σ) s.length σ := by
  have hkind : ∀ (k : RepKind) (a b : Nat), (kindTree k (.rep .greedy a b (unpack r))).ways true E s σ =
      repeats (iteration true fun σ => r.ways true E s σ) k a b s.length σ := by
    intro k a b; cases k <;> simp only [kindTree, ways_rep]
  cases q with
  | none => exact (hq rfl).elim
  | opt k =>
    simp only [quantTree]
    have main : (kindTree k (.rep .greedy 0 1 (unpack r))).ways true E s σ =
        (Quant.opt k).ways (iteration true fun σ => r.ways true E s σ) s.length σ := by
      rw [hkind]; cases k <;> simp [repeats, Quant.ways, Quant.kind, Quant.low, Quant.extra]
    have nested : ∀ (j : RepKind) (x : Re), r = .rep j 0 1 [x] → (Re.rep k 0 1 [x]).ways true E s σ =
        (Quant.opt k).ways (iteration true fun σ => r.ways true E s σ) s.length σ := by
      intro j x hr
      have : (iteration true fun σ => r.ways true E s σ) = iteration true fun σ => waysAll true E [x] s σ := by
        funext ρ
        rw [hr]
        simp only [Re.ways]
        exact iteration_optional _ j s.length ρ
      rw [this]
      simp only [Re.ways]
      cases k <;> simp [repeats, Quant.ways, Quant.kind, Quant.low, Quant.extra]
    unfold makeOptional
    split
    · exact main
    · rename_i x
      have := nested .greedy x rfl
      cases k <;> simpa only [kindTree] using this
    · rename_i x
      have := nested .lazy x rfl
      cases k with
      | lazy => simpa only [kindTree] using this
      | greedy => exact (hl _ rfl (by simp) _ rfl).elim
      | poss => exact (hl _ rfl (by simp) _ rfl).elim
    · rename_i h1 h2 h3
      have : unpack r = [r] := by
        unfold unpack; split
        · exact (h1 _ rfl).elim
        · rfl
      rw [← this]; exact main
  | star k =>
    simp only [quantTree, hkind]
    cases k <;> simp [repeats, Quant.ways, Quant.kind, Quant.low, Quant.extra]
  | plus k =>
    simp only [quantTree, hkind]
    cases k <;> simp [repeats, Quant.ways, Quant.kind, Quant.low, Quant.extra]
  | exactly ds =>
    simp only [Quant.Faithful] at h
    have := hkind .greedy (decimal ds) (decimal ds)
    simp only [kindTree] at this
    simp only [quantTree, Nat.mod_eq_of_lt (show decimal ds < szMod by simp only [szMod]; omega), this]
    simp [repeats, Quant.ways, Quant.kind, Quant.low, Quant.extra, show decimal ds ≠ 0 by omega]
  | atLeast ds k =>
    simp only [Quant.Faithful] at h
    simp only [quantTree, Nat.mod_eq_of_lt (show decimal ds < szMod by simp only [szMod]; omega), hkind]
    cases k <;> simp [repeats, Quant.ways, Quant.kind, Quant.low, Quant.extra]
  | between ds es k =>
    simp only [Quant.Faithful] at h
    simp only [quantTree, Nat.mod_eq_of_lt (show decimal ds < szMod by simp only [szMod]; omega),
      Nat.mod_eq_of_lt (show decimal es < szMod by simp only [szMod]; omega), hkind]
    have h1 : ¬ (decimal es ≠ 0 ∧ decimal es < decimal ds) := by omega
    have h2 : decimal es ≠ 0 := by omega
    cases k <;> simp only [repeats, Quant.ways, Quant.kind, Quant.low, Quant.extra, if_neg h1, if_neg h2]

/-! ### Trees that are lazy optionals -/

theorem combine_not_optional {k : RepKind} {a b c d n m : Nat} (h1 : BoundOK n a b) (h2 : BoundOK m c d) (hnm : n + m < szMod) (l : List Re) (x : Re) :
    combineRepeat k a b c d l ≠ .rep .lazy 0 1 [x] := by
  intro h
  cases k with
  | greedy => simp [combineRepeat] at h
  | lazy =>
    simp only [combineRepeat, Re.rep.injEq, true_and] at h
    have h3 := h.2.1
    unfold combineMax at h3
    rw [Nat.mod_eq_of_lt (by have := h1.2.2; have := h2.2.2; omega)] at h3
    split at h3 <;> omega
  | poss =>
    simp only [combineRepeat] at h
    repeat' (split at h)
    all_goals simp at h

theorem makeSequence_not_optional {b a : Re} {n m : Nat} (ha : LeadOK n a) (hb : LeadOK m b) (hnm : n + m < szMod) (x : Re) :
    makeSequence b a ≠ .rep .lazy 0 1 [x] := by
  intro h
  unfold makeSequence at h
  split at h
  · simp at h
  · simp at h
  · simp at h
  · simp at h
  · split at h
    · exact combine_not_optional (ha _ _ _ rfl) (hb _ _ _ rfl) hnm _ x h
    · simp at h
  · split at h <;> simp at h
  · simp at h
  · simp at h

theorem optional_lazy {r : Re} {k : RepKind} (hk : k ≠ .lazy) {x : Re} (h : kindTree k (makeOptional r) = .rep .lazy 0 1 [x]) :
    ∃ y, r = .rep .lazy 0 1 [y] := by
  unfold makeOptional at h
  split at h
  · cases k <;> simp [kindTree] at h hk
  · cases k <;> simp [kindTree] at h hk
  · exact ⟨_, rfl⟩
  · cases k <;> simp [kindTree] at h hk

mutual
theorem lazyOptional_atom : ∀ (a : Atom) {x : Re}, a.Faithful → a.size < szMod → atomTree a = .rep .lazy 0 1 [x] → a.lazyOptional = true
  | .group b, x, h, hs, ht => by
    simp only [Atom.Faithful, Atom.size, atomTree] at h hs ht
    simp only [Atom.lazyOptional]; exact lazyOptional_body b h hs ht
  | .ch _, _, _, _, ht | .cls _, _, _, _, ht | .set _ _, _, _, _, ht | .dot, _, _, _, ht | .bol, _, _, _, ht | .eol, _, _, _, ht
  | .subjectBegin, _, _, _, ht | .subjectEnd, _, _, _, ht | .subjectEndLine, _, _, _, ht | .unknown _ _, _, _, _, ht
  | .wordBoundary, _, _, _, ht | .notWordBoundary, _, _, _, ht | .ref _, _, _, _, ht
  | .refNumber _, _, _, _, ht | .refRelative _ _, _, _, _, ht | .refName _, _, _, _, ht | .cap _ _, _, _, _, ht | .named _ _ _, _, _, _, ht
  | .ahead _ _, _, _, _, ht | .behind _ _, _, _, _, ht | .atomic _, _, _, _, ht | .mode _, _, _, _, ht => by simp [atomTree] at ht

theorem lazyOptional_cat : ∀ (c : Cat) {x : Re}, c.Faithful → c.size < szMod → catTree c = .rep .lazy 0 1 [x] → c.lazyOptional = true
  | .one a q, x, h, hs, ht => by
    simp only [Cat.Faithful, Cat.size, catTree] at h hs ht
    cases q with
    | none =>
      simp only [Cat.lazyOptional]
      exact lazyOptional_atom a h.1 (by omega) (by simpa only [quantTree] using ht)
    | opt k =>
      simp only [Cat.lazyOptional]
      by_cases hk : k = .lazy
      · simp [hk]
      · obtain ⟨y, hy⟩ := optional_lazy hk (by simpa only [quantTree] using ht)
        simp [lazyOptional_atom a h.1 (by omega) hy]
    | star k => cases k <;> simp [quantTree, kindTree] at ht
    | plus k => cases k <;> simp [quantTree, kindTree] at ht
    | exactly ds => simp [quantTree] at ht
    | atLeast ds k => cases k <;> simp [quantTree, kindTree] at ht
    | between ds es k =>
      simp only [Quant.Faithful] at h
      simp only [quantTree, Nat.mod_eq_of_lt (show decimal ds < szMod by simp only [szMod]; omega),
        Nat.mod_eq_of_lt (show decimal es < szMod by simp only [szMod]; omega)] at ht
      cases k <;> simp [kindTree] at ht
      simp [Cat.lazyOptional, ht.1, ht.2.1]
  | .cons a q l, x, h, hs, ht => by
    simp only [Cat.Faithful, Cat.size, catTree] at h hs ht
    have h1 := lead_item (lead_atom a h.1 (by omega)) h.2.1
    have h2 := lead_cat l h.2.2.1 (by omega)
    exact (makeSequence_not_optional h1.1 h2.1 hs x ht).elim

theorem lazyOptional_alt : ∀ (l : Alt) {x : Re}, l.Faithful → l.size < szMod → altTree l = .rep .lazy 0 1 [x] → l.lazyOptional = true
  | .empty, _, _, _, ht => by simp [altTree] at ht
  | .one c, x, h, hs, ht => by
    simp only [Alt.Faithful, Alt.size, altTree] at h hs ht
    simp only [Alt.lazyOptional]; exact lazyOptional_cat c h hs ht
  | .bar c l, _, _, _, ht => by
    have := leadRep_alternate (b := altTree l) (a := catTree c)
    simp only [altTree] at ht
    rw [ht] at this; simp [leadRep] at this

theorem lazyOptional_body : ∀ (b : Body) {x : Re}, b.Faithful → b.size < szMod → bodyTree b = .rep .lazy 0 1 [x] → b.lazyOptional = true
  | .alt l, x, h, hs, ht => by
    simp only [Body.Faithful, Body.size, bodyTree] at h hs ht
    simp only [Body.lazyOptional]; exact lazyOptional_alt l h hs ht
  | .lead l, _, _, _, ht => by
    have := leadRep_alternate (b := altTree l) (a := .empty)
    simp only [bodyTree] at ht
    rw [ht] at this; simp [leadRep] at this
end

/-! ### Lookbehind -/

mutual
theorem backward_plain : ∀ {r : Re}, r.backward = true → r.firm = true ∧ r.loose = true ∧ r.noGroups = true
  | .cc _, _ | .any, _ | .str _, _ | .empty, _ | .boundary _, _ | .notBoundary _, _ | .reject _, _ => by
    simp [Re.firm, Re.loose, Re.noGroups]
  | .sel l, h => by
    simp only [Re.backward] at h
    simpa only [Re.firm, Re.loose, Re.noGroups] using backwardAll_plain h
  | .seq l, h => by
    simp only [Re.backward, Bool.and_eq_true] at h
    simpa only [Re.firm, Re.loose, Re.noGroups] using backwardAll_plain h.2
  | .rep _ _ _ _, h | .cap _ _ _, h | .bref _, h | .brefName _, h | .ahead _ _, h | .behind _ _, h | .atomic _, h | .mode _, h
  | .sBegin, h | .sEnd, h | .sEndLine, h | .lBegin, h | .lEnd, h => by simp [Re.backward] at h

theorem backwardAll_plain : ∀ {l : List Re}, backwardAll l = true → firmAll l = true ∧ looseAll l = true ∧ noGroupsList l = true
  | [], _ => by simp [firmAll, looseAll, noGroupsList]
  | r :: l, h => by
    simp only [backwardAll, Bool.and_eq_true] at h
    have h1 := backward_plain h.1
    have h2 := backwardAll_plain h.2
    simp [firmAll, looseAll, noGroupsList, h1, h2]
end

theorem backward_mem {r : Re} (hr : r.backward = true) {s : List Ch} {σ τ : MState} (hp : σ.pos ≤ s.length) :
    τ ∈ r.ways true E s σ ↔ r.Match E s σ τ := by
  have := backward_plain hr
  rw [Re.firm_ways this.1 hp, Re.loose_iff this.2.1 hp]

theorem behind_ways {r : Re} (hr : r.backward = true) (hrot : Rot r) {pos : Bool} {s : List Ch} {σ : MState} (hp : σ.pos ≤ s.length)
    {c : Bool} (hc : c = true ↔ ∃ p ρ, p ≤ σ.pos ∧ ρ ∈ r.ways true E s { σ with pos := p } ∧ ρ.pos = σ.pos) :
    (Re.behind pos (rotated r)).ways true E s σ = stayIf (c == pos) σ := by
  have hb := backwardAll_plain (backward_rotated hr hrot)
  have hmem : ∀ τ, τ ∈ (Re.behind pos (rotated r)).ways true E s σ ↔ τ ∈ stayIf (c == pos) σ := by
    intro τ
    rw [Re.firm_ways (by simp only [Re.firm]; exact hb.1) hp, Re.loose_iff (by simp [Re.loose, hb.2.1, hb.2.2]) hp, behind_match hr hrot hp]
    have : (∃ p ρ, p ≤ σ.pos ∧ r.Match E s { σ with pos := p } ρ ∧ ρ.pos = σ.pos) ↔ c = true := by
      rw [hc]
      refine exists_congr fun p => exists_congr fun ρ => and_congr_right fun hpp => and_congr_left fun _ => ?_
      exact (backward_mem hr (by show p ≤ s.length; omega)).symm
    rw [this]
    unfold stayIf
    cases c <;> cases pos <;> simp
  have hlen : ((Re.behind pos (rotated r)).ways true E s σ).length ≤ 1 := by
    simp only [Re.ways]
    split <;> split <;> simp
  have hlen' : (stayIf (c == pos) σ).length ≤ 1 := by unfold stayIf; split <;> simp
  rcases h1 : (Re.behind pos (rotated r)).ways true E s σ with _ | ⟨x, _ | ⟨y, L⟩⟩
  · rw [h1] at hmem
    exact (List.eq_nil_iff_forall_not_mem.2 fun τ hτ => by simpa using (hmem τ).2 hτ).symm
  · rw [h1] at hmem
    rcases h2 : stayIf (c == pos) σ with _ | ⟨z, _ | ⟨y, L⟩⟩
    · rw [h2] at hmem; simpa using hmem x
    · rw [h2] at hmem
      have := (hmem x).1 (by simp)
      simp at this; rw [this]
    · rw [h2] at hlen'; simp at hlen'
  · rw [h1] at hlen; simp at hlen

/-! ### Atoms -/

theorem step_order {P : Prop} [Decidable P] {p : Ch → Bool} {s : List Ch} {σ : MState} (h : P ↔ ∃ v, s[σ.pos]? = some v ∧ p v = true) :
    (if P then [{ σ with pos := σ.pos + 1 }] else []) = stepIf p s σ := by
  unfold stepIf
  by_cases hP : P
  · obtain ⟨v, hv, hp⟩ := h.1 hP
    rw [if_pos hP, hv]
    simp only [hp, if_true]
  · rw [if_neg hP]
    split
    · rename_i v hv
      rw [if_neg fun hp => hP (h.2 ⟨v, hv, hp⟩)]
    · rfl

theorem cls_order {c : CC} {p : Ch → Bool} {s : List Ch} {σ : MState} (h : ∀ v, c.matchChar E.uni σ.caseless v = p v) :
    (Re.cc c).ways true E s σ = stepIf p s σ := by
  simp only [Re.ways]
  exact step_order (by simp only [inClass, h])

theorem test_order {P : Prop} [Decidable P] {c : Bool} {σ : MState} (h : P ↔ c = true) : (if P then [σ] else []) = stayIf c σ := by
  unfold stayIf; simp only [h]

theorem item_order {a : Atom} {q : Quant} (hf : a.Faithful) (hs : a.size < szMod) (hq : q.Faithful) (ho : q.overLazy a = false) {s : List Ch}
    (ha : ∀ σ : MState, σ.pos ≤ s.length → FirstSame ((atomTree a).ways true E s σ) (a.ways true E s σ)) {σ : MState} (hp : σ.pos ≤ s.length) :
    FirstSame ((quantTree q (atomTree a)).ways true E s σ) ((Cat.one a q).ways true E s σ) := by
  by_cases h : q = .none
  · subst h; simp only [quantTree, Cat.ways]; exact ha σ hp
  · have h1 : (Cat.one a q).ways true E s σ = q.ways (iteration true fun σ => a.ways true E s σ) s.length σ := by
      cases q <;> first | exact (h rfl).elim | simp only [Cat.ways]
    rw [h1, quant_ways h hq]
    · refine .of_eq ?_
      have e : ∀ x : MState, x.pos ≤ s.length → iteration true (fun σ => (atomTree a).ways true E s σ) x =
          iteration true (fun σ => a.ways true E s σ) x := fun x hx => iteration_congr (ha x hx)
      have hI : ∀ x y : MState, x.pos ≤ s.length → y ∈ iteration true (fun σ => (atomTree a).ways true E s σ) x → y.pos ≤ s.length :=
        fun x y hx hy => (iteration_fwd (fun _ _ h => Re.ways_fwd h) hx hy).1
      have ht := times_congr (I := fun x : MState => x.pos ≤ s.length) e hI q.low σ hp
      have hm : ∀ m, (times (iteration true fun σ => (atomTree a).ways true E s σ) q.low σ).flatMap (most (iteration true fun σ => (atomTree a).ways true E s σ) m) =
          (times (iteration true fun σ => a.ways true E s σ) q.low σ).flatMap (most (iteration true fun σ => a.ways true E s σ) m) := by
        intro m
        rw [← ht]
        exact flatMap_same fun y hy => most_congr (I := fun x : MState => x.pos ≤ s.length) e hI m y
          (times_keep (I := fun x : MState => x.pos ≤ s.length) hI hp hy)
      have hw : ∀ m, (times (iteration true fun σ => (atomTree a).ways true E s σ) q.low σ).flatMap (fewest (iteration true fun σ => (atomTree a).ways true E s σ) m) =
          (times (iteration true fun σ => a.ways true E s σ) q.low σ).flatMap (fewest (iteration true fun σ => a.ways true E s σ) m) := by
        intro m
        rw [← ht]
        exact flatMap_same fun y hy => fewest_congr (I := fun x : MState => x.pos ≤ s.length) e hI m y
          (times_keep (I := fun x : MState => x.pos ≤ s.length) hI hp hy)
      simp only [Quant.ways, hm, hw]
    · rintro k rfl hk x hx
      have := lazyOptional_atom a hf hs hx
      cases k <;> simp_all [Quant.overLazy]

mutual
theorem atom_order {s : List Ch} : ∀ (a : Atom) {σ : MState}, a.Faithful → a.size < szMod → a.inOrder = true → σ.pos ≤ s.length →
    FirstSame ((atomTree a).ways true E s σ) (a.ways true E s σ)
  | .ch c, σ, h, _, _, _ => by
    simp only [Atom.Faithful] at h
    simp only [atomTree, Atom.ways, charTree_eq h]
    exact .of_eq (cls_order fun v => rfl)
  | .cls c, σ, _, _, _, _ => by
    simp only [atomTree, Atom.ways]
    refine .of_eq (cls_order fun v => ?_)
    rw [Bool.eq_iff_iff, clsTree_match, decide_eq_true_eq]
  | .set neg l, σ, h, _, _, _ => by
    simp only [Atom.Faithful] at h
    simp only [atomTree, Atom.ways]
    refine .of_eq (cls_order fun v => ?_)
    rw [Bool.eq_iff_iff, setTree_match h]
    cases neg <;> simp
  | .dot, σ, _, _, _, _ => by
    simp only [atomTree, Atom.ways, Re.ways]
    refine .of_eq (step_order ?_)
    constructor
    · rintro ⟨h1, h2⟩
      refine ⟨s[σ.pos], List.getElem?_eq_getElem h1, ?_⟩
      simp only [newlineAt, List.getElem?_eq_getElem h1, Option.some.injEq, not_and] at h2
      cases hm : σ.multiline <;> simp_all
    · rintro ⟨v, hv, h2⟩
      refine ⟨(List.getElem?_eq_some_iff.1 hv).1, ?_⟩
      rintro ⟨hm, hn⟩
      simp only [newlineAt, hv, Option.some.injEq] at hn
      simp [hm, hn] at h2
  | .unknown _ _, _, _, _, _, _ => by simp only [atomTree, Atom.ways, Re.ways]; exact .refl _
  | .bol, _, _, _, _, _ => by
    simp only [atomTree, Atom.ways, Re.ways]; exact .of_eq (test_order (by simp [Holds]))
  | .eol, _, _, _, _, _ => by
    simp only [atomTree, Atom.ways, Re.ways]; exact .of_eq (test_order (by simp [Holds]))
  | .subjectBegin, _, _, _, _, _ => by
    simp only [atomTree, Atom.ways, Re.ways]; exact .of_eq (test_order (by simp [Holds]))
  | .subjectEnd, _, _, _, _, _ => by
    simp only [atomTree, Atom.ways, Re.ways]; exact .of_eq (test_order (by simp [Holds]))
  | .subjectEndLine, _, _, _, _, _ => by
    simp only [atomTree, Atom.ways, Re.ways]; exact .of_eq (test_order (by simp [Holds, and_assoc]))
  | .wordBoundary, _, _, _, _, _ => by
    simp only [atomTree, Atom.ways, Re.ways]; exact .of_eq (test_order (by simp [Holds]))
  | .notWordBoundary, _, h, _, _, _ => by simp only [Atom.Faithful] at h
  | .ref d, _, _, _, _, _ => by simp only [atomTree, Atom.ways, Re.ways]; exact .refl _
  | .refNumber ds, _, h, _, _, _ => by
    simp only [Atom.Faithful] at h
    simp only [atomTree, Atom.ways, Re.ways, Nat.mod_eq_of_lt (show decimal ds < szMod by simp only [szMod]; omega)]; exact .refl _
  | .refRelative ds id, _, _, _, _, _ => by simp only [atomTree, Atom.ways, Re.ways]; exact .refl _
  | .refName n, _, _, _, _, _ => by simp only [atomTree, Atom.ways, Re.ways]; exact .refl _
  | .cap id b, σ, h, hs, ho, hp => by
    simp only [Atom.Faithful, Atom.size, Atom.inOrder] at h hs ho
    simp only [atomTree, Atom.ways, Re.ways, waysAll_unpack]
    exact (body_order b h hs ho hp).map _
  | .named id n b, σ, h, hs, ho, hp => by
    simp only [Atom.Faithful, Atom.size, Atom.inOrder] at h hs ho
    simp only [atomTree, Atom.ways, Re.ways, waysAll_unpack]
    exact (body_order b h hs ho hp).map _
  | .group b, σ, h, hs, ho, hp => by
    simp only [Atom.Faithful, Atom.size, Atom.inOrder] at h hs ho
    simp only [atomTree, Atom.ways]
    exact body_order b h hs ho hp
  | .ahead pos b, σ, h, hs, ho, hp => by
    simp only [Atom.Faithful, Atom.size, Atom.inOrder] at h hs ho
    simp only [atomTree, Atom.ways, Re.ways, waysAll_unpack]
    have := (body_order (s := s) b h hs ho hp).head
    revert this
    cases (bodyTree b).ways true E s σ <;> cases b.ways true E s σ <;> simp
    · exact .refl _
    · rintro rfl; exact .refl _
  | .behind pos b, σ, h, hs, ho, hp => by
    simp only [Atom.Faithful, Atom.size, Atom.inOrder] at h hs ho
    obtain ⟨h1, h2⟩ := backward_body b h.2
    simp only [atomTree, Atom.ways]
    refine .of_eq (behind_ways h1 h2 hp ?_)
    simp only [List.any_eq_true, List.mem_range, beq_iff_eq]
    constructor
    · rintro ⟨p, hpp, ρ, hρ, e⟩
      exact ⟨p, ρ, by omega, (body_order b h.1 hs ho (by show p ≤ s.length; omega)).mem.2 hρ, e⟩
    · rintro ⟨p, ρ, hpp, hρ, e⟩
      exact ⟨p, by omega, ρ, (body_order b h.1 hs ho (by show p ≤ s.length; omega)).mem.1 hρ, e⟩
  | .atomic b, σ, h, hs, ho, hp => by
    simp only [Atom.Faithful, Atom.size, Atom.inOrder] at h hs ho
    simp only [atomTree, Atom.ways, Re.ways, waysAll_unpack]
    refine .of_eq ?_
    rw [iteration_congr (body_order b h hs ho hp)]
  | .mode m, _, _, _, _, _ => by simp only [atomTree, Atom.ways, Re.ways]; exact .refl _

theorem cat_order {s : List Ch} : ∀ (c : Cat) {σ : MState}, c.Faithful → c.size < szMod → c.inOrder = true → σ.pos ≤ s.length →
    FirstSame ((catTree c).ways true E s σ) (c.ways true E s σ)
  | .one a q, σ, h, hs, ho, hp => by
    simp only [Cat.Faithful, Cat.size, Cat.inOrder, Bool.and_eq_true, Bool.not_eq_true'] at h hs ho
    simp only [catTree]
    exact item_order h.1 (by omega) h.2 ho.2 (fun σ hp => atom_order a h.1 (by omega) ho.1 hp) hp
  | .cons a q l, σ, h, hs, ho, hp => by
    simp only [Cat.Faithful, Cat.size, Cat.inOrder, Bool.and_eq_true, Bool.not_eq_true'] at h hs ho
    have h1 := lead_item (lead_atom a h.1 (by omega)) h.2.1
    have h2 := lead_cat l h.2.2.1 (by omega)
    have hcons : (Cat.cons a q l).ways true E s σ = ((Cat.one a q).ways true E s σ).flatMap fun ρ => l.ways true E s ρ := by
      cases q <;> simp only [Cat.ways]
    rw [hcons]
    simp only [catTree]
    refine (makeSequence_ways h1.1 h2.1 hs (fun hp => h.2.2.2 ⟨h1.2.1 hp.1, h2.2.1 hp.2⟩) hp).trans ?_
    refine FirstSame.flatMap (item_order h.1 (by omega) h.2.1 ho.1.2 (fun σ hp => atom_order a h.1 (by omega) ho.1.1 hp) hp) ?_
    intro ρ hρ
    exact cat_order l h.2.2.1 (by omega) ho.2 (Re.ways_fwd hρ hp).2

theorem alt_order {s : List Ch} : ∀ (l : Alt) {σ : MState}, l.Faithful → l.size < szMod → l.inOrder = true → σ.pos ≤ s.length →
    FirstSame ((altTree l).ways true E s σ) (l.ways true E s σ)
  | .empty, _, _, _, _, _ => by simp only [altTree, Alt.ways, Re.ways]; exact .refl _
  | .one c, σ, h, hs, ho, hp => by
    simp only [Alt.Faithful, Alt.size, Alt.inOrder] at h hs ho
    simp only [altTree, Alt.ways]; exact cat_order c h hs ho hp
  | .bar c l, σ, h, hs, ho, hp => by
    simp only [Alt.Faithful, Alt.size, Alt.inOrder, Bool.and_eq_true] at h hs ho
    simp only [altTree, Alt.ways, makeAlternate_ways]
    exact (cat_order c h.1 (by omega) ho.1 hp).append (alt_order l h.2 (by omega) ho.2 hp)

theorem body_order {s : List Ch} : ∀ (b : Body) {σ : MState}, b.Faithful → b.size < szMod → b.inOrder = true → σ.pos ≤ s.length →
    FirstSame ((bodyTree b).ways true E s σ) (b.ways true E s σ)
  | .alt l, σ, h, hs, ho, hp => by
    simp only [Body.Faithful, Body.size, Body.inOrder] at h hs ho
    simp only [bodyTree, Body.ways]; exact alt_order l h hs ho hp
  | .lead l, σ, h, hs, ho, hp => by
    simp only [Body.Faithful, Body.size, Body.inOrder] at h hs ho
    simp only [bodyTree, Body.ways, makeAlternate_ways]
    have : (Re.empty).ways true E s σ = [σ] := by simp only [Re.ways]
    rw [this]
    exact (FirstSame.refl [σ]).append (alt_order l h hs ho hp)
end

end Ctre.Parse
