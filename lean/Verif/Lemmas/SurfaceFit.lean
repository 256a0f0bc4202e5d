import Verif.Lemmas.SurfaceOrder
import Verif.Lemmas.Modes
import Verif.Spec.Compiles

/-
Conditions on syntax trees that are enough for the conditions on the trees built by the parser.
-/
namespace Ctre.Parse
open Surface

/-! ### Iterations that consume something -/

mutual
theorem moves_honest : ∀ {r : Re}, r.moves = true → r.honest = true
  | .sel l, h => by simp only [Re.moves] at h; simp only [Re.honest]; exact movesAll_honest h
  | .seq l, h | .cap _ _ l, h => by simp only [Re.moves] at h; simp [Re.honest, h]
  | .rep k a b l, h => by
    simp only [Re.moves] at h
    cases k <;> simp_all [Re.honest]
  | .cc _, _ | .any, _ | .reject _, _ | .str _, _ | .atomic _, _ => by simp [Re.honest]
  | .empty, h | .boundary _, h | .notBoundary _, h | .bref _, h | .brefName _, h | .ahead _ _, h | .behind _ _, h | .mode _, h
  | .sBegin, h | .sEnd, h | .sEndLine, h | .lBegin, h | .lEnd, h => by simp [Re.moves] at h

theorem movesAll_honest : ∀ {l : List Re}, movesAll l = true → honestAll l = true
  | [], _ => rfl
  | r :: l, h => by
    simp only [movesAll, Bool.and_eq_true] at h
    simp [honestAll, moves_honest h.1, movesAll_honest h.2]
end

/-- The machine notices whether the concatenation has consumed something. -/
def noticed (l : List Re) : Bool := movesAny l || honestAll l

theorem noticed_unpack (r : Re) : noticed (unpack r) = r.honest := by
  unfold unpack noticed
  split
  · simp only [Re.honest]
  · simp only [movesAny, honestAll, Bool.or_false, Bool.and_true]
    cases hm : r.moves
    · simp
    · simp [moves_honest hm]

theorem noticed_one (r : Re) : noticed [r] = r.honest := by
  simp only [noticed, movesAny, honestAll, Bool.or_false, Bool.and_true]
  cases hm : r.moves
  · simp
  · simp [moves_honest hm]

theorem moves_rep {k : RepKind} {a b : Nat} {l : List Re} : (Re.rep k a b l).moves = (Decidable.decide (1 ≤ a) && noticed l) := by
  simp only [Re.moves, noticed]

theorem honest_rep {k : RepKind} {a b : Nat} {l : List Re} : (Re.rep k a b l).honest = match k with
    | .greedy => Decidable.decide (1 ≤ a) && noticed l
    | .lazy => noticed l
    | .poss => true := by
  cases k <;> simp only [Re.honest, noticed]

/-- `c` is at least as good as `a` followed by `b`. -/
def Fits (a b c : Re) : Prop :=
  (a.moves = true ∨ b.moves = true → c.moves = true) ∧ (a.honest = true ∧ b.honest = true → c.honest = true)

theorem fits_pair (a b : Re) : Fits a b (.seq [a, b]) := by
  simp only [Fits, Re.moves, movesAny, Re.honest, honestAll, Bool.or_false, Bool.and_true, Bool.or_eq_true, Bool.and_eq_true]
  exact ⟨id, fun h => .inr h⟩

theorem fits_cons (a : Re) (l : List Re) : Fits a (.seq l) (.seq (a :: l)) := by
  simp only [Fits, Re.moves, movesAny, Re.honest, honestAll, Bool.or_eq_true, Bool.and_eq_true]
  exact ⟨id, fun h => h.2.elim (fun h' => .inl (.inr h')) fun h' => .inr ⟨h.1, h'⟩⟩

theorem Fits.front {a b c : Re} (h : Fits a b c) (l : List Re) : Fits a (.seq (b :: l)) (.seq (c :: l)) := by
  simp only [Fits, Re.moves, movesAny, Re.honest, honestAll, Bool.or_eq_true, Bool.and_eq_true]
  refine ⟨?_, ?_⟩
  · rintro (h' | h' | h')
    · exact .inl (h.1 (.inl h'))
    · exact .inl (h.1 (.inr h'))
    · exact .inr h'
  · rintro ⟨h1, (h2 | h2) | h2⟩
    · exact .inl (.inl (h.1 (.inr h2)))
    · exact .inl (.inr h2)
    · exact .inr ⟨h.2 ⟨h1, h2.1⟩, h2.2⟩

theorem fits_sum {k : RepKind} {a b c d e m : Nat} {l : List Re} (h : 1 ≤ a ∨ 1 ≤ c → 1 ≤ e) :
    Fits (.rep k a b l) (.rep k c d l) (.rep k e m l) := by
  simp only [Fits, moves_rep, honest_rep, Bool.and_eq_true, decide_eq_true_eq]
  refine ⟨?_, ?_⟩
  · rintro (h' | h')
    · exact ⟨h (.inl h'.1), h'.2⟩
    · exact ⟨h (.inr h'.1), h'.2⟩
  · rintro ⟨h1, h2⟩
    cases k with
    | greedy =>
      simp only [Bool.and_eq_true, decide_eq_true_eq] at h1 h2 ⊢
      exact ⟨h (.inl h1.1), h1.2⟩
    | lazy => exact h1
    | poss => rfl

theorem combine_fits {k : RepKind} (hk : k ≠ .poss) {a b c d n m : Nat} {l : List Re} (h1 : BoundOK n a b) (h2 : BoundOK m c d)
    (hnm : n + m < szMod) : Fits (.rep k a b l) (.rep k c d l) (combineRepeat k a b c d l) ∧
      Fits (.rep k a b l) (.rep k c d l) (combineRepeat k c d a b l) := by
  have h3 : (a + c) % szMod = a + c := Nat.mod_eq_of_lt (by have := h1.2.1; have := h2.2.1; omega)
  have h4 : (c + a) % szMod = c + a := Nat.mod_eq_of_lt (by have := h1.2.1; have := h2.2.1; omega)
  cases k with
  | poss => exact (hk rfl).elim
  | _ =>
    simp only [combineRepeat, h3, h4]
    exact ⟨fits_sum (by omega), fits_sum (by omega)⟩

theorem makeSequence_fits {b a : Re} {n m : Nat} (ha : LeadOK n a) (hb : LeadOK m b) (hnm : n + m < szMod)
    (hp : ¬ (isPoss a ∧ leadPoss b)) : Fits a b (makeSequence b a) := by
  unfold makeSequence
  split
  · simp [Fits, Re.moves, Re.honest]
  · simp [Fits, Re.moves, Re.honest]
  · simp [Fits, Re.moves, Re.honest, movesAny]
  · simp [Fits, Re.moves, Re.honest, movesAny]
  · rename_i k minB maxB l k' minA maxA l'
    split
    · rename_i hk
      obtain ⟨rfl, hl⟩ := hk
      have hl := Re.sameList_eq hl
      subst hl
      have hk : k ≠ .poss := by
        rintro rfl
        exact hp ⟨⟨_, _, _, rfl⟩, ⟨_, _, rfl⟩⟩
      exact (combine_fits hk (ha _ _ _ rfl) (hb _ _ _ rfl) hnm).1
    · exact fits_pair _ _
  · rename_i k minB maxB l as k' minA maxA l'
    split
    · rename_i hk
      obtain ⟨rfl, hl⟩ := hk
      have hl := Re.sameList_eq hl
      subst hl
      have hk : k ≠ .poss := by
        rintro rfl
        exact hp ⟨⟨_, _, _, rfl⟩, ⟨_, _, rfl⟩⟩
      exact ((combine_fits hk (ha _ _ _ rfl) (hb _ _ _ rfl) hnm).2).front _
    · exact fits_cons _ _
  · exact fits_cons _ _
  · exact fits_pair _ _

theorem quant_fits {q : Quant} (hq : q.Faithful) {r : Re} {mv hn : Bool} (h1 : mv = true → r.moves = true) (h2 : hn = true → r.honest = true) :
    (itemMoves q mv hn = true → (quantTree q r).moves = true) ∧ (itemHonest q hn = true → (quantTree q r).honest = true) := by
  have hkind : ∀ (k : RepKind) (a b : Nat), kindTree k (.rep .greedy a b (unpack r)) = .rep k a b (unpack r) := by
    intro k a b; cases k <;> simp only [kindTree]
  cases q with
  | none => simp only [itemMoves, itemHonest, quantTree]; exact ⟨h1, h2⟩
  | opt k =>
    simp only [itemMoves, itemHonest, quantTree, Quant.low, Quant.kind]
    refine ⟨by simp, ?_⟩
    cases k with
    | greedy => simp
    | lazy =>
      intro h
      have := h2 h
      unfold makeOptional
      split <;> simp_all [kindTree, honest_rep, noticed_one]
      simpa [Re.honest, noticed] using this
    | poss =>
      intro h
      have := h2 h
      unfold makeOptional
      split <;> simp_all [kindTree, honest_rep, noticed_one]
  | star k =>
    simp only [itemMoves, itemHonest, quantTree, Quant.low, Quant.kind, hkind, moves_rep, honest_rep, noticed_unpack]
    cases k <;> simp <;> exact h2
  | plus k =>
    simp only [itemMoves, itemHonest, quantTree, Quant.low, Quant.kind, hkind, moves_rep, honest_rep, noticed_unpack]
    cases k <;> simp <;> exact h2
  | exactly ds =>
    simp only [Quant.Faithful] at hq
    simp only [itemMoves, itemHonest, quantTree, Quant.low, Quant.kind, hkind, moves_rep, honest_rep, noticed_unpack,
      Nat.mod_eq_of_lt (show decimal ds < szMod by simp only [szMod]; omega), Bool.and_eq_true, and_self]
    exact fun h => ⟨h.1, h2 h.2⟩
  | atLeast ds k =>
    simp only [Quant.Faithful] at hq
    simp only [itemMoves, itemHonest, quantTree, Quant.low, Quant.kind, hkind, moves_rep, honest_rep, noticed_unpack,
      Nat.mod_eq_of_lt (show decimal ds < szMod by simp only [szMod]; omega), Bool.and_eq_true]
    refine ⟨fun h => ⟨h.1, h2 h.2⟩, ?_⟩
    cases k with
    | greedy => simp only [Bool.and_eq_true]; exact fun h => ⟨h.1, h2 h.2⟩
    | lazy => exact h2
    | poss => simp
  | between ds es k =>
    simp only [Quant.Faithful] at hq
    simp only [itemMoves, itemHonest, quantTree, Quant.low, Quant.kind, hkind, moves_rep, honest_rep, noticed_unpack,
      Nat.mod_eq_of_lt (show decimal ds < szMod by simp only [szMod]; omega), Bool.and_eq_true]
    refine ⟨fun h => ⟨h.1, h2 h.2⟩, ?_⟩
    cases k with
    | greedy => simp only [Bool.and_eq_true]; exact fun h => ⟨h.1, h2 h.2⟩
    | lazy => exact h2
    | poss => simp

theorem alternate_moves (b a : Re) : (makeAlternate b a).moves = (a.moves && b.moves) := by
  unfold makeAlternate; split <;> simp [Re.moves, movesAll]

theorem alternate_honest (b a : Re) : (makeAlternate b a).honest = (a.honest && b.honest) := by
  unfold makeAlternate; split <;> simp [Re.honest, honestAll]

mutual
theorem atom_fits : ∀ (a : Atom), a.Faithful → a.size < szMod →
    (a.moves = true → (atomTree a).moves = true) ∧ (a.honest = true → (atomTree a).honest = true)
  | .cap id b, h, hs | .named id n b, h, hs => by
    simp only [Atom.Faithful, Atom.size] at h hs
    have := body_fits b h hs
    refine ⟨fun hm => ?_, fun hm => ?_⟩
    · simp only [Atom.moves] at hm
      have h1 := this.1 hm
      simp only [atomTree, Re.moves]
      unfold unpack; split
      · rename_i e; simpa only [e, Re.moves] using h1
      · simp [movesAny, h1]
    · simp only [Atom.honest] at hm
      have h1 := this.2 hm
      rw [← noticed_unpack] at h1
      simpa only [atomTree, Re.honest, noticed] using h1
  | .group b, h, hs => by
    simp only [Atom.Faithful, Atom.size] at h hs
    simp only [Atom.moves, Atom.honest, atomTree]; exact body_fits b h hs
  | .atomic b, h, hs => by
    simp only [Atom.Faithful, Atom.size] at h hs
    have := body_fits b h hs
    simp only [Atom.moves, Atom.honest, atomTree]
    refine ⟨fun hm => ?_, fun _ => by simp [Re.honest]⟩
    have h1 := this.2 hm
    rw [← noticed_unpack] at h1
    simpa only [Re.moves, noticed] using h1
  | .ch _, _, _ | .cls _, _, _ | .set _ _, _, _ | .dot, _, _ | .bol, _, _ | .eol, _, _ | .subjectBegin, _, _ | .subjectEnd, _, _
  | .subjectEndLine, _, _ | .unknown _ _, _, _ | .wordBoundary, _, _ | .notWordBoundary, _, _ | .ref _, _, _
  | .refNumber _, _, _ | .refRelative _ _, _, _ | .refName _, _, _ | .ahead _ _, _, _ | .behind _ _, _, _ | .mode _, _, _ => by
    simp [Atom.moves, Atom.honest, atomTree, Re.moves, Re.honest]

theorem cat_fits : ∀ (c : Cat), c.Faithful → c.size < szMod →
    (c.moves = true → (catTree c).moves = true) ∧ (c.allHonest = true → (catTree c).honest = true)
  | .one a q, h, hs => by
    simp only [Cat.Faithful, Cat.size] at h hs
    have := atom_fits a h.1 (by omega)
    simp only [Cat.moves, Cat.allHonest, catTree]
    exact quant_fits h.2 this.1 this.2
  | .cons a q l, h, hs => by
    simp only [Cat.Faithful, Cat.size] at h hs
    have := atom_fits a h.1 (by omega)
    have h3 := quant_fits h.2.1 this.1 this.2
    have h4 := cat_fits l h.2.2.1 (by omega)
    have h1 := lead_item (lead_atom a h.1 (by omega)) h.2.1
    have h2 := lead_cat l h.2.2.1 (by omega)
    have hf := makeSequence_fits h1.1 h2.1 hs (fun hp => h.2.2.2 ⟨h1.2.1 hp.1, h2.2.1 hp.2⟩)
    simp only [Cat.moves, Cat.allHonest, catTree, Bool.or_eq_true, Bool.and_eq_true]
    exact ⟨fun hm => hf.1 (hm.imp h3.1 h4.1), fun hm => hf.2 ⟨h3.2 hm.1, h4.2 hm.2⟩⟩

theorem alt_fits : ∀ (l : Alt), l.Faithful → l.size < szMod →
    (l.moves = true → (altTree l).moves = true) ∧ (l.honest = true → (altTree l).honest = true)
  | .empty, _, _ => by simp [Alt.moves, Alt.honest, altTree, Re.honest]
  | .one c, h, hs => by
    simp only [Alt.Faithful, Alt.size] at h hs
    have := cat_fits c h hs
    simp only [Alt.moves, Alt.honest, altTree, Bool.or_eq_true]
    exact ⟨this.1, fun hm => hm.elim (fun h' => moves_honest (this.1 h')) this.2⟩
  | .bar c l, h, hs => by
    simp only [Alt.Faithful, Alt.size] at h hs
    have h1 := cat_fits c h.1 (by omega)
    have h2 := alt_fits l h.2 (by omega)
    simp only [Alt.moves, Alt.honest, altTree, Bool.or_eq_true, Bool.and_eq_true, alternate_moves, alternate_honest]
    exact ⟨fun hm => ⟨h1.1 hm.1, h2.1 hm.2⟩, fun hm => ⟨hm.1.elim (fun h' => moves_honest (h1.1 h')) h1.2, h2.2 hm.2⟩⟩

theorem body_fits : ∀ (b : Body), b.Faithful → b.size < szMod →
    (b.moves = true → (bodyTree b).moves = true) ∧ (b.honest = true → (bodyTree b).honest = true)
  | .alt l, h, hs => by
    simp only [Body.Faithful, Body.size] at h hs
    simp only [Body.moves, Body.honest, bodyTree]; exact alt_fits l h hs
  | .lead l, h, hs => by
    simp only [Body.Faithful, Body.size] at h hs
    have := alt_fits l h hs
    simp only [Body.moves, Body.honest, bodyTree, alternate_honest, Bool.and_eq_true]
    exact ⟨by simp, fun hm => ⟨by simp [Re.honest], this.2 hm⟩⟩
end

/-! ### Attention -/

theorem attentive_unpack {r : Re} (h : r.attentive = true) (hn : r ≠ .seq []) : (unpack r).isEmpty = false ∧ attentiveAll (unpack r) = true := by
  unfold unpack
  split
  · simpa [Re.attentive] using h
  · simp [attentiveAll, h]

theorem attentive_rep {k : RepKind} {a b : Nat} {l : List Re} : (Re.rep k a b l).attentive = (noticed l && attentiveAll l) := by
  simp only [Re.attentive, noticed]

theorem attentive_combine {k : RepKind} (hk : k ≠ .poss) {a b c d : Nat} {l : List Re} :
    (combineRepeat k a b c d l).attentive = (noticed l && attentiveAll l) := by
  cases k with
  | poss => exact (hk rfl).elim
  | _ => simp only [combineRepeat, attentive_rep]

theorem attentive_sequence {b a : Re} (hp : ¬ (isPoss a ∧ leadPoss b)) (h1 : a.attentive = true) (h2 : b.attentive = true) :
    (makeSequence b a).attentive = true := by
  unfold makeSequence
  split
  · simp [Re.attentive]
  · simp [Re.attentive]
  · simp_all [Re.attentive, attentiveAll]
  · simp_all [Re.attentive, attentiveAll]
  · split
    · rename_i hk
      obtain ⟨rfl, hl⟩ := hk
      have hl := Re.sameList_eq hl
      subst hl
      rw [attentive_combine]
      · simpa only [attentive_rep] using h1
      · rintro rfl; exact hp ⟨⟨_, _, _, rfl⟩, ⟨_, _, rfl⟩⟩
    · simp_all [Re.attentive, attentiveAll]
  · split
    · rename_i hk
      obtain ⟨rfl, hl⟩ := hk
      have hl := Re.sameList_eq hl
      subst hl
      simp only [Re.attentive, attentiveAll, Bool.and_eq_true] at h2 ⊢
      refine ⟨by simp, ?_, h2.2.2⟩
      rw [attentive_combine]
      · simpa only [attentive_rep] using h1
      · rintro rfl; exact hp ⟨⟨_, _, _, rfl⟩, ⟨_, _, rfl⟩⟩
    · simp_all [Re.attentive, attentiveAll]
  · simp_all [Re.attentive, attentiveAll]
  · simp_all [Re.attentive, attentiveAll]

theorem attentive_alternate {b a : Re} (h1 : a.attentive = true) (h2 : b.attentive = true) : (makeAlternate b a).attentive = true := by
  unfold makeAlternate
  split <;> simp_all [Re.attentive, attentiveAll]

theorem attentive_quant {q : Quant} {r : Re} (h : r.attentive = true) (hn : r ≠ .seq []) (hh : q = .none ∨ r.honest = true) :
    (quantTree q r).attentive = true := by
  have hkind : ∀ (k : RepKind) (r : Re), r.attentive = true → (kindTree k r).attentive = true := by
    intro k r h
    unfold kindTree; split <;> simp_all only [attentive_rep]
  have hrep : r.honest = true → ∀ (k : RepKind) (a b : Nat), (Re.rep k a b (unpack r)).attentive = true := by
    intro hh k a b
    rw [attentive_rep, noticed_unpack, hh, (attentive_unpack h hn).2]; rfl
  rcases hh with rfl | hh
  · simpa only [quantTree] using h
  · cases q with
    | none => simpa only [quantTree] using h
    | opt k =>
      simp only [quantTree]
      refine hkind _ _ ?_
      have := hrep hh .greedy 0 1
      unfold makeOptional
      split
      · simpa only [unpack] using this
      · exact h
      · exact h
      · rename_i h1 h2 h3
        have e : unpack r = [r] := by
          unfold unpack; split
          · exact (h1 _ rfl).elim
          · rfl
        rwa [e] at this
    | star k => simp only [quantTree]; exact hkind _ _ (hrep hh _ _ _)
    | plus k => simp only [quantTree]; exact hkind _ _ (hrep hh _ _ _)
    | exactly ds => simp only [quantTree]; exact hrep hh _ _ _
    | atLeast ds k => simp only [quantTree]; exact hkind _ _ (hrep hh _ _ _)
    | between ds es k => simp only [quantTree]; exact hkind _ _ (hrep hh _ _ _)

mutual
theorem backward_attentive : ∀ {r : Re}, r.backward = true → r.attentive = true
  | .cc _, _ | .any, _ | .str _, _ | .empty, _ | .boundary _, _ | .notBoundary _, _ | .reject _, _ => by simp [Re.attentive]
  | .sel l, h => by
    simp only [Re.backward] at h
    simp only [Re.attentive]; exact backwardAll_attentive h
  | .seq l, h => by
    simp only [Re.backward, Bool.and_eq_true] at h
    simp only [Re.attentive, Bool.and_eq_true]; exact ⟨h.1, backwardAll_attentive h.2⟩
  | .rep _ _ _ _, h | .cap _ _ _, h | .bref _, h | .brefName _, h | .ahead _ _, h | .behind _ _, h | .atomic _, h | .mode _, h
  | .sBegin, h | .sEnd, h | .sEndLine, h | .lBegin, h | .lEnd, h => by simp [Re.backward] at h

theorem backwardAll_attentive : ∀ {l : List Re}, backwardAll l = true → attentiveAll l = true
  | [], _ => rfl
  | r :: l, h => by
    simp only [backwardAll, Bool.and_eq_true] at h
    simp [attentiveAll, backward_attentive h.1, backwardAll_attentive h.2]
end

mutual
theorem backward_tame {ids : List Nat} {names : List (List Nat)} {lb : Bool} : ∀ {r : Re}, r.backward = true → r.tame ids names lb = true
  | .cc _, _ | .any, _ | .str _, _ | .empty, _ | .boundary _, _ | .notBoundary _, _ | .reject _, _ => by simp [Re.tame]
  | .sel l, h => by
    simp only [Re.backward] at h
    simp only [Re.tame]; exact backwardAll_tame h
  | .seq l, h => by
    simp only [Re.backward, Bool.and_eq_true] at h
    simp only [Re.tame]; exact backwardAll_tame h.2
  | .rep _ _ _ _, h | .cap _ _ _, h | .bref _, h | .brefName _, h | .ahead _ _, h | .behind _ _, h | .atomic _, h | .mode _, h
  | .sBegin, h | .sEnd, h | .sEndLine, h | .lBegin, h | .lEnd, h => by simp [Re.backward] at h

theorem backwardAll_tame {ids : List Nat} {names : List (List Nat)} {lb : Bool} : ∀ {l : List Re}, backwardAll l = true → tameAll ids names lb l = true
  | [], _ => rfl
  | r :: l, h => by
    simp only [backwardAll, Bool.and_eq_true] at h
    simp [tameAll, backward_tame h.1, backwardAll_tame h.2]
end

theorem rotated_ne {r : Re} (hr : r.backward = true) (hrot : Rot r) : (rotated r).isEmpty = false := by
  obtain ⟨hu, hne⟩ := unpack_backward hr
  obtain ⟨l', hl'⟩ := Option.ne_none_iff_exists'.1 (rotateList_iff.2 (rot_unpack hrot))
  have hseq : (Re.seq (unpack r)).backward = true := by simp [Re.backward, hu, hne]
  have hrs : (Re.seq (unpack r)).rotate = some (.seq l'.reverse) := by simp [Re.rotate, hl']
  obtain ⟨hb', _⟩ := rotate_span (E := ⟨fun _ _ => false, fun _ => none⟩) hseq _ hrs
  simp only [Re.backward, Bool.and_eq_true] at hb'
  simpa [rotated, hl'] using hb'.1

mutual
theorem atom_attentive : ∀ (a : Atom), a.Faithful → a.size < szMod → a.attentive = true → (atomTree a).attentive = true
  | .cap _ b, h, hs, ha | .named _ _ b, h, hs, ha => by
    simp only [Atom.Faithful, Atom.size, Atom.attentive] at h hs ha
    simpa [atomTree, Re.attentive] using attentive_unpack (body_attentive b h hs ha) (body_ne b)
  | .ahead _ b, h, hs, ha => by
    simp only [Atom.Faithful, Atom.size, Atom.attentive] at h hs ha
    simpa [atomTree, Re.attentive] using attentive_unpack (body_attentive b h hs ha) (body_ne b)
  | .group b, h, hs, ha => by
    simp only [Atom.Faithful, Atom.size, Atom.attentive] at h hs ha
    simp only [atomTree]; exact body_attentive b h hs ha
  | .behind _ b, h, hs, ha => by
    simp only [Atom.Faithful] at h
    obtain ⟨h1, h2⟩ := backward_body b h.2
    simp [atomTree, Re.attentive, rotated_ne h1 h2, backwardAll_attentive (backward_rotated h1 h2)]
  | .atomic b, h, hs, ha => by
    simp only [Atom.Faithful, Atom.size, Atom.attentive, Bool.and_eq_true] at h hs ha
    have h1 := (body_fits b h hs).2 ha.1
    rw [← noticed_unpack] at h1
    have h2 := (attentive_unpack (body_attentive b h hs ha.2) (body_ne b)).2
    simp only [noticed] at h1
    simp [atomTree, Re.attentive, h1, h2]
  | .ch _, _, _, _ | .cls _, _, _, _ | .set _ _, _, _, _ | .dot, _, _, _ | .bol, _, _, _ | .eol, _, _, _ | .subjectBegin, _, _, _ | .subjectEnd, _, _, _
  | .subjectEndLine, _, _, _ | .unknown _ _, _, _, _ | .wordBoundary, _, _, _ | .notWordBoundary, _, _, _ | .ref _, _, _, _
  | .refNumber _, _, _, _ | .refRelative _ _, _, _, _ | .refName _, _, _, _ | .mode _, _, _, _ => by
    simp [atomTree, Re.attentive]

theorem cat_attentive : ∀ (c : Cat), c.Faithful → c.size < szMod → c.attentive = true → (catTree c).attentive = true
  | .one a q, h, hs, ha => by
    simp only [Cat.Faithful, Cat.size, Cat.attentive, Bool.and_eq_true, Bool.or_eq_true, decide_eq_true_eq] at h hs ha
    simp only [catTree]
    exact attentive_quant (atom_attentive a h.1 (by omega) ha.2) (atom_ne a) (ha.1.imp id (atom_fits a h.1 (by omega)).2)
  | .cons a q l, h, hs, ha => by
    simp only [Cat.Faithful, Cat.size, Cat.attentive, Bool.and_eq_true, Bool.or_eq_true, decide_eq_true_eq] at h hs ha
    have h1 := lead_item (lead_atom a h.1 (by omega)) h.2.1
    have h2 := lead_cat l h.2.2.1 (by omega)
    simp only [catTree]
    refine attentive_sequence (fun hp => h.2.2.2 ⟨h1.2.1 hp.1, h2.2.1 hp.2⟩) ?_ (cat_attentive l h.2.2.1 (by omega) ha.2)
    exact attentive_quant (atom_attentive a h.1 (by omega) ha.1.2) (atom_ne a) (ha.1.1.imp id (atom_fits a h.1 (by omega)).2)

theorem alt_attentive : ∀ (l : Alt), l.Faithful → l.size < szMod → l.attentive = true → (altTree l).attentive = true
  | .empty, _, _, _ => by simp [altTree, Re.attentive]
  | .one c, h, hs, ha => by
    simp only [Alt.Faithful, Alt.size, Alt.attentive] at h hs ha
    simp only [altTree]; exact cat_attentive c h hs ha
  | .bar c l, h, hs, ha => by
    simp only [Alt.Faithful, Alt.size, Alt.attentive, Bool.and_eq_true] at h hs ha
    simp only [altTree]
    exact attentive_alternate (cat_attentive c h.1 (by omega) ha.1) (alt_attentive l h.2 (by omega) ha.2)

theorem body_attentive : ∀ (b : Body), b.Faithful → b.size < szMod → b.attentive = true → (bodyTree b).attentive = true
  | .alt l, h, hs, ha => by
    simp only [Body.Faithful, Body.size, Body.attentive] at h hs ha
    simp only [bodyTree]; exact alt_attentive l h hs ha
  | .lead l, h, hs, ha => by
    simp only [Body.Faithful, Body.size, Body.attentive] at h hs ha
    simp only [bodyTree]
    exact attentive_alternate (by simp [Re.attentive]) (alt_attentive l h hs ha)
end

mutual
theorem attentive_progressive : ∀ {r : Re}, r.attentive = true → r.progressive = true
  | .sel l, h => by
    simp only [Re.attentive] at h
    simp only [Re.progressive]; exact attentiveAll_progressive h
  | .seq l, h | .cap _ _ l, h | .ahead _ l, h => by
    simp only [Re.attentive, Bool.and_eq_true] at h
    simp only [Re.progressive]; exact attentiveAll_progressive h.2
  | .atomic l, h => by
    simp only [Re.attentive, Bool.and_eq_true] at h
    simp only [Re.progressive]; exact attentiveAll_progressive h.2
  | .rep _ _ _ l, h => by
    simp only [Re.attentive, Bool.and_eq_true] at h
    simp only [Re.progressive, Bool.or_assoc, h.1, attentiveAll_progressive h.2, Bool.or_true, Bool.and_self]
  | .cc _, _ | .any, _ | .str _, _ | .empty, _ | .boundary _, _ | .notBoundary _, _ | .reject _, _
  | .bref _, _ | .brefName _, _ | .behind _ _, _ | .mode _, _
  | .sBegin, _ | .sEnd, _ | .sEndLine, _ | .lBegin, _ | .lEnd, _ => by simp [Re.progressive]

theorem attentiveAll_progressive : ∀ {l : List Re}, attentiveAll l = true → progressiveAll l = true
  | [], _ => rfl
  | r :: l, h => by
    simp only [attentiveAll, Bool.and_eq_true] at h
    simp [progressiveAll, attentive_progressive h.1, attentiveAll_progressive h.2]
end

/-! ### Known groups -/

theorem hered_tame (ids : List Nat) (names : List (List Nat)) : Hered (Re.tame ids names false) (tameAll ids names false) := by
  constructor <;> intros <;> simp [Re.tame, tameAll]

variable {gs : List (Nat × Option (List Nat))}

mutual
theorem atom_tame : ∀ (a : Atom), a.Faithful → a.known gs = true →
    (atomTree a).tame (gs.map Prod.fst) (gs.filterMap Prod.snd) false = true
  | .cap id b, h, hk | .named id _ b, h, hk => by
    simp only [Atom.Faithful, Atom.known, Bool.and_eq_true] at h hk
    simp only [atomTree, Re.tame, (hered_tame _ _).unpack, hk.1, body_tame b h hk.2]; rfl
  | .ahead _ b, h, hk | .atomic b, h, hk => by
    simp only [Atom.Faithful, Atom.known] at h hk
    simp [atomTree, Re.tame, (hered_tame _ _).unpack, body_tame b h hk]
  | .group b, h, hk => by
    simp only [Atom.Faithful, Atom.known] at h hk
    simp only [atomTree]; exact body_tame b h hk
  | .behind _ b, h, hk => by
    simp only [Atom.Faithful] at h
    obtain ⟨h1, h2⟩ := backward_body b h.2
    simp only [atomTree, Re.tame]; exact backwardAll_tame (backward_rotated h1 h2)
  | .ref _, _, hk | .refRelative _ _, _, hk | .refName _, _, hk => by
    simp only [Atom.known] at hk
    simp only [atomTree, Re.tame, hk]; rfl
  | .refNumber ds, h, hk => by
    simp only [Atom.known, Atom.Faithful] at hk h
    simp only [atomTree, Re.tame, Nat.mod_eq_of_lt (show decimal ds < szMod by simp only [szMod]; omega), hk]; rfl
  | .ch _, _, _ | .cls _, _, _ | .set _ _, _, _ | .dot, _, _ | .bol, _, _ | .eol, _, _ | .subjectBegin, _, _ | .subjectEnd, _, _
  | .subjectEndLine, _, _ | .unknown _ _, _, _ | .wordBoundary, _, _ | .notWordBoundary, _, _ | .mode _, _, _ => by
    simp [atomTree, Re.tame]

theorem cat_tame : ∀ (c : Cat), c.Faithful → c.known gs = true →
    (catTree c).tame (gs.map Prod.fst) (gs.filterMap Prod.snd) false = true
  | .one a q, h, hk => by
    simp only [Cat.Faithful, Cat.known] at h hk
    simp only [catTree, (hered_tame _ _).quant]; exact atom_tame a h.1 hk
  | .cons a q l, h, hk => by
    simp only [Cat.Faithful, Cat.known, Bool.and_eq_true] at h hk
    simp only [catTree, (hered_tame _ _).makeSequence, (hered_tame _ _).quant, atom_tame a h.1 hk.1, cat_tame l h.2.2.1 hk.2, Bool.and_self]

theorem alt_tame : ∀ (l : Alt), l.Faithful → l.known gs = true →
    (altTree l).tame (gs.map Prod.fst) (gs.filterMap Prod.snd) false = true
  | .empty, _, _ => by simp [altTree, Re.tame]
  | .one c, h, hk => by
    simp only [Alt.Faithful, Alt.known] at h hk
    simp only [altTree]; exact cat_tame c h hk
  | .bar c l, h, hk => by
    simp only [Alt.Faithful, Alt.known, Bool.and_eq_true] at h hk
    simp only [altTree, (hered_tame _ _).makeAlternate, cat_tame c h.1 hk.1, alt_tame l h.2 hk.2, Bool.and_self]

theorem body_tame : ∀ (b : Body), b.Faithful → b.known gs = true →
    (bodyTree b).tame (gs.map Prod.fst) (gs.filterMap Prod.snd) false = true
  | .alt l, h, hk => by
    simp only [Body.Faithful, Body.known] at h hk
    simp only [bodyTree]; exact alt_tame l h hk
  | .lead l, h, hk => by
    simp only [Body.Faithful, Body.known] at h hk
    simp only [bodyTree, (hered_tame _ _).makeAlternate, alt_tame l h hk, Bool.and_true]
    simp [Re.tame]
end

/-! ### Texts without `^` and `\A` -/

mutual
/-- No beginning is demanded, and no alternation is empty. -/
def Re.beginless : Re → Bool
  | .sBegin | .lBegin => false
  | .sel l => !l.isEmpty && beginlessAll l
  | .seq l | .cap _ _ l | .rep _ _ _ l => beginlessAll l
  | _ => true

def beginlessAll : List Re → Bool
  | [] => true
  | r :: l => Re.beginless r && beginlessAll l
end

mutual
theorem beginless_anchor (f : Flags) : ∀ (r : Re), Re.beginless r = true → anchorRe f false r = false
  | .cc _, _ | .any, _ | .str _, _ | .empty, _ | .boundary _, _ | .notBoundary _, _ | .reject _, _
  | .bref _, _ | .brefName _, _ | .behind _ _, _ | .mode _, _ | .atomic _, _ | .ahead _ _, _
  | .sEnd, _ | .sEndLine, _ | .lEnd, _ => by simp [anchorRe]
  | .sBegin, h | .lBegin, h => by simp [Re.beginless] at h
  | .sel l, h => by
    simp only [Re.beginless, Bool.and_eq_true, Bool.not_eq_true', List.isEmpty_eq_false_iff] at h
    simp only [anchorRe]; exact beginlessAll_sel f l h.1 h.2
  | .seq l, h => by
    simp only [Re.beginless] at h
    simp only [anchorRe]; exact beginlessAll_seq f l h
  | .cap _ n l, h => by
    simp only [Re.beginless] at h
    cases n
    · simp only [anchorRe]; exact beginlessAll_seq f l h
    · simp [anchorRe]
  | .rep _ _ _ l, h => by
    simp only [Re.beginless] at h
    simp [anchorRe, beginlessAll_seq f l h]

theorem beginlessAll_seq (f : Flags) : ∀ (l : List Re), beginlessAll l = true → anchorSeq f false l = false
  | [], _ => rfl
  | r :: l, h => by
    simp only [beginlessAll, Bool.and_eq_true] at h
    simp only [anchorSeq, beginlessAll_seq f l h.2]; exact beginless_anchor f r h.1

theorem beginlessAll_sel (f : Flags) : ∀ (l : List Re), l ≠ [] → beginlessAll l = true → anchorSel f false l = false
  | [], h, _ => (h rfl).elim
  | r :: l, _, h => by
    simp only [beginlessAll, Bool.and_eq_true] at h
    simp [anchorSel, beginless_anchor f r h.1]
end

theorem beginless_unpack {r : Re} (h : Re.beginless r = true) : beginlessAll (unpack r) = true := by
  unfold unpack
  split
  · simpa [Re.beginless] using h
  · simp [beginlessAll, h]

theorem beginless_combine {k : RepKind} {a b c d : Nat} {l : List Re} (h : beginlessAll l = true) :
    Re.beginless (combineRepeat k a b c d l) = true := by
  unfold combineRepeat
  repeat' split
  all_goals simp [Re.beginless, beginlessAll, h]

theorem beginless_sequence {b a : Re} (h1 : Re.beginless a = true) (h2 : Re.beginless b = true) : Re.beginless (makeSequence b a) = true := by
  unfold makeSequence
  split
  · simp [Re.beginless]
  · simp [Re.beginless]
  · simp_all [Re.beginless, beginlessAll]
  · simp_all [Re.beginless, beginlessAll]
  · split
    · rename_i hk
      rw [Re.sameList_eq hk.2]
      exact beginless_combine (by simpa only [Re.beginless] using h1)
    · simp_all [Re.beginless, beginlessAll]
  · split
    · rename_i hk
      simp only [Re.beginless, beginlessAll, Bool.and_eq_true] at h2 ⊢
      exact ⟨beginless_combine h2.1, h2.2⟩
    · simp_all [Re.beginless, beginlessAll]
  · simp_all [Re.beginless, beginlessAll]
  · simp_all [Re.beginless, beginlessAll]

theorem beginless_alternate {b a : Re} (h1 : Re.beginless a = true) (h2 : Re.beginless b = true) : Re.beginless (makeAlternate b a) = true := by
  unfold makeAlternate
  split <;> simp_all [Re.beginless, beginlessAll]

theorem beginless_quant {q : Quant} {r : Re} (h : Re.beginless r = true) : Re.beginless (quantTree q r) = true := by
  have hkind : ∀ (k : RepKind) (r : Re), Re.beginless r = true → Re.beginless (kindTree k r) = true := by
    intro k r h
    unfold kindTree; split <;> simp_all only [Re.beginless]
  have hrep : ∀ (k : RepKind) (a b : Nat), Re.beginless (.rep k a b (unpack r)) = true := by
    intro k a b; simp only [Re.beginless]; exact beginless_unpack h
  cases q with
  | none => simpa only [quantTree] using h
  | opt k =>
    simp only [quantTree]
    refine hkind _ _ ?_
    unfold makeOptional
    split <;> simp_all [Re.beginless, beginlessAll]
  | star k => simp only [quantTree]; exact hkind _ _ (hrep _ _ _)
  | plus k => simp only [quantTree]; exact hkind _ _ (hrep _ _ _)
  | exactly ds => simp only [quantTree]; exact hrep _ _ _
  | atLeast ds k => simp only [quantTree]; exact hkind _ _ (hrep _ _ _)
  | between ds es k => simp only [quantTree]; exact hkind _ _ (hrep _ _ _)

mutual
theorem atom_beginless : ∀ (a : Atom), a.noBegin = true → Re.beginless (atomTree a) = true
  | .cap _ b, h | .named _ _ b, h => by
    simp only [Atom.noBegin] at h
    simp only [atomTree, Re.beginless]; exact beginless_unpack (body_beginless b h)
  | .group b, h => by
    simp only [Atom.noBegin] at h
    simp only [atomTree]; exact body_beginless b h
  | .bol, h | .subjectBegin, h => by simp [Atom.noBegin] at h
  | .ch _, _ | .cls _, _ | .set _ _, _ | .dot, _ | .eol, _ | .subjectEnd, _
  | .subjectEndLine, _ | .unknown _ _, _ | .wordBoundary, _ | .notWordBoundary, _ | .ref _, _
  | .refNumber _, _ | .refRelative _ _, _ | .refName _, _ | .ahead _ _, _ | .behind _ _, _ | .atomic _, _ | .mode _, _ => by
    simp [atomTree, Re.beginless]

theorem cat_beginless : ∀ (c : Cat), c.noBegin = true → Re.beginless (catTree c) = true
  | .one a q, h => by
    simp only [Cat.noBegin] at h
    simp only [catTree]; exact beginless_quant (atom_beginless a h)
  | .cons a q l, h => by
    simp only [Cat.noBegin, Bool.and_eq_true] at h
    simp only [catTree]
    exact beginless_sequence (beginless_quant (atom_beginless a h.1)) (cat_beginless l h.2)

theorem alt_beginless : ∀ (l : Alt), l.noBegin = true → Re.beginless (altTree l) = true
  | .empty, _ => by simp [altTree, Re.beginless]
  | .one c, h => by
    simp only [Alt.noBegin] at h
    simp only [altTree]; exact cat_beginless c h
  | .bar c l, h => by
    simp only [Alt.noBegin, Bool.and_eq_true] at h
    simp only [altTree]; exact beginless_alternate (cat_beginless c h.1) (alt_beginless l h.2)

theorem body_beginless : ∀ (b : Body), b.noBegin = true → Re.beginless (bodyTree b) = true
  | .alt l, h => by
    simp only [Body.noBegin] at h
    simp only [bodyTree]; exact alt_beginless l h
  | .lead l, h => by
    simp only [Body.noBegin] at h
    simp only [bodyTree]; exact beginless_alternate (by simp [Re.beginless]) (alt_beginless l h)
end

theorem body_noAnchor {b : Body} (h : b.noBegin = true) (f : Flags) : startsWithAnchor f (bodyTree b) = false :=
  beginless_anchor f _ (body_beginless b h)

end Ctre.Parse
