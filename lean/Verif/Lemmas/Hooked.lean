import Verif.Spec.Hooked
import Verif.Lemmas.Loops
import Verif.Lemmas.Robust

/-
Texts that begin with an anchor are recognised by `search`; what `split` yields for them.
-/
namespace Ctre
open Parse Surface

mutual
theorem anchorRe_mono (f : Flags) : ∀ (r : Re) {k k' : Bool}, (k = true → k' = true) → anchorRe f k r = true → anchorRe f k' r = true
  | .lBegin, k, k', hk, h => by
    simp only [anchorRe, Bool.or_eq_true] at h ⊢
    exact h.imp_right hk
  | .boundary _, k, k', hk, h => by
    simp only [anchorRe] at h ⊢; exact hk h
  | .sel opts, k, k', hk, h => by
    simp only [anchorRe] at h ⊢; exact anchorSel_mono f opts hk h
  | .seq m, k, k', hk, h => by
    simp only [anchorRe] at h ⊢; exact anchorSeq_mono f m hk h
  | .rep kind a b m, k, k', hk, h => by
    simp only [anchorRe] at h ⊢
    split at h <;> rename_i hc
    · rw [if_pos hc]
      simp only [Bool.and_eq_true] at h ⊢
      exact ⟨anchorSeq_mono f m hk h.1, hk h.2⟩
    · rw [if_neg hc]
      exact anchorSeq_mono f m hk h
  | .cap _ none m, k, k', hk, h => by
    simp only [anchorRe] at h ⊢; exact anchorSeq_mono f m hk h
  | .cap _ (some _) m, k, k', hk, h => by simp [anchorRe] at h
  | .sBegin, _, _, _, _ => rfl
  | .empty, _, _, _, h | .cc _, _, _, _, h | .str _, _, _, _, h | .any, _, _, _, h | .lEnd, _, _, _, h | .sEnd, _, _, _, h
  | .sEndLine, _, _, _, h | .bref _, _, _, _, h | .brefName _, _, _, _, h | .ahead _ _, _, _, _, h | .behind _ _, _, _, _, h
  | .atomic _, _, _, _, h | .notBoundary _, _, _, _, h | .mode _, _, _, _, h => by simp [anchorRe] at h
  termination_by r => sizeOf r

theorem anchorSeq_mono (f : Flags) : ∀ (m : List Re) {k k' : Bool}, (k = true → k' = true) → anchorSeq f k m = true → anchorSeq f k' m = true
  | [], k, k', hk, h => by simp only [anchorSeq] at h ⊢; exact hk h
  | r :: m, k, k', hk, h => by
    simp only [anchorSeq] at h ⊢
    exact anchorRe_mono f r (anchorSeq_mono f m hk) h
  termination_by m => sizeOf m

theorem anchorSel_mono (f : Flags) : ∀ (m : List Re) {k k' : Bool}, (k = true → k' = true) → anchorSel f k m = true → anchorSel f k' m = true
  | [], _, _, _, _ => rfl
  | r :: m, k, k', hk, h => by
    simp only [anchorSel, Bool.and_eq_true] at h ⊢
    exact ⟨anchorRe_mono f r hk h.1, anchorSel_mono f m hk h.2⟩
  termination_by m => sizeOf m
end

/-- The tree is no repetition and is treated as anchored. -/
def Re.Hooked (f : Flags) (r : Re) : Prop := anchorRe f false r = true ∧ ∀ k c d l, r ≠ .rep k c d l

theorem hooked_seq {f : Flags} {a : Re} {l : List Re} (h : a.Hooked f) : (Re.seq (a :: l)).Hooked f :=
  ⟨by simp only [anchorRe, anchorSeq]; exact anchorRe_mono f a (by simp) h.1, fun _ _ _ _ e => by cases e⟩

theorem hooked_cap {f : Flags} {r : Re} {id : Nat} (h : r.Hooked f) : (Re.cap id none (unpack r)).Hooked f := by
  refine ⟨?_, fun _ _ _ _ e => by cases e⟩
  simp only [anchorRe]
  unfold unpack
  split
  · have := h.1; simpa only [anchorRe] using this
  · exact h.1

theorem hooked_sequence {f : Flags} {b a : Re} (h : a.Hooked f) : (makeSequence b a).Hooked f := by
  unfold makeSequence
  split
  · cases h.1
  · cases h.1
  · cases h.1
  · cases h.1
  · exact (h.2 _ _ _ _ rfl).elim
  · exact (h.2 _ _ _ _ rfl).elim
  · exact hooked_seq h
  · exact hooked_seq h

theorem hooked_alternate {f : Flags} {b a : Re} (h1 : a.Hooked f) (h2 : b.Hooked f) : (makeAlternate b a).Hooked f := by
  have h1 := h1.1
  have h2 := h2.1
  unfold makeAlternate
  split
  · simp only [anchorRe] at h2
    exact ⟨by simp only [anchorRe, anchorSel, h1, h2, Bool.and_self], fun _ _ _ _ e => by cases e⟩
  · exact ⟨by simp only [anchorRe, anchorSel, h1, h2, Bool.and_self], fun _ _ _ _ e => by cases e⟩

mutual
theorem atom_hooked {f : Flags} : ∀ (a : Atom), a.hooked f.ml = true → (atomTree a).Hooked f ∧ a.begins f.ml = true
  | .cap _ b, h => by
    simp only [Atom.hooked] at h
    simp only [atomTree, Atom.begins]
    exact ⟨hooked_cap (body_hooked b h).1, (body_hooked b h).2⟩
  | .group b, h => by
    simp only [Atom.hooked] at h
    simp only [atomTree, Atom.begins]; exact body_hooked b h
  | .subjectBegin, _ => ⟨⟨rfl, fun _ _ _ _ e => by cases e⟩, rfl⟩
  | .bol, h => by
    simp only [Atom.hooked] at h
    exact ⟨⟨by simp only [atomTree, anchorRe, h, Bool.true_or], fun _ _ _ _ e => by cases e⟩, h⟩
  | .named _ _ _, h | .ch _, h | .cls _, h | .set _ _, h | .dot, h | .eol, h | .subjectEnd, h
  | .subjectEndLine, h | .unknown _ _, h | .wordBoundary, h | .notWordBoundary, h | .ref _, h
  | .refNumber _, h | .refRelative _ _, h | .refName _, h | .ahead _ _, h | .behind _ _, h | .atomic _, h | .mode _, h => by cases h

theorem cat_hooked {f : Flags} : ∀ (c : Cat), c.hooked f.ml = true → (catTree c).Hooked f ∧ c.begins f.ml = true
  | .one a q, h => by
    simp only [Cat.hooked, Bool.and_eq_true, decide_eq_true_eq] at h
    obtain ⟨rfl, h⟩ := h
    have := atom_hooked a h
    simp only [catTree, quantTree, Cat.begins]; exact ⟨this.1, by simp [this.2]⟩
  | .cons a q l, h => by
    simp only [Cat.hooked, Bool.and_eq_true, decide_eq_true_eq] at h
    obtain ⟨rfl, h⟩ := h
    have := atom_hooked a h
    simp only [catTree, quantTree, Cat.begins]; exact ⟨hooked_sequence this.1, by simp [this.2]⟩

theorem alt_hooked {f : Flags} : ∀ (l : Alt), l.hooked f.ml = true → (altTree l).Hooked f ∧ l.begins f.ml = true
  | .empty, h => by cases h
  | .one c, h => by
    simp only [Alt.hooked] at h
    simp only [altTree, Alt.begins]; exact cat_hooked c h
  | .bar c l, h => by
    simp only [Alt.hooked, Bool.and_eq_true] at h
    have h1 := cat_hooked c h.1
    have h2 := alt_hooked l h.2
    simp only [altTree, Alt.begins]; exact ⟨hooked_alternate h1.1 h2.1, by simp [h1.2, h2.2]⟩

theorem body_hooked {f : Flags} : ∀ (b : Body), b.hooked f.ml = true → (bodyTree b).Hooked f ∧ b.begins f.ml = true
  | .alt l, h => by
    simp only [Body.hooked] at h
    simp only [bodyTree, Body.begins]; exact alt_hooked l h
  | .lead _, h => by cases h
end

section
variable {C : Cfg} {n : Nat} {s : List Ch} {f : Flags} {r : Re} {W : Nat → List MState}

/-- A failed search of a pattern that is treated as anchored. -/
theorem Trials.fails (H : Trials C n s f r W) (ha : startsWithAnchor f r = true) {p : Nat} (hp : p ≤ s.length) (hw : W p = []) :
    searchAt C n s f r p = .done ((initCaps r).setEnd p) := by
  obtain ⟨c, h1, h2⟩ := H.search hp
  rcases h2 with ⟨_, q, τ, rest, h3, h4, h5, _⟩ | ⟨h3, _⟩
  · rcases Nat.lt_or_ge 0 q with h6 | h6
    · rw [H.late ha q h6 h4] at h5; cases h5
    · obtain rfl : q = 0 := by omega
      obtain rfl : p = 0 := by omega
      rw [hw] at h5; cases h5
  · rw [h1]
    unfold searchAt at h1
    rw [if_pos ha] at h1
    rw [(searchLoop_fail' H.numbered (by omega) h1 h3).1]
    rfl

/-- From an iterator that stays where it is. -/
theorem SIter.stays_nth {exec : Nat → Exec} {len : Nat} {dflt : Caps} {k : Nat} {it : SIter} (h : SIter.nth exec len dflt k = some it)
    (hn : it.next exec len dflt = some it) : ∀ j, SIter.nth exec len dflt (k + j) = some it
  | 0 => h
  | j + 1 => by
    rw [← Nat.add_assoc]
    simp only [SIter.nth, SIter.stays_nth h hn j, hn]

theorem Trials.anchored_pieces (H : Trials C n s f r W) (ha : startsWithAnchor f r = true) :
    YieldsPieces (splitNth C n s f r) (anchoredPieces (pick W 0) s.length).1 (anchoredPieces (pick W 0) s.length).2 := by
  cases hw : W 0 with
  | nil =>
    have hex := H.fails ha (Nat.zero_le _) hw
    have h0 : splitNth C n s f r 0 = some ⟨0, (((initCaps r).setEnd 0).setStart 0).setMatched, true⟩ := by
      simp only [splitNth, SIter.nth, SIter.init, hex, SIter.assign]; rfl
    rw [pick_none hw]
    simp only [anchoredPieces]
    split <;> rename_i hl
    · have h1 : splitNth C n s f r 1 = some ⟨0, initCaps r, true⟩ := by
        unfold splitNth at h0 ⊢
        simp only [SIter.nth] at h0 ⊢
        rw [h0]
        simp [SIter.next, hl]
      refine ⟨fun i hi => ?_, fun _ j => ⟨_, SIter.stays_nth h1 (by simp [SIter.next, hl]) j, by simp [SIter.isEnd, init_unmatched]⟩, fun q h => by cases h⟩
      obtain rfl : i = 0 := by simpa using hi
      exact ⟨_, h0, rfl⟩
    · refine ⟨fun i hi => by simp at hi, (fun h => by cases h), fun q h j => ?_⟩
      cases h
      refine ⟨_, SIter.stays_nth h0 ?_ j, rfl⟩
      simp only [SIter.next, Ne.symm hl, false_and, if_false, hex, SIter.assign]; rfl
  | cons τ rest =>
    obtain ⟨c, h1, ⟨_, q, τ', rest', h3, h4, h5, h6, h7⟩ | ⟨_, h4⟩⟩ := H.search (Nat.zero_le s.length)
    swap
    · rw [h4 0 (Nat.le_refl _) (Nat.zero_le _)] at hw; cases hw
    obtain rfl : q = 0 := by
      rcases Nat.lt_or_ge 0 q with h8 | h8
      · rw [h7 0 (Nat.le_refl _) h8] at hw; cases hw
      · omega
    rw [hw] at h5
    cases h5
    have hc := whole_of_reports h6
    obtain ⟨_, _, h9, _, _, h12⟩ := search_spanOK H.numbered 0 c (Nat.zero_le _) h1 (by rw [hc])
    rw [hc] at h9
    simp only [Slot.mk.injEq, Option.some.injEq, and_true] at h9
    obtain ⟨rfl, rfl⟩ := h9
    have hp : pick W 0 = some τ.pos := by simp [pick, hw]
    have h0 : splitNth C n s f r 0 = some ⟨τ.pos, (c.setEnd 0).setStart 0, false⟩ := by
      simp only [splitNth, SIter.nth, SIter.init, h1, SIter.assign, hc, if_true, SIter.modifyMatch]
    have hm : ((c.setEnd 0).setStart 0).whole = ⟨some 0, some 0, true⟩ := by
      simp [Caps.setEnd, Caps.setStart, hc]
    rw [hp]
    cases he : τ.pos with
    | zero =>
      rw [he] at h0 hc
      refine ⟨fun i hi => by simp [anchoredPieces] at hi, (fun h => by cases h), fun q h j => ?_⟩
      cases h
      exact ⟨_, SIter.stays_nth h0 (by simp [SIter.next, h1, SIter.assign, hc, SIter.modifyMatch]) j, hm⟩
    | succ e =>
      rw [he] at h0 hc h12
      have hex := H.fails ha h12 (H.late ha (e + 1) (by omega) h12)
      have h2 : splitNth C n s f r 1 = some ⟨e + 1, (((initCaps r).setEnd (e + 1)).setStart (e + 1)).setMatched, true⟩ := by
        unfold splitNth at h0 ⊢
        simp only [SIter.nth] at h0 ⊢
        rw [h0]
        simp only [SIter.next, Bool.false_eq_true, and_false, if_false, hex, SIter.assign]; rfl
      simp only [anchoredPieces]
      split <;> rename_i hl
      · have h3 : splitNth C n s f r 2 = some ⟨e + 1, initCaps r, true⟩ := by
          unfold splitNth at h2 ⊢
          rw [SIter.nth, h2]
          simp [SIter.next, hl]
        refine ⟨fun i hi => ?_, fun _ j => ⟨_, SIter.stays_nth h3 (by simp [SIter.next, hl]) j, by simp [SIter.isEnd, init_unmatched]⟩, fun q h => by cases h⟩
        match i, hi with
        | 0, _ => exact ⟨_, h0, hm⟩
        | 1, _ => exact ⟨_, h2, by rw [← hl]; rfl⟩
      · refine ⟨fun i hi => ?_, (fun h => by cases h), fun q h j => ?_⟩
        · obtain rfl : i = 0 := by simpa using hi
          exact ⟨_, h0, hm⟩
        · cases h
          refine ⟨_, SIter.stays_nth h2 ?_ j, rfl⟩
          simp only [SIter.next, hl, false_and, if_false, hex, SIter.assign]; rfl

end
end Ctre
