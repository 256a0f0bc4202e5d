import Verif.Lemmas.Sharpen
import Verif.Spec.Compiles
import Verif.Spec.Terminates
import Verif.Spec.Ways
import Verif.Spec.Shapes

/-
What a pattern and the sharpened pattern have in common.
-/
namespace Ctre

mutual
theorem Re.sharpen_captures : ∀ (r : Re) (t : Stack), (r.sharpen t).captures = r.captures
  | .sel l, _ => by simp only [Re.sharpen, Re.captures, sharpenEach_captures l]
  | .seq l, _ => by simp only [Re.sharpen, Re.captures, sharpenAll_captures l]
  | .cap _ _ l, _ => by simp only [Re.sharpen, Re.captures, sharpenAll_captures l]
  | .rep _ _ _ l, _ => by simp only [Re.sharpen, Re.captures, sharpenAll_captures l]
  | .atomic l, _ => by simp only [Re.sharpen, Re.captures, sharpenAll_captures l]
  | .ahead _ l, _ => by simp only [Re.sharpen, Re.captures, sharpenAll_captures l]
  | .behind _ l, _ => by simp only [Re.sharpen, Re.captures, sharpenAll_captures l]
  | .cc _, _ | .any, _ | .str _, _ | .empty, _ | .bref _, _ | .brefName _, _ | .boundary _, _ | .notBoundary _, _
  | .sBegin, _ | .sEnd, _ | .sEndLine, _ | .lBegin, _ | .lEnd, _ | .mode _, _ | .reject _, _ => by simp only [Re.sharpen]

theorem sharpenAll_captures : ∀ (l : List Re) (t : Stack), capturesList (sharpenAll t l) = capturesList l
  | [], _ => rfl
  | r :: l, _ => by simp only [sharpenAll, capturesList, Re.sharpen_captures r, sharpenAll_captures l]

theorem sharpenEach_captures : ∀ (l : List Re) (t : Stack), capturesList (sharpenEach t l) = capturesList l
  | [], _ => rfl
  | r :: l, _ => by simp only [sharpenEach, capturesList, Re.sharpen_captures r, sharpenEach_captures l]
end

mutual
theorem Re.sharpen_noSelf : ∀ (r : Re) (num : List Nat → Option Nat) (t : Stack) O, (r.sharpen t).noSelf num O = r.noSelf num O
  | .sel l, _, _, _ => by simp only [Re.sharpen, Re.noSelf, sharpenEach_noSelf l]
  | .seq l, _, _, _ => by simp only [Re.sharpen, Re.noSelf, sharpenAll_noSelf l]
  | .cap _ _ l, _, _, _ => by simp only [Re.sharpen, Re.noSelf, sharpenAll_noSelf l]
  | .rep _ _ _ l, _, _, _ => by simp only [Re.sharpen, Re.noSelf, sharpenAll_noSelf l]
  | .atomic l, _, _, _ => by simp only [Re.sharpen, Re.noSelf, sharpenAll_noSelf l]
  | .ahead _ l, _, _, _ => by simp only [Re.sharpen, Re.noSelf, sharpenAll_noSelf l]
  | .behind _ l, _, _, _ => by simp only [Re.sharpen, Re.noSelf, sharpenAll_noSelf l]
  | .cc _, _, _, _ | .any, _, _, _ | .str _, _, _, _ | .empty, _, _, _ | .bref _, _, _, _ | .brefName _, _, _, _ | .boundary _, _, _, _ | .notBoundary _, _, _, _
  | .sBegin, _, _, _ | .sEnd, _, _, _ | .sEndLine, _, _, _ | .lBegin, _, _, _ | .lEnd, _, _, _ | .mode _, _, _, _ | .reject _, _, _, _ => by simp only [Re.sharpen]

theorem sharpenAll_noSelf : ∀ (l : List Re) (num : List Nat → Option Nat) (t : Stack) O, noSelfList num O (sharpenAll t l) = noSelfList num O l
  | [], _, _, _ => rfl
  | r :: l, _, _, _ => by simp only [sharpenAll, noSelfList, Re.sharpen_noSelf r, sharpenAll_noSelf l]

theorem sharpenEach_noSelf : ∀ (l : List Re) (num : List Nat → Option Nat) (t : Stack) O, noSelfList num O (sharpenEach t l) = noSelfList num O l
  | [], _, _, _ => rfl
  | r :: l, _, _, _ => by simp only [sharpenEach, noSelfList, Re.sharpen_noSelf r, sharpenEach_noSelf l]
end

mutual
theorem Re.sharpen_noReopen : ∀ (r : Re) (t : Stack) O, (r.sharpen t).noReopen O = r.noReopen O
  | .sel l, _, _ => by simp only [Re.sharpen, Re.noReopen, sharpenEach_noReopen l]
  | .seq l, _, _ => by simp only [Re.sharpen, Re.noReopen, sharpenAll_noReopen l]
  | .cap _ _ l, _, _ => by simp only [Re.sharpen, Re.noReopen, sharpenAll_noReopen l]
  | .rep _ _ _ l, _, _ => by simp only [Re.sharpen, Re.noReopen, sharpenAll_noReopen l]
  | .atomic l, _, _ => by simp only [Re.sharpen, Re.noReopen, sharpenAll_noReopen l]
  | .ahead _ l, _, _ => by simp only [Re.sharpen, Re.noReopen, sharpenAll_noReopen l]
  | .behind _ l, _, _ => by simp only [Re.sharpen, Re.noReopen, sharpenAll_noReopen l]
  | .cc _, _, _ | .any, _, _ | .str _, _, _ | .empty, _, _ | .bref _, _, _ | .brefName _, _, _ | .boundary _, _, _ | .notBoundary _, _, _
  | .sBegin, _, _ | .sEnd, _, _ | .sEndLine, _, _ | .lBegin, _, _ | .lEnd, _, _ | .mode _, _, _ | .reject _, _, _ => by simp only [Re.sharpen]

theorem sharpenAll_noReopen : ∀ (l : List Re) (t : Stack) O, noReopenList O (sharpenAll t l) = noReopenList O l
  | [], _, _ => rfl
  | r :: l, _, _ => by simp only [sharpenAll, noReopenList, Re.sharpen_noReopen r, sharpenAll_noReopen l]

theorem sharpenEach_noReopen : ∀ (l : List Re) (t : Stack) O, noReopenList O (sharpenEach t l) = noReopenList O l
  | [], _, _ => rfl
  | r :: l, _, _ => by simp only [sharpenEach, noReopenList, Re.sharpen_noReopen r, sharpenEach_noReopen l]
end

mutual
theorem Re.sharpen_tame : ∀ (r : Re) ids names (t : Stack) lb, (r.sharpen t).tame ids names lb = r.tame ids names lb
  | .sel l, _, _, _, _ => by simp only [Re.sharpen, Re.tame, sharpenEach_tame l]
  | .seq l, _, _, _, _ => by simp only [Re.sharpen, Re.tame, sharpenAll_tame l]
  | .cap _ _ l, _, _, _, _ => by simp only [Re.sharpen, Re.tame, sharpenAll_tame l]
  | .rep _ _ _ l, _, _, _, _ => by simp only [Re.sharpen, Re.tame, sharpenAll_tame l]
  | .atomic l, _, _, _, _ => by simp only [Re.sharpen, Re.tame, sharpenAll_tame l]
  | .ahead _ l, _, _, _, _ => by simp only [Re.sharpen, Re.tame, sharpenAll_tame l]
  | .behind _ l, _, _, _, _ => by simp only [Re.sharpen, Re.tame, sharpenAll_tame l]
  | .cc _, _, _, _, _ | .any, _, _, _, _ | .str _, _, _, _, _ | .empty, _, _, _, _ | .bref _, _, _, _, _ | .brefName _, _, _, _, _ | .boundary _, _, _, _, _ | .notBoundary _, _, _, _, _
  | .sBegin, _, _, _, _ | .sEnd, _, _, _, _ | .sEndLine, _, _, _, _ | .lBegin, _, _, _, _ | .lEnd, _, _, _, _ | .mode _, _, _, _, _ | .reject _, _, _, _, _ => by simp only [Re.sharpen]

theorem sharpenAll_tame : ∀ (l : List Re) ids names (t : Stack) lb, tameAll ids names lb (sharpenAll t l) = tameAll ids names lb l
  | [], _, _, _, _ => rfl
  | r :: l, _, _, _, _ => by simp only [sharpenAll, tameAll, Re.sharpen_tame r, sharpenAll_tame l]

theorem sharpenEach_tame : ∀ (l : List Re) ids names (t : Stack) lb, tameAll ids names lb (sharpenEach t l) = tameAll ids names lb l
  | [], _, _, _, _ => rfl
  | r :: l, _, _, _, _ => by simp only [sharpenEach, tameAll, Re.sharpen_tame r, sharpenEach_tame l]
end

mutual
theorem Re.sharpen_moves : ∀ (r : Re) (t : Stack), r.moves = true → (r.sharpen t).moves = true
  | .sel l, t, h => by
    simp only [Re.sharpen, Re.moves] at h ⊢
    exact sharpenEach_moves l t h
  | .seq l, t, h => by
    simp only [Re.sharpen, Re.moves] at h ⊢
    exact sharpenAll_moves l t h
  | .cap _ _ l, t, h => by
    simp only [Re.sharpen, Re.moves] at h ⊢
    exact sharpenAll_moves l _ h
  | .rep k a b l, t, h => by
    simp only [Re.sharpen, Re.moves, Bool.and_eq_true, Bool.or_eq_true] at h ⊢
    exact ⟨h.1, h.2.imp (sharpenAll_moves l _) (sharpenAll_honest l _)⟩
  | .atomic l, t, h => by
    simp only [Re.sharpen, Re.moves, Bool.or_eq_true] at h ⊢
    exact h.imp (sharpenAll_moves l _) (sharpenAll_honest l _)
  | .ahead _ l, t, h | .behind _ l, t, h => by simp [Re.moves] at h
  | .cc _, _, h | .any, _, h | .str _, _, h | .empty, _, h | .bref _, _, h | .brefName _, _, h | .boundary _, _, h | .notBoundary _, _, h
  | .sBegin, _, h | .sEnd, _, h | .sEndLine, _, h | .lBegin, _, h | .lEnd, _, h | .mode _, _, h | .reject _, _, h => by simpa only [Re.sharpen] using h

theorem Re.sharpen_honest : ∀ (r : Re) (t : Stack), r.honest = true → (r.sharpen t).honest = true
  | .sel l, t, h => by
    simp only [Re.sharpen, Re.honest] at h ⊢
    exact sharpenEach_honest l t h
  | .seq l, t, h => by
    simp only [Re.sharpen, Re.honest, Bool.or_eq_true] at h ⊢
    exact h.imp (sharpenAll_moves l _) (sharpenAll_honest l _)
  | .cap _ _ l, t, h => by
    simp only [Re.sharpen, Re.honest, Bool.or_eq_true] at h ⊢
    exact h.imp (sharpenAll_moves l _) (sharpenAll_honest l _)
  | .rep .greedy a b l, t, h => by
    simp only [Re.sharpen, sharpKind]
    split
    · rfl
    · simp only [Re.honest, Bool.and_eq_true, Bool.or_eq_true] at h ⊢
      exact ⟨h.1, h.2.imp (sharpenAll_moves l _) (sharpenAll_honest l _)⟩
  | .rep .lazy a b l, t, h => by
    simp only [Re.sharpen, sharpKind, Re.honest, Bool.or_eq_true] at h ⊢
    exact h.imp (sharpenAll_moves l _) (sharpenAll_honest l _)
  | .rep .poss a b l, t, h => rfl
  | .atomic l, t, h | .ahead _ l, t, h | .behind _ l, t, h => rfl
  | .cc _, _, h | .any, _, h | .str _, _, h | .empty, _, h | .bref _, _, h | .brefName _, _, h | .boundary _, _, h | .notBoundary _, _, h
  | .sBegin, _, h | .sEnd, _, h | .sEndLine, _, h | .lBegin, _, h | .lEnd, _, h | .mode _, _, h | .reject _, _, h => by simpa only [Re.sharpen] using h

theorem sharpenAll_moves : ∀ (l : List Re) (t : Stack), movesAny l = true → movesAny (sharpenAll t l) = true
  | [], _, h => h
  | r :: l, t, h => by
    simp only [sharpenAll, movesAny, Bool.or_eq_true] at h ⊢
    exact h.imp (Re.sharpen_moves r _) (sharpenAll_moves l t)

theorem sharpenEach_moves : ∀ (l : List Re) (t : Stack), movesAll l = true → movesAll (sharpenEach t l) = true
  | [], _, h => h
  | r :: l, t, h => by
    simp only [sharpenEach, movesAll, Bool.and_eq_true] at h ⊢
    exact ⟨Re.sharpen_moves r _ h.1, sharpenEach_moves l t h.2⟩

theorem sharpenAll_honest : ∀ (l : List Re) (t : Stack), honestAll l = true → honestAll (sharpenAll t l) = true
  | [], _, h => h
  | r :: l, t, h => by
    simp only [sharpenAll, honestAll, Bool.and_eq_true] at h ⊢
    exact ⟨Re.sharpen_honest r _ h.1, sharpenAll_honest l t h.2⟩

theorem sharpenEach_honest : ∀ (l : List Re) (t : Stack), honestAll l = true → honestAll (sharpenEach t l) = true
  | [], _, h => h
  | r :: l, t, h => by
    simp only [sharpenEach, honestAll, Bool.and_eq_true] at h ⊢
    exact ⟨Re.sharpen_honest r _ h.1, sharpenEach_honest l t h.2⟩
end

mutual
theorem Re.sharpen_progressive : ∀ (r : Re) (t : Stack), r.progressive = true → (r.sharpen t).progressive = true
  | .sel l, t, h => by
    simp only [Re.sharpen, Re.progressive] at h ⊢
    exact sharpenEach_progressive l t h
  | .seq l, t, h | .cap _ _ l, t, h | .atomic l, t, h | .ahead _ l, t, h => by
    simp only [Re.sharpen, Re.progressive] at h ⊢
    exact sharpenAll_progressive l _ h
  | .rep k a b l, t, h => by
    simp only [Re.sharpen, Re.progressive, Bool.and_eq_true, Bool.or_eq_true] at h ⊢
    exact ⟨h.1.imp (·.imp id (sharpenAll_moves l _)) (sharpenAll_honest l _), sharpenAll_progressive l _ h.2⟩
  | .behind _ l, t, h => rfl
  | .cc _, _, h | .any, _, h | .str _, _, h | .empty, _, h | .bref _, _, h | .brefName _, _, h | .boundary _, _, h | .notBoundary _, _, h
  | .sBegin, _, h | .sEnd, _, h | .sEndLine, _, h | .lBegin, _, h | .lEnd, _, h | .mode _, _, h | .reject _, _, h => by simpa only [Re.sharpen] using h

theorem sharpenAll_progressive : ∀ (l : List Re) (t : Stack), progressiveAll l = true → progressiveAll (sharpenAll t l) = true
  | [], _, h => h
  | r :: l, t, h => by
    simp only [sharpenAll, progressiveAll, Bool.and_eq_true] at h ⊢
    exact ⟨Re.sharpen_progressive r _ h.1, sharpenAll_progressive l t h.2⟩

theorem sharpenEach_progressive : ∀ (l : List Re) (t : Stack), progressiveAll l = true → progressiveAll (sharpenEach t l) = true
  | [], _, h => h
  | r :: l, t, h => by
    simp only [sharpenEach, progressiveAll, Bool.and_eq_true] at h ⊢
    exact ⟨Re.sharpen_progressive r _ h.1, sharpenEach_progressive l t h.2⟩
end

theorem sharpenAll_isEmpty : ∀ (l : List Re) (t : Stack), (sharpenAll t l).isEmpty = l.isEmpty
  | [], _ => rfl
  | _ :: _, _ => rfl

mutual
theorem Re.sharpen_attentive : ∀ (r : Re) (t : Stack), r.attentive = true → (r.sharpen t).attentive = true
  | .sel l, t, h => by
    simp only [Re.sharpen, Re.attentive] at h ⊢
    exact sharpenEach_attentive l t h
  | .seq l, t, h | .cap _ _ l, t, h | .ahead _ l, t, h | .behind _ l, t, h => by
    simp only [Re.sharpen, Re.attentive, Bool.and_eq_true, sharpenAll_isEmpty] at h ⊢
    exact ⟨h.1, sharpenAll_attentive l _ h.2⟩
  | .rep k a b l, t, h | .atomic l, t, h => by
    simp only [Re.sharpen, Re.attentive, Bool.and_eq_true, Bool.or_eq_true] at h ⊢
    exact ⟨h.1.imp (sharpenAll_moves l _) (sharpenAll_honest l _), sharpenAll_attentive l _ h.2⟩
  | .cc _, _, h | .any, _, h | .str _, _, h | .empty, _, h | .bref _, _, h | .brefName _, _, h | .boundary _, _, h | .notBoundary _, _, h
  | .sBegin, _, h | .sEnd, _, h | .sEndLine, _, h | .lBegin, _, h | .lEnd, _, h | .mode _, _, h | .reject _, _, h => by simpa only [Re.sharpen] using h

theorem sharpenAll_attentive : ∀ (l : List Re) (t : Stack), attentiveAll l = true → attentiveAll (sharpenAll t l) = true
  | [], _, h => h
  | r :: l, t, h => by
    simp only [sharpenAll, attentiveAll, Bool.and_eq_true] at h ⊢
    exact ⟨Re.sharpen_attentive r _ h.1, sharpenAll_attentive l t h.2⟩

theorem sharpenEach_attentive : ∀ (l : List Re) (t : Stack), attentiveAll l = true → attentiveAll (sharpenEach t l) = true
  | [], _, h => h
  | r :: l, t, h => by
    simp only [sharpenEach, attentiveAll, Bool.and_eq_true] at h ⊢
    exact ⟨Re.sharpen_attentive r _ h.1, sharpenEach_attentive l t h.2⟩
end

mutual
theorem Re.sharpen_weight : ∀ (r : Re) (t : Stack), (r.sharpen t).weight ≤ r.weight
  | .sel l, t => by
    have := sharpenEach_weight l t
    simp only [Re.sharpen, Re.weight]; omega
  | .seq l, t => by
    have := sharpenAll_weight l t
    simp only [Re.sharpen, Re.weight]; omega
  | .cap id _ l, t => by
    have := sharpenAll_weight l (.numMark id :: t)
    simp only [Re.sharpen, Re.weight]; omega
  | .rep k a b l, t => by
    have := sharpenAll_weight l [.endCycle]
    cases k <;> simp only [Re.sharpen, sharpKind]
    · split <;> simp only [Re.weight] <;> omega
    · simp only [Re.weight]; omega
    · simp only [Re.weight]; omega
  | .atomic l, t => by
    have := sharpenAll_weight l [.endCycle]
    simp only [Re.sharpen, Re.weight]; omega
  | .ahead _ l, t => by
    have := sharpenAll_weight l [.endAhead]
    simp only [Re.sharpen, Re.weight]; omega
  | .behind _ l, t => by
    have := sharpenAll_weight l [.endBehind]
    simp only [Re.sharpen, Re.weight]; omega
  | .cc _, _ | .any, _ | .str _, _ | .empty, _ | .bref _, _ | .brefName _, _ | .boundary _, _ | .notBoundary _, _
  | .sBegin, _ | .sEnd, _ | .sEndLine, _ | .lBegin, _ | .lEnd, _ | .mode _, _ | .reject _, _ => by simp only [Re.sharpen]; exact Nat.le_refl _

theorem sharpenAll_weight : ∀ (l : List Re) (t : Stack), weightAll (sharpenAll t l) ≤ weightAll l
  | [], _ => Nat.le_refl _
  | r :: l, t => by
    have h1 := Re.sharpen_weight r (items l t)
    have h2 := sharpenAll_weight l t
    simp only [sharpenAll, weightAll]; omega

theorem sharpenEach_weight : ∀ (l : List Re) (t : Stack), weightAll (sharpenEach t l) ≤ weightAll l
  | [], _ => Nat.le_refl _
  | r :: l, t => by
    have h1 := Re.sharpen_weight r t
    have h2 := sharpenEach_weight l t
    simp only [sharpenEach, weightAll]; omega
end

end Ctre
