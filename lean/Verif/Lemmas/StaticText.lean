import Verif.Lemmas.StaticCount
import Verif.Lemmas.ParsePrint

/-
The number of nodes of a pattern that is read from a text.
-/
namespace Ctre.Parse
open Surface

theorem nodesAll_append (l m : List Re) : nodesAll (l ++ m) = nodesAll l + nodesAll m := by
  induction l with
  | nil => simp [nodesAll]
  | cons r l ih => simp only [List.cons_append, nodesAll, ih]; omega

theorem nodesAll_reverse (l : List Re) : nodesAll l.reverse = nodesAll l := by
  induction l with
  | nil => rfl
  | cons r l ih => rw [List.reverse_cons, nodesAll_append, ih]; simp only [nodesAll]; omega

mutual
theorem rotate_nodes : ∀ (r r' : Re), r.rotate = some r' → r'.nodes = r.nodes
  | .sel l, r', h => by
    simp only [Re.rotate, Option.map_eq_some_iff] at h
    obtain ⟨l', h, rfl⟩ := h
    simp only [Re.nodes, rotateList_nodes l l' h]
  | .seq l, r', h => by
    simp only [Re.rotate, Option.map_eq_some_iff] at h
    obtain ⟨l', h, rfl⟩ := h
    simp only [Re.nodes, nodesAll_reverse, rotateList_nodes l l' h]
  | .rep _ _ _ l, r', h => by
    simp only [Re.rotate, Option.map_eq_some_iff] at h
    obtain ⟨l', h, rfl⟩ := h
    simp only [Re.nodes, nodesAll_reverse, rotateList_nodes l l' h]
  | .cap _ _ l, r', h => by
    simp only [Re.rotate, Option.map_eq_some_iff] at h
    obtain ⟨l', h, rfl⟩ := h
    simp only [Re.nodes, nodesAll_reverse, rotateList_nodes l l' h]
  | .atomic l, r', h => by
    simp only [Re.rotate, Option.map_eq_some_iff] at h
    obtain ⟨l', h, rfl⟩ := h
    simp only [Re.nodes, nodesAll_reverse, rotateList_nodes l l' h]
  | .cc _, r', h | .any, r', h | .str _, r', h | .empty, r', h | .bref _, r', h | .brefName _, r', h | .ahead _ _, r', h
  | .behind _ _, r', h | .boundary _, r', h | .notBoundary _, r', h | .sBegin, r', h | .sEnd, r', h | .sEndLine, r', h
  | .lBegin, r', h | .lEnd, r', h | .reject true, r', h => by
    simp only [Re.rotate, Option.some.injEq] at h; subst h; simp only [Re.nodes]
  | .mode _, r', h | .reject false, r', h => by simp [Re.rotate] at h

theorem rotateList_nodes : ∀ (l l' : List Re), rotateList l = some l' → nodesAll l' = nodesAll l
  | [], l', h => by simp only [rotateList, Option.some.injEq] at h; subst h; rfl
  | r :: l, l', h => by
    simp only [rotateList] at h
    split at h
    · simp at h
    · rename_i r' hr
      simp only [Option.map_eq_some_iff] at h
      obtain ⟨l', h, rfl⟩ := h
      simp only [nodesAll, rotate_nodes r r' hr, rotateList_nodes l l' h]
end

theorem unpack_nodes (r : Re) : nodesAll (unpack r) ≤ r.nodes := by
  cases r <;> simp [unpack, nodesAll, Re.nodes]

theorem rotated_nodes (r : Re) : nodesAll (rotated r) ≤ r.nodes := by
  unfold rotated
  rw [nodesAll_reverse]
  cases h : rotateList (unpack r) with
  | none => simp [nodesAll]
  | some l => simp only [Option.getD_some, rotateList_nodes _ _ h]; exact unpack_nodes r

theorem combineRepeat_nodes (k : RepKind) (a b c d : Nat) (l : List Re) : (combineRepeat k a b c d l).nodes ≤ 2 + nodesAll l := by
  unfold combineRepeat
  repeat' split
  all_goals simp only [Re.nodes, nodesAll]
  all_goals omega

theorem makeSequence_nodes (b a : Re) : (makeSequence b a).nodes ≤ b.nodes + a.nodes + 1 := by
  unfold makeSequence
  split
  case h_5 k c d l k' a b l' =>
    have := combineRepeat_nodes k a b c d l
    split
    · simp only [Re.nodes] at *; omega
    · simp only [Re.nodes, nodesAll]; omega
  case h_6 k c d l as k' a b l' =>
    have := combineRepeat_nodes k c d a b l
    split
    · simp only [Re.nodes, nodesAll] at *; omega
    · simp only [Re.nodes, nodesAll]; omega
  all_goals simp only [Re.nodes, nodesAll]
  all_goals omega

theorem makeAlternate_nodes (b a : Re) : (makeAlternate b a).nodes ≤ b.nodes + a.nodes + 1 := by
  unfold makeAlternate
  split <;> simp only [Re.nodes, nodesAll] <;> omega

theorem makeOptional_nodes (r : Re) : (makeOptional r).nodes ≤ r.nodes + 1 := by
  unfold makeOptional
  split <;> simp only [Re.nodes, nodesAll] <;> omega

theorem kindTree_nodes (k : RepKind) (r : Re) : (kindTree k r).nodes ≤ r.nodes := by
  unfold kindTree
  split
  · simp only [Re.nodes]; omega
  · simp only [Re.nodes]; omega
  · exact Nat.le_refl _

theorem quantTree_nodes (q : Quant) (r : Re) : (quantTree q r).nodes ≤ r.nodes + q.print.length := by
  have h1 := unpack_nodes r
  have h2 := makeOptional_nodes r
  unfold quantTree
  cases q with
  | none => exact Nat.le_add_right _ _
  | opt k =>
    have := kindTree_nodes k (makeOptional r)
    simp only [Quant.print, List.length_cons]; omega
  | star k =>
    have := kindTree_nodes k (.rep .greedy 0 0 (unpack r))
    simp only [Quant.print, List.length_cons, Re.nodes] at *; omega
  | plus k =>
    have := kindTree_nodes k (.rep .greedy 1 0 (unpack r))
    simp only [Quant.print, List.length_cons, Re.nodes] at *; omega
  | exactly ds => simp only [Quant.print, List.length_cons, List.length_append, Re.nodes]; omega
  | atLeast ds k =>
    have := kindTree_nodes k (.rep .greedy (decimal ds % szMod) 0 (unpack r))
    simp only [Quant.print, List.length_cons, List.length_append, Re.nodes] at *; omega
  | between ds es k =>
    have := kindTree_nodes k (.rep .greedy (decimal ds % szMod) (decimal es % szMod) (unpack r))
    simp only [Quant.print, List.length_cons, List.length_append, Re.nodes] at *; omega

mutual
theorem atomTree_nodes : ∀ a : Atom, (atomTree a).nodes + 1 ≤ 2 * a.print.length
  | .ch c => by
    have : 1 ≤ c.print.length := by cases c <;> simp [Char1.print]
    simp only [atomTree, Re.nodes, Atom.print]; omega
  | .cls c => by
    have : 1 ≤ c.print.length := by cases c <;> simp [Cls.print]
    simp only [atomTree, Re.nodes, Atom.print]; omega
  | .set neg l => by simp only [atomTree, Re.nodes, Atom.print, List.length_append, List.length_cons]; omega
  | .dot | .bol | .eol | .subjectBegin | .subjectEnd | .subjectEndLine | .wordBoundary | .notWordBoundary | .ref _ | .mode _ => by
    simp [atomTree, Re.nodes, Atom.print]
  | .refNumber _ | .refRelative _ _ | .refName _ | .unknown _ _ => by
    simp only [atomTree, Re.nodes, Atom.print, List.length_append, List.length_cons]; omega
  | .cap id b => by
    have h1 := bodyTree_nodes b
    have h2 := unpack_nodes (bodyTree b)
    simp only [atomTree, Re.nodes, Atom.print, List.length_append, List.length_cons]; omega
  | .named id n b => by
    have h1 := bodyTree_nodes b
    have h2 := unpack_nodes (bodyTree b)
    simp only [atomTree, Re.nodes, Atom.print, List.length_append, List.length_cons]; omega
  | .group b => by
    have h1 := bodyTree_nodes b
    simp only [atomTree, Atom.print, List.length_append, List.length_cons]; omega
  | .ahead pos b => by
    have h1 := bodyTree_nodes b
    have h2 := unpack_nodes (bodyTree b)
    simp only [atomTree, Re.nodes, Atom.print, List.length_append, List.length_cons]; omega
  | .behind pos b => by
    have h1 := bodyTree_nodes b
    have h2 := rotated_nodes (bodyTree b)
    simp only [atomTree, Re.nodes, Atom.print, List.length_append, List.length_cons]; omega
  | .atomic b => by
    have h1 := bodyTree_nodes b
    have h2 := unpack_nodes (bodyTree b)
    simp only [atomTree, Re.nodes, Atom.print, List.length_append, List.length_cons]; omega

theorem catTree_nodes : ∀ c : Cat, (catTree c).nodes + 1 ≤ 2 * c.print.length
  | .one a q => by
    have h1 := atomTree_nodes a
    have h2 := quantTree_nodes q (atomTree a)
    simp only [catTree, Cat.print, List.length_append]; omega
  | .cons a q l => by
    have h1 := atomTree_nodes a
    have h2 := quantTree_nodes q (atomTree a)
    have h3 := catTree_nodes l
    have h4 := makeSequence_nodes (catTree l) (quantTree q (atomTree a))
    simp only [catTree, Cat.print, List.length_append]; omega

theorem altTree_nodes : ∀ l : Alt, (altTree l).nodes ≤ 2 * l.print.length + 1
  | .empty => by simp [altTree, Re.nodes]
  | .one c => by
    have := catTree_nodes c
    simp only [altTree, Alt.print]; omega
  | .bar c l => by
    have h1 := catTree_nodes c
    have h2 := altTree_nodes l
    have h3 := makeAlternate_nodes (altTree l) (catTree c)
    simp only [altTree, Alt.print, List.length_append, List.length_cons, List.length_nil]; omega

theorem bodyTree_nodes : ∀ b : Body, (bodyTree b).nodes ≤ 2 * b.print.length + 1
  | .alt l => by
    have := altTree_nodes l
    simp only [bodyTree, Body.print]; omega
  | .lead l => by
    have h2 := altTree_nodes l
    have h3 := makeAlternate_nodes (altTree l) .empty
    simp only [Re.nodes] at h3
    simp only [bodyTree, Body.print, List.length_append, List.length_cons, List.length_nil]; omega
end

end Ctre.Parse
