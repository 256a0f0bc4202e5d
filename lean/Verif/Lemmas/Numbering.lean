import Verif.Model.Parser
import Verif.Spec.Shapes
import Verif.Lemmas.SurfaceSem

/-
The numbers of the groups in whatever the parser accepts.
-/
namespace Ctre

mutual
/-- The numbers of all groups of a pattern, in lookbehinds and atomic groups too. -/
def Re.ids : Re → List Nat
  | .sel l | .seq l | .rep _ _ _ l | .ahead _ l | .behind _ l | .atomic l => idsList l
  | .cap id _ l => id :: idsList l
  | _ => []

def idsList : List Re → List Nat
  | [] => []
  | r :: l => r.ids ++ idsList l
end

theorem idsList_append (l m : List Re) : idsList (l ++ m) = idsList l ++ idsList m := by
  induction l with
  | nil => rfl
  | cons r l ih => simp [idsList, ih]

theorem capturesList_app (l m : List Re) : capturesList (l ++ m) = capturesList l ++ capturesList m := by
  induction l with
  | nil => rfl
  | cons r l ih => simp [capturesList, ih]

theorem idsList_reverse (l : List Re) : (idsList l.reverse).Perm (idsList l) := by
  induction l with
  | nil => exact .refl _
  | cons r l ih =>
    rw [List.reverse_cons, idsList_append]
    simp only [idsList, List.append_nil]
    exact (List.perm_append_comm).trans (ih.append_left _)

mutual
theorem rotate_ids : ∀ (r : Re) {r' : Re}, r.rotate = some r' → r'.ids.Perm r.ids
  | .sel l, r', h => by
    simp only [Re.rotate, Option.map_eq_some_iff] at h
    obtain ⟨l', h, rfl⟩ := h
    exact rotateList_ids l h
  | .seq l, r', h | .rep _ _ _ l, r', h | .atomic l, r', h => by
    simp only [Re.rotate, Option.map_eq_some_iff] at h
    obtain ⟨l', h, rfl⟩ := h
    exact (idsList_reverse l').trans (rotateList_ids l h)
  | .cap id _ l, r', h => by
    simp only [Re.rotate, Option.map_eq_some_iff] at h
    obtain ⟨l', h, rfl⟩ := h
    exact ((idsList_reverse l').trans (rotateList_ids l h)).cons _
  | .cc _, r', h | .any, r', h | .str _, r', h | .empty, r', h | .bref _, r', h | .brefName _, r', h
  | .ahead _ _, r', h | .behind _ _, r', h | .boundary _, r', h | .notBoundary _, r', h | .sBegin, r', h | .sEnd, r', h
  | .sEndLine, r', h | .lBegin, r', h | .lEnd, r', h | .reject true, r', h => by
    simp only [Re.rotate, Option.some.injEq] at h
    subst h
    exact .refl _
  | .mode _, r', h | .reject false, r', h => by simp [Re.rotate] at h

theorem rotateList_ids : ∀ (l : List Re) {l' : List Re}, rotateList l = some l' → (idsList l').Perm (idsList l)
  | [], l', h => by simp [rotateList] at h; subst h; exact .refl _
  | r :: l, l', h => by
    unfold rotateList at h
    cases h1 : r.rotate with
    | none => simp [h1] at h
    | some r' =>
      rw [h1] at h
      simp only [Option.map_eq_some_iff] at h
      obtain ⟨m, h2, rfl⟩ := h
      exact (rotate_ids r h1).append (rotateList_ids l h2)
end

mutual
theorem captures_sub : ∀ (r : Re), (groupIds r.captures).Sublist r.ids
  | .sel l | .seq l | .rep _ _ _ l | .ahead _ l => by simp only [Re.captures, Re.ids]; exact capturesList_sub l
  | .cap id _ l => by simp only [Re.captures, Re.ids, groupIds, List.map_cons]; exact (capturesList_sub l).cons₂ _
  | .behind _ l | .atomic l => by simp [Re.captures, Re.ids, groupIds]
  | .cc _ | .any | .str _ | .empty | .bref _ | .brefName _
  | .boundary _ | .notBoundary _ | .sBegin | .sEnd | .sEndLine | .lBegin | .lEnd | .reject _ | .mode _ => by
    simp [Re.captures, groupIds]

theorem capturesList_sub : ∀ (l : List Re), (groupIds (capturesList l)).Sublist (idsList l)
  | [] => by simp [capturesList, groupIds]
  | r :: l => by
    simp only [capturesList, idsList, groupIds, List.map_append]
    exact (captures_sub r).append (capturesList_sub l)
end

mutual
theorem noReopen_of_ids : ∀ (r : Re) (O : List Nat), r.ids.Nodup → 0 ∉ r.ids → (∀ i ∈ r.ids, i ∉ O) → r.noReopen O = true
  | .sel l, O, h, h0, hO | .seq l, O, h, h0, hO | .rep _ _ _ l, O, h, h0, hO | .ahead _ l, O, h, h0, hO
  | .behind _ l, O, h, h0, hO | .atomic l, O, h, h0, hO => by
    simp only [Re.ids] at h h0 hO
    simp only [Re.noReopen]
    exact noReopenList_of_ids l O h h0 hO
  | .cap id _ l, O, h, h0, hO => by
    simp only [Re.ids, List.nodup_cons, List.mem_cons, not_or, forall_eq_or_imp] at h h0 hO
    simp only [Re.noReopen, Bool.and_eq_true, bne_iff_ne, Bool.not_eq_true', List.contains_eq_mem, decide_eq_false_iff_not]
    refine ⟨⟨fun h' => h0.1 h'.symm, hO.1⟩, noReopenList_of_ids l _ h.2 h0.2 ?_⟩
    intro i hi hm
    rcases List.mem_cons.1 hm with rfl | hm
    · exact h.1 hi
    · exact hO.2 i hi hm
  | .cc _, _, _, _, _ | .any, _, _, _, _ | .str _, _, _, _, _ | .empty, _, _, _, _ | .bref _, _, _, _, _ | .brefName _, _, _, _, _
  | .boundary _, _, _, _, _ | .notBoundary _, _, _, _, _ | .sBegin, _, _, _, _ | .sEnd, _, _, _, _ | .sEndLine, _, _, _, _
  | .lBegin, _, _, _, _ | .lEnd, _, _, _, _ | .reject _, _, _, _, _ | .mode _, _, _, _, _ => by simp [Re.noReopen]

theorem noReopenList_of_ids : ∀ (l : List Re) (O : List Nat), (idsList l).Nodup → 0 ∉ idsList l → (∀ i ∈ idsList l, i ∉ O) →
    noReopenList O l = true
  | [], _, _, _, _ => rfl
  | r :: l, O, h, h0, hO => by
    simp only [idsList, List.nodup_append, List.mem_append, not_or] at h h0 hO
    simp only [noReopenList, Bool.and_eq_true]
    exact ⟨noReopen_of_ids r O h.1 h0.1 fun i hi => hO i (.inl hi), noReopenList_of_ids l O h.2.1 h0.2 fun i hi => hO i (.inr hi)⟩
end

/-- The numbers are `k+1, ..., m` in some order. -/
structure Block (l : List Nat) (k m : Nat) : Prop where
  le : k ≤ m
  nodup : l.Nodup
  mem : ∀ i, i ∈ l ↔ k < i ∧ i ≤ m

theorem Block.nil (k : Nat) : Block [] k k := ⟨Nat.le_refl _, .nil, fun i => by simp⟩

theorem Block.append {a b : List Nat} {k m p : Nat} (h : Block a k m) (h' : Block b m p) : Block (a ++ b) k p := by
  refine ⟨Nat.le_trans h.le h'.le, ?_, fun i => ?_⟩
  · rw [List.nodup_append]
    refine ⟨h.nodup, h'.nodup, ?_⟩
    rintro i hi j hj rfl
    have h1 := (h.mem i).1 hi
    have h2 := (h'.mem i).1 hj
    omega
  · rw [List.mem_append, h.mem, h'.mem]
    have := h.le
    have := h'.le
    omega

theorem Block.perm {a b : List Nat} {k m : Nat} (h : Block a k m) (hp : b.Perm a) : Block b k m :=
  ⟨h.le, hp.nodup_iff.2 h.nodup, fun i => by rw [hp.mem_iff, h.mem]⟩

theorem Block.one {n k m : Nat} (h : Block [n] k m) : n = m ∧ m = k + 1 := by
  have h1 := (h.mem n).1 (by simp)
  have h2 := (h.mem m).2 (by omega)
  have h3 := (h.mem (k+1)).2 (by omega)
  simp at h2 h3
  omega

/-- In order. -/
def Ordered (l : List Nat) : Prop := l.Pairwise (· < ·)

theorem Ordered.append {a b : List Nat} (ha : Ordered a) (hb : Ordered b) (h : ∀ i ∈ a, ∀ j ∈ b, i < j) : Ordered (a ++ b) :=
  List.pairwise_append.2 ⟨ha, hb, h⟩

namespace Parse

/-- Numbers of an entry of the stack. -/
def PItem.ids : PItem → List Nat
  | .re r => r.ids
  | .capId n => [n]
  | _ => []

/-- The groups of the result are in order. -/
def PItem.Ord : PItem → Prop
  | .re r => Ordered (groupIds r.captures)
  | _ => True

/-- The entries contain the numbers up to `m`, lower entries the lower numbers. -/
def Inv : List PItem → Nat → Prop
  | [], m => m = 0
  | x :: ts, m => ∃ k, Block x.ids k m ∧ x.Ord ∧ Inv ts k

theorem Inv.push {x : PItem} {ts : List PItem} {m : Nat} (h : Inv ts m) (h1 : x.ids = []) (h2 : x.Ord) : Inv (x :: ts) m :=
  ⟨m, by rw [h1]; exact .nil m, h2, h⟩

/-- Replacing the top entry by one with the same groups. -/
theorem Inv.same {x y : PItem} {ts : List PItem} {m : Nat} (h : Inv (x :: ts) m) (h1 : y.ids = x.ids) (h2 : x.Ord → y.Ord) :
    Inv (y :: ts) m := by
  obtain ⟨k, h3, h4, h5⟩ := h
  exact ⟨k, by rw [h1]; exact h3, h2 h4, h5⟩

/-- Removing an entry without groups. -/
theorem Inv.drop {x : PItem} {ts : List PItem} {m : Nat} (h : Inv (x :: ts) m) (h1 : x.ids = []) : Inv ts m := by
  obtain ⟨k, h3, h4, h5⟩ := h
  have : k = m := by
    rw [h1] at h3
    have := h3.le
    have := h3.mem m
    simp at this
    omega
  rw [← this]; exact h5

/-- Removing an entry without groups below the top. -/
theorem Inv.drop2 {x y : PItem} {ts : List PItem} {m : Nat} (h : Inv (x :: y :: ts) m) (h1 : y.ids = []) : Inv (x :: ts) m := by
  obtain ⟨k, h3, h4, h5⟩ := h
  exact ⟨k, h3, h4, h5.drop h1⟩

theorem unpack_ids (r : Re) : idsList (unpack r) = r.ids := by
  cases r <;> simp [unpack, idsList, Re.ids]

theorem unpack_captures (r : Re) : capturesList (unpack r) = r.captures := by
  cases r <;> simp [unpack, capturesList, Re.captures]

theorem combineRepeat_ids (k : RepKind) (a b c d : Nat) (l : List Re) : (combineRepeat k a b c d l).ids = idsList l := by
  unfold combineRepeat
  repeat' split
  all_goals simp [Re.ids, idsList]

theorem combineRepeat_captures (k : RepKind) (a b c d : Nat) (l : List Re) :
    (combineRepeat k a b c d l).captures = capturesList l := by
  unfold combineRepeat
  repeat' split
  all_goals simp [Re.captures, capturesList]

theorem nil_of_disjoint {l : List Nat} (h : ∀ i ∈ l, i ∉ l) : l = [] := by
  cases l with
  | nil => rfl
  | cons a l => exact absurd (by simp) (h a (by simp))

theorem makeSequence_ids (b a : Re) (h : ∀ i ∈ a.ids, i ∉ b.ids) : (makeSequence b a).ids = a.ids ++ b.ids := by
  unfold makeSequence
  split
  all_goals try simp [Re.ids, idsList]
  · split
    · rename_i hs
      rw [combineRepeat_ids]
      have := Re.sameList_eq hs.2
      subst this
      simp only [Re.ids] at h
      simp [nil_of_disjoint h]
    · simp [Re.ids, idsList]
  · split
    · rename_i hs
      have := Re.sameList_eq hs.2
      subst this
      simp only [Re.ids, idsList, List.mem_append, not_or] at h
      simp [Re.ids, idsList, combineRepeat_ids, nil_of_disjoint fun i hi => (h i hi).1]
    · simp [Re.ids, idsList]

theorem captures_nil_of_ids {l : List Re} (h : idsList l = []) : capturesList l = [] := by
  have := capturesList_sub l
  rw [h] at this
  simpa [groupIds] using List.sublist_nil.1 this

theorem makeSequence_captures (b a : Re) (h : ∀ i ∈ a.ids, i ∉ b.ids) :
    (makeSequence b a).captures = a.captures ++ b.captures := by
  unfold makeSequence
  split
  all_goals try simp [Re.captures, capturesList]
  · split
    · rename_i hs
      rw [combineRepeat_captures]
      have := Re.sameList_eq hs.2
      subst this
      simp only [Re.ids] at h
      simp [captures_nil_of_ids (nil_of_disjoint h)]
    · simp [Re.captures, capturesList]
  · split
    · rename_i hs
      have := Re.sameList_eq hs.2
      subst this
      simp only [Re.ids, idsList, List.mem_append, not_or] at h
      simp [Re.captures, capturesList, combineRepeat_captures, captures_nil_of_ids (nil_of_disjoint fun i hi => (h i hi).1)]
    · simp [Re.captures, capturesList]

theorem makeAlternate_ids (b a : Re) : (makeAlternate b a).ids = a.ids ++ b.ids := by
  unfold makeAlternate
  split <;> simp [Re.ids, idsList]

theorem makeAlternate_captures (b a : Re) : (makeAlternate b a).captures = a.captures ++ b.captures := by
  unfold makeAlternate
  split <;> simp [Re.captures, capturesList]

theorem makeOptional_ids (a : Re) : (makeOptional a).ids = a.ids := by
  unfold makeOptional
  split <;> simp [Re.ids, idsList]

theorem makeOptional_captures (a : Re) : (makeOptional a).captures = a.captures := by
  unfold makeOptional
  split <;> simp [Re.captures, capturesList]

/-- Joining two entries. -/
theorem Inv.join {a b r : Re} {ts : List PItem} {m : Nat} (h : Inv (.re b :: .re a :: ts) m)
    (h1 : (∀ i ∈ a.ids, i ∉ b.ids) → r.ids = a.ids ++ b.ids)
    (h2 : (∀ i ∈ a.ids, i ∉ b.ids) → r.captures = a.captures ++ b.captures) : Inv (.re r :: ts) m := by
  obtain ⟨k, hb, ob, j, ha, oa, ht⟩ := h
  simp only [PItem.ids, PItem.Ord] at ha hb oa ob
  have hd : ∀ i ∈ a.ids, ∀ j ∈ b.ids, i < j := by
    intro i hi j hj
    have h1 := (ha.mem i).1 hi
    have h2 := (hb.mem j).1 hj
    omega
  have hd' : ∀ i ∈ a.ids, i ∉ b.ids := fun i hi hj => Nat.lt_irrefl _ (hd i hi i hj)
  refine ⟨j, ?_, ?_, ht⟩
  · simp only [PItem.ids, h1 hd']; exact ha.append hb
  · simp only [PItem.Ord, h2 hd', groupIds, List.map_append]
    exact Ordered.append oa ob fun i hi j hj => hd i ((captures_sub a).subset hi) j ((captures_sub b).subset hj)

/-- Closing a group. -/
theorem Inv.close {r : Re} {id : Nat} {name : Option (List Nat)} {ts : List PItem} {m : Nat}
    (h : Inv (.re r :: .capId id :: ts) m) : Inv (.re (.cap id name (unpack r)) :: ts) m := by
  obtain ⟨k, hb, ob, j, ha, -, ht⟩ := h
  simp only [PItem.ids, PItem.Ord] at ha hb ob
  refine ⟨j, ?_, ?_, ht⟩
  · simp only [PItem.ids, Re.ids, unpack_ids]; exact ha.append hb
  · simp only [PItem.Ord, Re.captures, unpack_captures, groupIds, List.map_cons]
    refine Ordered.append (a := [id]) (by simp [Ordered]) ob ?_
    intro i hi x hx
    have h1 := (ha.mem i).1 hi
    have h2 := (hb.mem x).1 ((captures_sub r).subset hx)
    omega

theorem ordered_nil : Ordered [] := List.Pairwise.nil

theorem applyMode_inv {m : Mode} {c : Ctx} (h : Inv c.stack c.counter) : Inv (applyMode m c).stack (applyMode m c).counter := by
  unfold applyMode
  split
  · rename_i n ts hs
    rw [hs] at h
    obtain ⟨k, h1, -, h2⟩ := h
    have := h1.one
    dsimp only
    refine Inv.push ?_ rfl ordered_nil
    rw [show c.counter - 1 = k by omega]
    exact h2
  · exact Inv.push h rfl ordered_nil

theorem applyTerm_inv {P : PropTable} {v : Nat} {c c' : Ctx} {a : Act} (h : Inv c.stack c.counter)
    (ha : applyTerm P v c a = .ok c') : Inv c'.stack c'.counter := by
  have push : ∀ {x : PItem}, c.push x = .ok c' → x.ids = [] → x.Ord → Inv c'.stack c'.counter := by
    intro x hx h1 h2
    simp only [Ctx.push, ARes.ok.injEq] at hx
    subst hx
    exact h.push h1 h2
  have set : ∀ {l : List PItem}, c.setStack l = .ok c' → Inv l c.counter → Inv c'.stack c'.counter := by
    intro l hl h1
    simp only [Ctx.setStack, ARes.ok.injEq] at hl
    subst hl
    exact h1
  cases a
  all_goals simp only [applyTerm] at ha
  all_goals try exact push ha rfl ordered_nil
  all_goals try exact push ha rfl trivial
  all_goals try (simp only [ARes.ok.injEq] at ha; subst ha; exact applyMode_inv h)
  case prepareCapture =>
    simp only [ARes.ok.injEq] at ha
    subst ha
    refine ⟨c.counter, ⟨by simp, by simp [PItem.ids], fun i => by simp [PItem.ids]; omega⟩, trivial, h⟩
  case resetCapture =>
    split at ha
    · rename_i n ts hs
      simp only [ARes.ok.injEq] at ha
      subst ha
      rw [hs] at h
      obtain ⟨k, h1, -, h2⟩ := h
      have := h1.one
      dsimp only
      rw [show c.counter - 1 = k by omega]
      exact h2
    · simp at ha
  all_goals repeat' split at ha
  all_goals try (simp at ha; done)
  all_goals try rename c.stack = _ => hs
  all_goals try rw [hs] at h
  all_goals try exact set ha (h.same rfl fun _ => ordered_nil)
  all_goals try exact set ha (h.same rfl fun _ => trivial)
  all_goals try exact set ha (h.same rfl id)
  all_goals try exact set ha ((h.drop rfl).same rfl fun _ => ordered_nil)
  all_goals try exact set ha ((h.drop2 rfl).same (unpack_ids _) fun _ => ordered_nil)
  all_goals try exact set ha (h.same (unpack_ids _) fun ho => by simpa only [PItem.Ord, Re.captures, unpack_captures] using ho)
  all_goals try exact set ha ((h.drop rfl).same (unpack_ids _) fun ho => by
    simpa only [PItem.Ord, Re.captures, unpack_captures] using ho)
  all_goals try exact set ha (((h.drop rfl).drop rfl).same (unpack_ids _) fun ho => by
    simpa only [PItem.Ord, Re.captures, unpack_captures] using ho)
  all_goals try exact set ha ((h.drop2 rfl).same (unpack_ids _) fun ho => by
    simpa only [PItem.Ord, Re.captures, unpack_captures] using ho)
  all_goals try exact set ha h.close
  all_goals try exact set ha (h.drop2 rfl).close
  all_goals try exact set ha (h.join (makeSequence_ids _ _) (makeSequence_captures _ _))
  all_goals try exact set ha (h.join (fun _ => makeAlternate_ids _ _) fun _ => makeAlternate_captures _ _)
  all_goals try exact set ha (h.same (makeOptional_ids _) fun ho => by
    simpa only [PItem.Ord, makeOptional_captures] using ho)
  all_goals try exact push ha rfl trivial
  -- lookbehind
  · rename_i heq
    obtain ⟨k, h1, -, h2⟩ := h.drop2 rfl
    refine set ha ⟨k, h1.perm ?_, ordered_nil, h2⟩
    simp only [PItem.ids, Re.ids]
    rw [← unpack_ids]
    exact (idsList_reverse _).trans (rotateList_ids _ heq)

theorem apply_inv {P : PropTable} {prev : Option Nat} {c c' : Ctx} {a : Act} (h : Inv c.stack c.counter)
    (ha : apply P prev c a = .ok c') : Inv c'.stack c'.counter := by
  unfold apply at ha
  split at ha
  · exact applyTerm_inv h ha
  · simp only [Ctx.push, ARes.ok.injEq] at ha
    subst ha
    exact h.push rfl ordered_nil
  · simp at ha

theorem decide_inv {P : PropTable} : ∀ (n : Nat) {prev : Option Nat} {inp : List Nat} {st : List Sym} {c c' : Ctx},
    Inv c.stack c.counter → decide P n prev inp st c = .accept c' → Inv c'.stack c'.counter := by
  intro n
  induction n with
  | zero => intro prev inp st c c' _ h; simp [decide] at h
  | succ n ih =>
    intro prev inp st c c' hi h
    unfold decide at h
    split at h <;> try (rename n + 1 = _ => hn; cases hn)
    · simp_all
    · simp_all
    · split at h
      · rename_i ha
        exact ih (apply_inv hi ha) h
      · simp at h
      · simp at h
    · exact ih hi h
    · simp at h
    · split at h
      · exact ih hi h
      · simp at h
    · simp at h
    · split at h
      · exact ih hi h
      · simp at h
    · simp at h
    · split at h
      · exact ih hi h
      · exact ih hi h
      · simp at h

/-- The groups of every accepted pattern. -/
theorem build_block {P : PropTable} {input : List Nat} {r : Re} (h : build P input = .pattern r) :
    ∃ k m, Block r.ids k m ∧ Ordered (groupIds r.captures) := by
  unfold build at h
  split at h
  · rename_i c hp
    have hi : Inv c.stack c.counter := decide_inv _ (c := {}) rfl hp
    split at h
    · rename_i r' ts hs
      simp only [Built.pattern.injEq] at h
      subst h
      rw [hs] at hi
      obtain ⟨k, h1, h2, _⟩ := hi
      exact ⟨k, _, h1, h2⟩
    · simp at h
  · simp at h
  · simp at h
  · simp at h

theorem build_numbered {P : PropTable} {input : List Nat} {r : Re} (h : build P input = .pattern r) : r.Numbered := by
  obtain ⟨k, m, h1, h2⟩ := build_block h
  refine ⟨h1.nodup.sublist (captures_sub r), noReopen_of_ids r [] h1.nodup ?_ (by simp)⟩
  intro h0
  have := (h1.mem 0).1 h0
  omega

end Parse
end Ctre
