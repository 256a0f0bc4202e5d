import Verif.Lemmas.SurfaceMeaning
import Verif.Spec.Shapes

/-
The capture groups of the trees built by the parser.
-/
namespace Ctre.Parse
open Surface

/-- A condition on trees that is inherited from the parts. -/
structure Hered (p : Re → Bool) (pl : List Re → Bool) : Prop where
  nil : pl [] = true
  cons : ∀ r l, pl (r :: l) = (p r && pl l)
  seq : ∀ l, p (.seq l) = pl l
  sel : ∀ l, p (.sel l) = pl l
  rep : ∀ k a b l, p (.rep k a b l) = pl l
  cc : ∀ c, p (.cc c) = true
  str : ∀ c, p (.str c) = true
  reject : ∀ own, p (.reject own) = true
  empty : p .empty = true

variable {p : Re → Bool} {pl : List Re → Bool}

theorem Hered.combine (h : Hered p pl) (k : RepKind) (a b c d : Nat) (l : List Re) : p (combineRepeat k a b c d l) = pl l := by
  unfold combineRepeat
  repeat' split
  all_goals simp [h.rep, h.seq, h.cons, h.reject]

theorem Hered.makeSequence (h : Hered p pl) (b a : Re) : p (makeSequence b a) = (p a && p b) := by
  unfold Parse.makeSequence
  split
  · simp [h.str, h.cc]
  · simp [h.str, h.cc]
  · simp [h.str, h.cc, h.seq, h.cons]
  · simp [h.str, h.cc, h.seq, h.cons]
  · split
    · rename_i hk
      rw [h.combine, h.rep, h.rep, Re.sameList_eq hk.2, Bool.and_self]
    · simp [h.seq, h.cons, h.rep, h.nil]
  · split
    · rename_i hk
      rw [h.seq, h.seq, h.cons, h.cons, h.combine, h.rep, h.rep, Re.sameList_eq hk.2, ← Bool.and_assoc, Bool.and_self]
    · simp [h.seq, h.cons, h.rep]
  · simp [h.seq, h.cons]
  · simp [h.seq, h.cons, h.nil]

theorem Hered.makeAlternate (h : Hered p pl) (b a : Re) : p (makeAlternate b a) = (p a && p b) := by
  unfold Parse.makeAlternate
  split
  · simp [h.sel, h.cons]
  · simp [h.sel, h.cons, h.nil]

theorem Hered.unpack (h : Hered p pl) (r : Re) : pl (unpack r) = p r := by
  unfold Parse.unpack
  split
  · simp [h.seq]
  · simp [h.cons, h.nil]

theorem Hered.kind (h : Hered p pl) (k : RepKind) (r : Re) : p (kindTree k r) = p r := by
  unfold kindTree
  split <;> simp [h.rep]

theorem Hered.optional (h : Hered p pl) (r : Re) : p (makeOptional r) = p r := by
  unfold makeOptional
  split <;> simp [h.rep, h.seq, h.cons, h.nil]

theorem Hered.quant (h : Hered p pl) (q : Quant) (r : Re) : p (quantTree q r) = p r := by
  cases q <;> simp [quantTree, h.kind, h.optional, h.rep, h.unpack]

theorem hered_noSelf (num : List Nat → Option Nat) (O : List Nat) : Hered (Re.noSelf num O) (noSelfList num O) := by
  constructor <;> intros <;> simp [Re.noSelf, noSelfList]

theorem hered_noNegLook : Hered Re.noNegLook noNegLookList := by
  constructor <;> intros <;> simp [Re.noNegLook, noNegLookList]

/-! ### Lists of groups -/

def toGroup (g : Nat × Option (List Nat)) : Group := { id := g.1, name := g.2 }

theorem captures_unpack (r : Re) : capturesList (unpack r) = r.captures := by
  unfold Parse.unpack; split <;> simp [Re.captures, capturesList]

theorem captures_kind (k : RepKind) (r : Re) : (kindTree k r).captures = r.captures := by
  unfold kindTree; split <;> simp [Re.captures]

theorem captures_optional (r : Re) : (makeOptional r).captures = r.captures := by
  unfold makeOptional; split <;> simp [Re.captures, capturesList]

theorem captures_quant (q : Quant) (r : Re) : (quantTree q r).captures = r.captures := by
  cases q <;> simp [quantTree, captures_kind, captures_optional, Re.captures, captures_unpack]

theorem captures_combine {k : RepKind} {a b c d : Nat} {l : List Re} : (combineRepeat k a b c d l).captures = capturesList l := by
  unfold combineRepeat
  repeat' split
  all_goals simp [Re.captures, capturesList]

theorem captures_sequence {b a : Re} (h : ∀ g ∈ a.captures, g ∉ b.captures) :
    (makeSequence b a).captures = a.captures ++ b.captures := by
  unfold makeSequence
  split
  · simp [Re.captures]
  · simp [Re.captures]
  · simp [Re.captures, capturesList]
  · simp [Re.captures, capturesList]
  · split
    · rename_i hk
      have hl := Re.sameList_eq hk.2
      simp only [Re.captures, ← hl] at h
      rw [captures_combine]
      simp only [Re.captures, ← hl]
      rename_i l _ _ _ _
      cases hc : capturesList l with
      | nil => rfl
      | cons g gs => exact (h g (by simp [hc]) (by simp [hc])).elim
    · simp [Re.captures, capturesList]
  · split
    · rename_i hk
      have hl := Re.sameList_eq hk.2
      simp only [Re.captures, capturesList, ← hl] at h
      simp only [Re.captures, capturesList, captures_combine, ← hl]
      rename_i l _ _ _ _ _
      cases hc : capturesList l with
      | nil => rfl
      | cons g gs => exact (h g (by simp [hc]) (by simp [hc])).elim
    · simp [Re.captures, capturesList]
  · simp [Re.captures, capturesList]
  · simp [Re.captures, capturesList]

theorem captures_alternate {b a : Re} : (makeAlternate b a).captures = a.captures ++ b.captures := by
  unfold makeAlternate
  split <;> simp [Re.captures, capturesList]

variable {find : List Nat → Option (List Nat) → Option Nat}

mutual
/-- The groups of a tree that can be written are numbered consecutively. -/
theorem opened_atom : ∀ (a : Atom) {k : Nat}, a.WF find k → a.opened.map Prod.fst = List.range' (k + 1) a.groups
  | .cap id b, k, h => by
    simp only [Atom.WF] at h
    simp only [Atom.opened, Atom.groups, List.map_cons, opened_body b h.2, h.1, List.range'_succ]
  | .named id n b, k, h => by
    simp only [Atom.WF] at h
    simp only [Atom.opened, Atom.groups, List.map_cons, opened_body b h.2.1, h.1, List.range'_succ]
  | .group b, k, h => by
    simp only [Atom.WF] at h
    simp only [Atom.opened, Atom.groups, opened_body b h]
  | .ahead _ b, k, h => by
    simp only [Atom.WF] at h
    simp only [Atom.opened, Atom.groups, opened_body b h]
  | .behind _ b, k, h => by
    simp only [Atom.WF] at h
    simp only [Atom.opened, Atom.groups, opened_body b h.1]
  | .atomic b, k, h => by
    simp only [Atom.WF] at h
    simp only [Atom.opened, Atom.groups, opened_body b h]
  | .ch _, _, _ | .cls _, _, _ | .set _ _, _, _ | .dot, _, _ | .bol, _, _ | .eol, _, _ | .subjectBegin, _, _
  | .subjectEnd, _, _ | .subjectEndLine, _, _ | .unknown _ _, _, _ | .wordBoundary, _, _ | .notWordBoundary, _, _ | .ref _, _, _
  | .refNumber _, _, _ | .refRelative _ _, _, _ | .refName _, _, _ | .mode _, _, _ => by simp [Atom.opened, Atom.groups]

theorem opened_cat : ∀ (c : Cat) {k : Nat}, c.WF find k → c.opened.map Prod.fst = List.range' (k + 1) c.groups
  | .one a q, k, h => by
    simp only [Cat.WF] at h
    simp only [Cat.opened, Cat.groups, opened_atom a h.1]
  | .cons a q l, k, h => by
    simp only [Cat.WF] at h
    simp only [Cat.opened, Cat.groups, List.map_append, opened_atom a h.1, opened_cat l h.2.2.2]
    rw [show k + a.groups + 1 = k + 1 + a.groups by omega, List.range'_append_1]

theorem opened_alt : ∀ (l : Alt) {k : Nat}, l.WF find k → l.opened.map Prod.fst = List.range' (k + 1) l.groups
  | .empty, _, _ => by simp [Alt.opened, Alt.groups]
  | .one c, k, h => by
    simp only [Alt.WF] at h
    simp only [Alt.opened, Alt.groups, opened_cat c h]
  | .bar c l, k, h => by
    simp only [Alt.WF] at h
    simp only [Alt.opened, Alt.groups, List.map_append, opened_cat c h.1, opened_alt l h.2]
    rw [show k + c.groups + 1 = k + 1 + c.groups by omega, List.range'_append_1]

theorem opened_body : ∀ (b : Body) {k : Nat}, b.WF find k → b.opened.map Prod.fst = List.range' (k + 1) b.groups
  | .alt l, k, h => by
    simp only [Body.WF] at h
    simp only [Body.opened, Body.groups, opened_alt l h]
  | .lead l, k, h => by
    simp only [Body.WF] at h
    simp only [Body.opened, Body.groups, opened_alt l h]
end

mutual
theorem visible_atom : ∀ (a : Atom), a.visible.Sublist a.opened
  | .cap id b => by simp only [Atom.opened, Atom.visible]; exact (visible_body b).cons_cons _
  | .named id n b => by simp only [Atom.opened, Atom.visible]; exact (visible_body b).cons_cons _
  | .group b => by simp only [Atom.opened, Atom.visible]; exact visible_body b
  | .ahead _ b => by simp only [Atom.opened, Atom.visible]; exact visible_body b
  | .behind _ b => by simp [Atom.visible]
  | .atomic b => by simp [Atom.visible]
  | .ch _ | .cls _ | .set _ _ | .dot | .bol | .eol | .subjectBegin | .subjectEnd | .subjectEndLine | .unknown _ _ | .wordBoundary
  | .notWordBoundary | .ref _ | .refNumber _ | .refRelative _ _ | .refName _ | .mode _ => by simp [Atom.visible]

theorem visible_cat : ∀ (c : Cat), c.visible.Sublist c.opened
  | .one a q => by simp only [Cat.opened, Cat.visible]; exact visible_atom a
  | .cons a q l => by simp only [Cat.opened, Cat.visible]; exact (visible_atom a).append (visible_cat l)

theorem visible_alt : ∀ (l : Alt), l.visible.Sublist l.opened
  | .empty => by simp [Alt.visible]
  | .one c => by simp only [Alt.opened, Alt.visible]; exact visible_cat c
  | .bar c l => by simp only [Alt.opened, Alt.visible]; exact (visible_cat c).append (visible_alt l)

theorem visible_body : ∀ (b : Body), b.visible.Sublist b.opened
  | .alt l => by simp only [Body.opened, Body.visible]; exact visible_alt l
  | .lead l => by simp only [Body.opened, Body.visible]; exact visible_alt l
end

/-- Groups of different parts are different. -/
theorem groups_apart {v v' o o' : List (Nat × Option (List Nat))} {k n m : Nat} (h : v.Sublist o) (h' : v'.Sublist o')
    (ho : o.map Prod.fst = List.range' (k + 1) n) (ho' : o'.map Prod.fst = List.range' (k + n + 1) m) :
    ∀ g ∈ v.map toGroup, g ∉ v'.map toGroup := by
  intro g hg hg'
  obtain ⟨x, hx, rfl⟩ := List.mem_map.1 hg
  obtain ⟨y, hy, hxy⟩ := List.mem_map.1 hg'
  have h1 : x.1 ∈ o.map Prod.fst := List.mem_map.2 ⟨x, h.subset hx, rfl⟩
  have h2 : y.1 ∈ o'.map Prod.fst := List.mem_map.2 ⟨y, h'.subset hy, rfl⟩
  rw [ho, List.mem_range'_1] at h1
  rw [ho', List.mem_range'_1] at h2
  have : y.1 = x.1 := congrArg Group.id hxy
  omega

mutual
theorem captures_atom : ∀ (a : Atom) {k : Nat}, a.WF find k → (atomTree a).captures = a.visible.map toGroup
  | .cap id b, k, h => by
    simp only [Atom.WF] at h
    simp only [atomTree, Re.captures, captures_unpack, Atom.visible, List.map_cons, captures_body b h.2]; rfl
  | .named id n b, k, h => by
    simp only [Atom.WF] at h
    simp only [atomTree, Re.captures, captures_unpack, Atom.visible, List.map_cons, captures_body b h.2.1]; rfl
  | .group b, k, h => by
    simp only [Atom.WF] at h
    simp only [atomTree, Atom.visible, captures_body b h]
  | .ahead _ b, k, h => by
    simp only [Atom.WF] at h
    simp only [atomTree, Re.captures, captures_unpack, Atom.visible, captures_body b h]
  | .behind _ b, _, _ => by simp [atomTree, Re.captures, Atom.visible]
  | .atomic b, _, _ => by simp [atomTree, Re.captures, Atom.visible]
  | .ch _, _, _ | .cls _, _, _ | .set _ _, _, _ | .dot, _, _ | .bol, _, _ | .eol, _, _ | .subjectBegin, _, _
  | .subjectEnd, _, _ | .subjectEndLine, _, _ | .unknown _ _, _, _ | .wordBoundary, _, _ | .notWordBoundary, _, _ | .ref _, _, _
  | .refNumber _, _, _ | .refRelative _ _, _, _ | .refName _, _, _ | .mode _, _, _ => by
    simp [atomTree, Re.captures, Atom.visible]

theorem captures_cat : ∀ (c : Cat) {k : Nat}, c.WF find k → (catTree c).captures = c.visible.map toGroup
  | .one a q, k, h => by
    simp only [Cat.WF] at h
    simp only [catTree, captures_quant, Cat.visible, captures_atom a h.1]
  | .cons a q l, k, h => by
    simp only [Cat.WF] at h
    have h1 := captures_atom a h.1
    have h2 := captures_cat l h.2.2.2
    simp only [catTree, Cat.visible, List.map_append]
    rw [captures_sequence, captures_quant, h1, h2]
    rw [captures_quant, h1, h2]
    exact groups_apart (visible_atom a) (visible_cat l) (opened_atom a h.1) (opened_cat l h.2.2.2)

theorem captures_alt : ∀ (l : Alt) {k : Nat}, l.WF find k → (altTree l).captures = l.visible.map toGroup
  | .empty, _, _ => by simp [altTree, Re.captures, Alt.visible]
  | .one c, k, h => by
    simp only [Alt.WF] at h
    simp only [altTree, Alt.visible, captures_cat c h]
  | .bar c l, k, h => by
    simp only [Alt.WF] at h
    simp only [altTree, Alt.visible, captures_alternate, List.map_append, captures_cat c h.1, captures_alt l h.2]

theorem captures_body : ∀ (b : Body) {k : Nat}, b.WF find k → (bodyTree b).captures = b.visible.map toGroup
  | .alt l, k, h => by
    simp only [Body.WF] at h
    simp only [bodyTree, Body.visible, captures_alt l h]
  | .lead l, k, h => by
    simp only [Body.WF] at h
    simp only [bodyTree, Body.visible, captures_alternate, captures_alt l h]
    simp [Re.captures]
end

/-! ### References -/

theorem backward_noSelf {num : List Nat → Option Nat} {O : List Nat} {r : Re} : r.backward = true → r.noSelf num O = true := by
  induction r using Re.rec (motive_2 := fun l => backwardAll l = true → noSelfList num O l = true) with
  | sel l ih => intro h; simp only [Re.backward] at h; simp only [Re.noSelf]; exact ih h
  | seq l ih => intro h; simp only [Re.backward, Bool.and_eq_true] at h; simp only [Re.noSelf]; exact ih h.2
  | nil => rfl
  | cons r l ih1 ih2 =>
    rename_i h
    simp only [backwardAll, Bool.and_eq_true] at h
    simp [noSelfList, ih1 h.1, ih2 h.2]
  | _ => intro h; first | rfl | simp [Re.backward] at h

theorem backward_noNegLook {r : Re} : r.backward = true → r.noNegLook = true := by
  induction r using Re.rec (motive_2 := fun l => backwardAll l = true → noNegLookList l = true) with
  | sel l ih => intro h; simp only [Re.backward] at h; simp only [Re.noNegLook]; exact ih h
  | seq l ih => intro h; simp only [Re.backward, Bool.and_eq_true] at h; simp only [Re.noNegLook]; exact ih h.2
  | nil => rfl
  | cons r l ih1 ih2 =>
    rename_i h
    simp only [backwardAll, Bool.and_eq_true] at h
    simp [noNegLookList, ih1 h.1, ih2 h.2]
  | _ => intro h; first | rfl | simp [Re.backward] at h

theorem backward_rotated {r : Re} (hr : r.backward = true) (hrot : Rot r) : backwardAll (rotated r) = true := by
  obtain ⟨hu, hne⟩ := unpack_backward hr
  obtain ⟨l', hl'⟩ := Option.ne_none_iff_exists'.1 (rotateList_iff.2 (rot_unpack hrot))
  have hseq : (Re.seq (unpack r)).backward = true := by simp [Re.backward, hu, hne]
  have hrs : (Re.seq (unpack r)).rotate = some (.seq l'.reverse) := by simp [Re.rotate, hl']
  obtain ⟨hb', _⟩ := rotate_span (E := ⟨fun _ _ => false, fun _ => none⟩) hseq _ hrs
  simp only [Re.backward, Bool.and_eq_true] at hb'
  simpa [rotated, hl'] using hb'.2

mutual
theorem noSelf_atom {num : List Nat → Option Nat} : ∀ (a : Atom) {k : Nat} {O : List Nat}, a.WF find k → a.Faithful → (∀ o ∈ O, o ≤ k) →
    a.selfFree num O → (atomTree a).noSelf num O = true
  | .cap id b, k, O, h, hf, ho, hs => by
    simp only [Atom.WF, Atom.Faithful, Atom.selfFree] at h hf hs
    have ho' : ∀ o ∈ id :: O, o ≤ k + 1 := by
      intro o hmem
      rcases List.mem_cons.1 hmem with rfl | hmem
      · omega
      · have := ho o hmem; omega
    simp only [atomTree, Re.noSelf, (hered_noSelf num (id :: O)).unpack, noSelf_body b h.2 hf ho' hs]
    have : id ∉ O := fun hm => by have := ho id hm; omega
    have hid : id ≠ 0 := by omega
    simp [this, hid]
  | .named id n b, k, O, h, hf, ho, hs => by
    simp only [Atom.WF, Atom.Faithful, Atom.selfFree] at h hf hs
    have ho' : ∀ o ∈ id :: O, o ≤ k + 1 := by
      intro o hmem
      rcases List.mem_cons.1 hmem with rfl | hmem
      · omega
      · have := ho o hmem; omega
    simp only [atomTree, Re.noSelf, (hered_noSelf num (id :: O)).unpack, noSelf_body b h.2.1 hf ho' hs]
    have : id ∉ O := fun hm => by have := ho id hm; omega
    have hid : id ≠ 0 := by omega
    simp [this, hid]
  | .group b, k, O, h, hf, ho, hs => by
    simp only [Atom.WF, Atom.Faithful, Atom.selfFree] at h hf hs
    simp only [atomTree]; exact noSelf_body b h hf ho hs
  | .ahead _ b, k, O, h, hf, ho, hs => by
    simp only [Atom.WF, Atom.Faithful, Atom.selfFree] at h hf hs
    simp only [atomTree, Re.noSelf, (hered_noSelf num O).unpack]; exact noSelf_body b h hf ho hs
  | .behind _ b, k, O, h, hf, ho, hs => by
    simp only [Atom.Faithful] at hf
    obtain ⟨h1, h2⟩ := backward_body b hf.2
    have := backward_rotated h1 h2
    simp only [atomTree, Re.noSelf]
    have h3 : (Re.sel (rotated (bodyTree b))).noSelf num O = true := backward_noSelf (by simpa only [Re.backward] using this)
    simpa only [Re.noSelf] using h3
  | .atomic b, k, O, h, hf, ho, hs => by
    simp only [Atom.WF, Atom.Faithful, Atom.selfFree] at h hf hs
    simp only [atomTree, Re.noSelf, (hered_noSelf num O).unpack]; exact noSelf_body b h hf ho hs
  | .ref d, k, O, h, hf, ho, hs => by
    simp only [Atom.selfFree] at hs
    simp [atomTree, Re.noSelf, hs]
  | .refNumber ds, k, O, h, hf, ho, hs => by
    simp only [Atom.selfFree, Atom.Faithful] at hs hf
    simp only [atomTree, Re.noSelf, Nat.mod_eq_of_lt (show decimal ds < szMod by simp only [szMod]; omega)]
    simp [hs]
  | .refRelative ds id, k, O, h, hf, ho, hs => by
    simp only [Atom.selfFree] at hs
    simp [atomTree, Re.noSelf, hs]
  | .refName n, k, O, h, hf, ho, hs => by
    simp only [Atom.selfFree] at hs
    simp only [atomTree, Re.noSelf]
    split
    · rename_i id hid; simp [hs id hid]
    · rfl
  | .ch _, _, _, _, _, _, _ | .cls _, _, _, _, _, _, _ | .set _ _, _, _, _, _, _, _ | .dot, _, _, _, _, _, _
  | .bol, _, _, _, _, _, _ | .eol, _, _, _, _, _, _ | .subjectBegin, _, _, _, _, _, _
  | .subjectEnd, _, _, _, _, _, _ | .subjectEndLine, _, _, _, _, _, _ | .unknown _ _, _, _, _, _, _, _ | .wordBoundary, _, _, _, _, _, _
  | .notWordBoundary, _, _, _, _, _, _ | .mode _, _, _, _, _, _, _ => by simp [atomTree, Re.noSelf]

theorem noSelf_cat {num : List Nat → Option Nat} : ∀ (c : Cat) {k : Nat} {O : List Nat}, c.WF find k → c.Faithful → (∀ o ∈ O, o ≤ k) →
    c.selfFree num O → (catTree c).noSelf num O = true
  | .one a q, k, O, h, hf, ho, hs => by
    simp only [Cat.WF, Cat.Faithful, Cat.selfFree] at h hf hs
    simp only [catTree, (hered_noSelf num O).quant]
    exact noSelf_atom a h.1 hf.1 ho hs
  | .cons a q l, k, O, h, hf, ho, hs => by
    simp only [Cat.WF, Cat.Faithful, Cat.selfFree] at h hf hs
    simp only [catTree, (hered_noSelf num O).makeSequence, (hered_noSelf num O).quant, noSelf_atom a h.1 hf.1 ho hs.1,
      noSelf_cat l h.2.2.2 hf.2.2.1 (fun o hm => by have := ho o hm; omega) hs.2, Bool.and_self]

theorem noSelf_alt {num : List Nat → Option Nat} : ∀ (l : Alt) {k : Nat} {O : List Nat}, l.WF find k → l.Faithful → (∀ o ∈ O, o ≤ k) →
    l.selfFree num O → (altTree l).noSelf num O = true
  | .empty, _, _, _, _, _, _ => by simp [altTree, Re.noSelf]
  | .one c, k, O, h, hf, ho, hs => by
    simp only [Alt.WF, Alt.Faithful, Alt.selfFree] at h hf hs
    simp only [altTree]; exact noSelf_cat c h hf ho hs
  | .bar c l, k, O, h, hf, ho, hs => by
    simp only [Alt.WF, Alt.Faithful, Alt.selfFree] at h hf hs
    simp only [altTree, (hered_noSelf num O).makeAlternate, noSelf_cat c h.1 hf.1 ho hs.1,
      noSelf_alt l h.2 hf.2 (fun o hm => by have := ho o hm; omega) hs.2, Bool.and_self]

theorem noSelf_body {num : List Nat → Option Nat} : ∀ (b : Body) {k : Nat} {O : List Nat}, b.WF find k → b.Faithful → (∀ o ∈ O, o ≤ k) →
    b.selfFree num O → (bodyTree b).noSelf num O = true
  | .alt l, k, O, h, hf, ho, hs => by
    simp only [Body.WF, Body.Faithful, Body.selfFree] at h hf hs
    simp only [bodyTree]; exact noSelf_alt l h hf ho hs
  | .lead l, k, O, h, hf, ho, hs => by
    simp only [Body.WF, Body.Faithful, Body.selfFree] at h hf hs
    simp only [bodyTree, (hered_noSelf num O).makeAlternate, noSelf_alt l h hf ho hs, Bool.and_true]; rfl
end

mutual
theorem noNeg_atom : ∀ (a : Atom), a.Faithful → a.noNegative = true → (atomTree a).noNegLook = true
  | .cap _ b, hf, h => by
    simp only [Atom.noNegative, Atom.Faithful] at h hf
    simp only [atomTree, Re.noNegLook, hered_noNegLook.unpack]; exact noNeg_body b hf h
  | .named _ _ b, hf, h => by
    simp only [Atom.noNegative, Atom.Faithful] at h hf
    simp only [atomTree, Re.noNegLook, hered_noNegLook.unpack]; exact noNeg_body b hf h
  | .group b, hf, h => by
    simp only [Atom.noNegative, Atom.Faithful] at h hf
    simp only [atomTree]; exact noNeg_body b hf h
  | .ahead pos b, hf, h => by
    simp only [Atom.noNegative, Atom.Faithful, Bool.and_eq_true] at h hf
    simp only [atomTree, Re.noNegLook, hered_noNegLook.unpack, h.1, noNeg_body b hf h.2, Bool.and_self]
  | .behind pos b, hf, h => by
    simp only [Atom.noNegative, Atom.Faithful, Bool.and_eq_true] at h hf
    obtain ⟨h1, h2⟩ := backward_body b hf.2
    have := backward_rotated h1 h2
    have h3 : (Re.sel (rotated (bodyTree b))).noNegLook = true := backward_noNegLook (by simpa only [Re.backward] using this)
    simp only [Re.noNegLook] at h3
    simp only [atomTree, Re.noNegLook, h.1, h3, Bool.and_self]
  | .atomic b, hf, h => by
    simp only [Atom.noNegative, Atom.Faithful] at h hf
    simp only [atomTree, Re.noNegLook, hered_noNegLook.unpack]; exact noNeg_body b hf h
  | .ch _, _, _ | .cls _, _, _ | .set _ _, _, _ | .dot, _, _ | .bol, _, _ | .eol, _, _ | .subjectBegin, _, _
  | .subjectEnd, _, _ | .subjectEndLine, _, _ | .unknown _ _, _, _ | .wordBoundary, _, _ | .notWordBoundary, _, _ | .ref _, _, _
  | .refNumber _, _, _ | .refRelative _ _, _, _ | .refName _, _, _ | .mode _, _, _ => by simp [atomTree, Re.noNegLook]

theorem noNeg_cat : ∀ (c : Cat), c.Faithful → c.noNegative = true → (catTree c).noNegLook = true
  | .one a q, hf, h => by
    simp only [Cat.noNegative, Cat.Faithful] at h hf
    simp only [catTree, hered_noNegLook.quant]; exact noNeg_atom a hf.1 h
  | .cons a q l, hf, h => by
    simp only [Cat.noNegative, Cat.Faithful, Bool.and_eq_true] at h hf
    simp only [catTree, hered_noNegLook.makeSequence, hered_noNegLook.quant, noNeg_atom a hf.1 h.1, noNeg_cat l hf.2.2.1 h.2,
      Bool.and_self]

theorem noNeg_alt : ∀ (l : Alt), l.Faithful → l.noNegative = true → (altTree l).noNegLook = true
  | .empty, _, _ => rfl
  | .one c, hf, h => by
    simp only [Alt.noNegative, Alt.Faithful] at h hf
    simp only [altTree]; exact noNeg_cat c hf h
  | .bar c l, hf, h => by
    simp only [Alt.noNegative, Alt.Faithful, Bool.and_eq_true] at h hf
    simp only [altTree, hered_noNegLook.makeAlternate, noNeg_cat c hf.1 h.1, noNeg_alt l hf.2 h.2, Bool.and_self]

theorem noNeg_body : ∀ (b : Body), b.Faithful → b.noNegative = true → (bodyTree b).noNegLook = true
  | .alt l, hf, h => by
    simp only [Body.noNegative, Body.Faithful] at h hf
    simp only [bodyTree]; exact noNeg_alt l hf h
  | .lead l, hf, h => by
    simp only [Body.noNegative, Body.Faithful] at h hf
    simp only [bodyTree, hered_noNegLook.makeAlternate, noNeg_alt l hf h, Bool.and_true]; rfl
end

theorem groupNumber_visible : ∀ (l : List (Nat × Option (List Nat))) (n : List Nat),
    groupNumber (l.map toGroup) n = numberOf l n
  | [], _ => rfl
  | (id, name) :: l, n => by
    simp only [List.map_cons, groupNumber, numberOf, groupNumber_visible l n, toGroup]

theorem visible_ids {b : Body} {k : Nat} (h : b.WF find k) : (b.visible.map Prod.fst).Sublist (List.range' (k + 1) b.groups) := by
  rw [← opened_body b h]
  exact (visible_body b).map _

/-- The tree of a pattern without references into open groups satisfies the conditions of the matching theorems. -/
theorem body_wellNumbered {b : Body} (h : b.WF find 0) (hf : b.Faithful) (hs : b.selfFree (numberOf b.visible) []) :
    (bodyTree b).WellNumbered := by
  have hc := captures_body b h
  have hids : groupIds (bodyTree b).captures = b.visible.map Prod.fst := by
    rw [hc]; simp [groupIds, toGroup, Function.comp_def]
  have hsub := visible_ids h
  refine ⟨?_, ?_, ?_⟩
  · rw [hids]; exact hsub.nodup (List.nodup_range')
  · rw [hids]
    intro h0
    have := hsub.subset h0
    rw [List.mem_range'_1] at this
    omega
  · have : groupNumber (bodyTree b).captures = numberOf b.visible := by
      funext n; rw [hc, groupNumber_visible]
    rw [this]
    exact noSelf_body b h hf (by simp) hs

/-! ### Every written pattern has distinct group numbers -/

theorem hered_noReopen (O : List Nat) : Hered (Re.noReopen O) (noReopenList O) := by
  constructor <;> intros <;> simp [Re.noReopen, noReopenList]

theorem noReopenList_append {O : List Nat} : ∀ {l l' : List Re},
    noReopenList O (l ++ l') = (noReopenList O l && noReopenList O l')
  | [], _ => by simp [noReopenList]
  | r :: l, l' => by simp [noReopenList, noReopenList_append (l := l), Bool.and_assoc]

theorem noReopenList_reverse {O : List Nat} : ∀ {l : List Re}, noReopenList O l.reverse = noReopenList O l
  | [] => rfl
  | r :: l => by simp [noReopenList_append, noReopenList, noReopenList_reverse (l := l), Bool.and_comm]

theorem rotate_noReopen {r : Re} : ∀ (O : List Nat) r', r.rotate = some r' → r'.noReopen O = r.noReopen O := by
  induction r using Re.rec (motive_2 := fun l => ∀ (O : List Nat) l', rotateList l = some l' → noReopenList O l' = noReopenList O l) with
  | sel l ih | seq l ih | rep _ _ _ l ih | atomic l ih =>
    intro O r' h
    simp only [Re.rotate, Option.map_eq_some_iff] at h
    obtain ⟨l', h1, rfl⟩ := h
    simp [Re.noReopen, noReopenList_reverse, ih O l' h1]
  | cap id name l ih =>
    intro O r' h
    simp only [Re.rotate, Option.map_eq_some_iff] at h
    obtain ⟨l', h1, rfl⟩ := h
    simp [Re.noReopen, noReopenList_reverse, ih _ l' h1]
  | nil => rename_i O l' h; simp only [rotateList, Option.some.injEq] at h; subst h; rfl
  | cons r l ih1 ih2 =>
    rename_i O l' h
    simp only [rotateList] at h
    split at h
    · simp at h
    · rename_i r' hr
      simp only [Option.map_eq_some_iff] at h
      obtain ⟨l'', h1, rfl⟩ := h
      simp [noReopenList, ih1 O r' hr, ih2 O l'' h1]
  | reject own =>
    intro O r' h
    cases own <;> simp only [Re.rotate, Option.some.injEq, reduceCtorEq] at h
    subst h; rfl
  | _ =>
    intro O r' h
    simp only [Re.rotate, Option.some.injEq, reduceCtorEq] at h
    try (subst h; rfl)

theorem rotated_noReopen {O : List Nat} {r : Re} (h : r.noReopen O = true) : noReopenList O (rotated r) = true := by
  unfold rotated
  rw [noReopenList_reverse]
  cases hl : rotateList (unpack r) with
  | none => rfl
  | some l' =>
    have : Re.rotate (.sel (unpack r)) = some (.sel l') := by simp [Re.rotate, hl]
    have := rotate_noReopen O _ this
    simp only [Re.noReopen, (hered_noReopen O).unpack] at this
    simp [this, h]

mutual
theorem noReopen_atom : ∀ (a : Atom) {k : Nat} {O : List Nat}, a.WF find k → (∀ o ∈ O, o ≤ k) → (atomTree a).noReopen O = true
  | .cap id b, k, O, h, ho => by
    simp only [Atom.WF] at h
    have ho' : ∀ o ∈ id :: O, o ≤ k + 1 := by
      intro o hmem
      rcases List.mem_cons.1 hmem with rfl | hmem
      · omega
      · have := ho o hmem; omega
    simp only [atomTree, Re.noReopen, (hered_noReopen (id :: O)).unpack, noReopen_body b h.2 ho']
    have : id ∉ O := fun hm => by have := ho id hm; omega
    have hid : id ≠ 0 := by omega
    simp [this, hid]
  | .named id n b, k, O, h, ho => by
    simp only [Atom.WF] at h
    have ho' : ∀ o ∈ id :: O, o ≤ k + 1 := by
      intro o hmem
      rcases List.mem_cons.1 hmem with rfl | hmem
      · omega
      · have := ho o hmem; omega
    simp only [atomTree, Re.noReopen, (hered_noReopen (id :: O)).unpack, noReopen_body b h.2.1 ho']
    have : id ∉ O := fun hm => by have := ho id hm; omega
    have hid : id ≠ 0 := by omega
    simp [this, hid]
  | .group b, k, O, h, ho => by
    simp only [Atom.WF] at h
    simp only [atomTree]; exact noReopen_body b h ho
  | .ahead _ b, k, O, h, ho => by
    simp only [Atom.WF] at h
    simp only [atomTree, Re.noReopen, (hered_noReopen O).unpack]; exact noReopen_body b h ho
  | .behind _ b, k, O, h, ho => by
    simp only [Atom.WF] at h
    simp only [atomTree, Re.noReopen]; exact rotated_noReopen (noReopen_body b h.1 ho)
  | .atomic b, k, O, h, ho => by
    simp only [Atom.WF] at h
    simp only [atomTree, Re.noReopen, (hered_noReopen O).unpack]; exact noReopen_body b h ho
  | .ch _, _, _, _, _ | .cls _, _, _, _, _ | .set _ _, _, _, _, _ | .dot, _, _, _, _ | .bol, _, _, _, _ | .eol, _, _, _, _
  | .subjectBegin, _, _, _, _ | .subjectEnd, _, _, _, _ | .subjectEndLine, _, _, _, _ | .unknown _ _, _, _, _, _ | .wordBoundary, _, _, _, _
  | .notWordBoundary, _, _, _, _ | .ref _, _, _, _, _ | .refNumber _, _, _, _, _ | .refRelative _ _, _, _, _, _
  | .refName _, _, _, _, _ | .mode _, _, _, _, _ => by simp [atomTree, Re.noReopen]

theorem noReopen_cat : ∀ (c : Cat) {k : Nat} {O : List Nat}, c.WF find k → (∀ o ∈ O, o ≤ k) → (catTree c).noReopen O = true
  | .one a q, k, O, h, ho => by
    simp only [Cat.WF] at h
    simp only [catTree, (hered_noReopen O).quant]; exact noReopen_atom a h.1 ho
  | .cons a q l, k, O, h, ho => by
    simp only [Cat.WF] at h
    simp only [catTree, (hered_noReopen O).makeSequence, (hered_noReopen O).quant, noReopen_atom a h.1 ho,
      noReopen_cat l h.2.2.2 (fun o hm => by have := ho o hm; omega), Bool.and_self]

theorem noReopen_alt : ∀ (l : Alt) {k : Nat} {O : List Nat}, l.WF find k → (∀ o ∈ O, o ≤ k) → (altTree l).noReopen O = true
  | .empty, _, _, _, _ => rfl
  | .one c, k, O, h, ho => by
    simp only [Alt.WF] at h
    simp only [altTree]; exact noReopen_cat c h ho
  | .bar c l, k, O, h, ho => by
    simp only [Alt.WF] at h
    simp only [altTree, (hered_noReopen O).makeAlternate, noReopen_cat c h.1 ho,
      noReopen_alt l h.2 (fun o hm => by have := ho o hm; omega), Bool.and_self]

theorem noReopen_body : ∀ (b : Body) {k : Nat} {O : List Nat}, b.WF find k → (∀ o ∈ O, o ≤ k) → (bodyTree b).noReopen O = true
  | .alt l, k, O, h, ho => by
    simp only [Body.WF] at h
    simp only [bodyTree]; exact noReopen_alt l h ho
  | .lead l, k, O, h, ho => by
    simp only [Body.WF] at h
    simp only [bodyTree, (hered_noReopen O).makeAlternate, noReopen_alt l h ho, Bool.and_true]; rfl
end

theorem body_numbered {b : Body} (h : b.WF find 0) : (bodyTree b).Numbered := by
  refine ⟨?_, noReopen_body b h (by simp)⟩
  have hids : groupIds (bodyTree b).captures = b.visible.map Prod.fst := by
    rw [captures_body b h]; simp [groupIds, toGroup, Function.comp_def]
  rw [hids]; exact (visible_ids h).nodup (List.nodup_range')

end Ctre.Parse
