import Verif.Lemmas.ParseSets

/-
The parser reads what `print` writes: for every syntax tree that can be written, the parser accepts the text and builds
the tree `bodyTree`.
-/
namespace Ctre.Parse
open Surface

/-! ### Trees -/

/-- The reversed content of a lookbehind. -/
def rotated (r : Re) : List Re := ((rotateList (unpack r)).getD []).reverse

mutual
def atomTree : Atom → Re
  | .ch c => .cc (.chr (charTree c))
  | .cls c => .cc (clsTree c)
  | .unknown _ _ => .reject false
  | .set neg l => .cc (setTree neg l)
  | .dot => .any
  | .bol => .lBegin
  | .eol => .lEnd
  | .subjectBegin => .sBegin
  | .subjectEnd => .sEnd
  | .subjectEndLine => .sEndLine
  | .wordBoundary => .boundary wordChars
  | .notWordBoundary => .boundary (.negSet [wordChars])
  | .ref d => .bref (d - 48)
  | .refNumber ds => .bref (decimal ds % szMod)
  | .refRelative _ id => .bref id
  | .refName n => .brefName n
  | .cap id b => .cap id none (unpack (bodyTree b))
  | .named id n b => .cap id (some n) (unpack (bodyTree b))
  | .group b => bodyTree b
  | .ahead pos b => .ahead pos (unpack (bodyTree b))
  | .behind pos b => .behind pos (rotated (bodyTree b))
  | .atomic b => .atomic (unpack (bodyTree b))
  | .mode m => .mode m

def catTree : Cat → Re
  | .one a q => quantTree q (atomTree a)
  | .cons a q l => makeSequence (catTree l) (quantTree q (atomTree a))

def altTree : Alt → Re
  | .empty => .empty
  | .one c => catTree c
  | .bar c l => makeAlternate (altTree l) (catTree c)

def bodyTree : Body → Re
  | .alt l => altTree l
  | .lead l => makeAlternate (altTree l) .empty
end

/-! ### Reversal is defined for trees without modes -/

def Rot (r : Re) : Prop := r.rotate ≠ none

theorem rotateList_iff {l : List Re} : rotateList l ≠ none ↔ ∀ r ∈ l, Rot r := by
  induction l with
  | nil => simp [rotateList]
  | cons r l ih =>
    rw [List.forall_mem_cons, ← ih]
    simp only [rotateList, Rot]
    cases r.rotate <;> simp

theorem rot_sel {l : List Re} : Rot (.sel l) ↔ ∀ r ∈ l, Rot r := by
  rw [← rotateList_iff]; simp [Rot, Re.rotate]
theorem rot_seq {l : List Re} : Rot (.seq l) ↔ ∀ r ∈ l, Rot r := by
  rw [← rotateList_iff]; simp [Rot, Re.rotate]
theorem rot_rep {k : RepKind} {a b : Nat} {l : List Re} : Rot (.rep k a b l) ↔ ∀ r ∈ l, Rot r := by
  rw [← rotateList_iff]; simp [Rot, Re.rotate]
theorem rot_cap {id : Nat} {n : Option (List Nat)} {l : List Re} : Rot (.cap id n l) ↔ ∀ r ∈ l, Rot r := by
  rw [← rotateList_iff]; simp [Rot, Re.rotate]
theorem rot_atomic {l : List Re} : Rot (.atomic l) ↔ ∀ r ∈ l, Rot r := by
  rw [← rotateList_iff]; simp [Rot, Re.rotate]
theorem rot_reject : Rot (.reject true) := by simp [Rot, Re.rotate]
theorem rot_str {l : List Nat} : Rot (.str l) := by simp [Rot, Re.rotate]
theorem rot_cc {c : CC} : Rot (.cc c) := by simp [Rot, Re.rotate]

theorem rot_combine {k : RepKind} {a b c d : Nat} {l : List Re} (h : ∀ r ∈ l, Rot r) : Rot (combineRepeat k a b c d l) := by
  unfold combineRepeat
  split
  · exact rot_rep.2 h
  · exact rot_rep.2 h
  · split
    · exact rot_seq.2 (by simp only [List.mem_cons, forall_eq_or_imp]; exact ⟨rot_reject, h⟩)
    · repeat' split
      all_goals exact rot_rep.2 h

theorem rot_makeSequence {b a : Re} (hb : Rot b) (ha : Rot a) : Rot (makeSequence b a) := by
  unfold makeSequence
  split
  · exact rot_str
  · exact rot_str
  · simp only [rot_seq, List.mem_cons, forall_eq_or_imp] at hb ⊢; exact ⟨rot_str, hb.2⟩
  · simp only [rot_seq, List.mem_cons, forall_eq_or_imp] at hb ⊢; exact ⟨rot_str, hb.2⟩
  · split
    · exact rot_combine (rot_rep.1 hb)
    · simp only [rot_seq, List.mem_cons, forall_eq_or_imp]; exact ⟨ha, hb, by simp⟩
  · split
    · simp only [rot_seq, List.mem_cons, forall_eq_or_imp] at hb ⊢; exact ⟨rot_combine (rot_rep.1 hb.1), hb.2⟩
    · simp only [rot_seq, List.mem_cons, forall_eq_or_imp] at hb ⊢; exact ⟨ha, hb.1, hb.2⟩
  · simp only [rot_seq, List.mem_cons, forall_eq_or_imp] at hb ⊢; exact ⟨ha, hb⟩
  · simp only [rot_seq, List.mem_cons, forall_eq_or_imp]; exact ⟨ha, hb, by simp⟩

theorem rot_makeAlternate {b a : Re} (hb : Rot b) (ha : Rot a) : Rot (makeAlternate b a) := by
  unfold makeAlternate
  split
  · simp only [rot_sel, List.mem_cons, forall_eq_or_imp] at hb ⊢; exact ⟨ha, hb⟩
  · simp only [rot_sel, List.mem_cons, forall_eq_or_imp]; exact ⟨ha, hb, by simp⟩

theorem rot_unpack {r : Re} (h : Rot r) : ∀ x ∈ unpack r, Rot x := by
  unfold unpack
  split
  · exact rot_seq.1 h
  · simpa using h

theorem rot_makeOptional {r : Re} (h : Rot r) : Rot (makeOptional r) := by
  unfold makeOptional
  split
  · exact rot_rep.2 (rot_seq.1 h)
  · exact h
  · exact h
  · exact rot_rep.2 (by simpa using h)

theorem rot_kind {k : RepKind} {r : Re} (h : Rot r) : Rot (kindTree k r) := by
  unfold kindTree
  split
  · exact rot_rep.2 (rot_rep.1 h)
  · exact rot_rep.2 (rot_rep.1 h)
  · exact h

theorem rot_quant {q : Quant} {r : Re} (h : Rot r) : Rot (quantTree q r) := by
  cases q
  · exact h
  · exact rot_kind (rot_makeOptional h)
  all_goals first
    | exact rot_kind (rot_rep.2 (rot_unpack h))
    | exact rot_rep.2 (rot_unpack h)

mutual
theorem rot_atom : ∀ (a : Atom), a.hasMode = false → Rot (atomTree a)
  | .ch _, _ => rot_cc
  | .cls _, _ => rot_cc
  | .set _ _, _ => rot_cc
  | .dot, _ => by simp [atomTree, Rot, Re.rotate]
  | .bol, _ => by simp [atomTree, Rot, Re.rotate]
  | .eol, _ => by simp [atomTree, Rot, Re.rotate]
  | .subjectBegin, _ => by simp [atomTree, Rot, Re.rotate]
  | .subjectEnd, _ => by simp [atomTree, Rot, Re.rotate]
  | .subjectEndLine, _ => by simp [atomTree, Rot, Re.rotate]
  | .wordBoundary, _ => by simp [atomTree, Rot, Re.rotate]
  | .notWordBoundary, _ => by simp [atomTree, Rot, Re.rotate]
  | .ref _, _ => by simp [atomTree, Rot, Re.rotate]
  | .refNumber _, _ => by simp [atomTree, Rot, Re.rotate]
  | .refRelative _ _, _ => by simp [atomTree, Rot, Re.rotate]
  | .refName _, _ => by simp [atomTree, Rot, Re.rotate]
  | .cap _ b, h => by simp only [atomTree]; exact rot_cap.2 (rot_unpack (rot_body b h))
  | .named _ _ b, h => by simp only [atomTree]; exact rot_cap.2 (rot_unpack (rot_body b h))
  | .group b, h => by simp only [atomTree]; exact rot_body b h
  | .ahead _ _, _ => by simp [atomTree, Rot, Re.rotate]
  | .behind _ _, _ => by simp [atomTree, Rot, Re.rotate]
  | .atomic b, h => by simp only [atomTree]; exact rot_atomic.2 (rot_unpack (rot_body b h))
  | .mode _, h => by simp [Atom.hasMode] at h
  | .unknown _ _, h => by simp [Atom.hasMode] at h

theorem rot_cat : ∀ (c : Cat), c.hasMode = false → Rot (catTree c)
  | .one a q, h => by simp only [catTree]; exact rot_quant (rot_atom a h)
  | .cons a q l, h => by
    simp only [Cat.hasMode, Bool.or_eq_false_iff] at h
    simp only [catTree]
    exact rot_makeSequence (rot_cat l h.2) (rot_quant (rot_atom a h.1))

theorem rot_alt : ∀ (l : Alt), l.hasMode = false → Rot (altTree l)
  | .empty, _ => by simp [altTree, Rot, Re.rotate]
  | .one c, h => by simp only [altTree]; exact rot_cat c h
  | .bar c l, h => by
    simp only [Alt.hasMode, Bool.or_eq_false_iff] at h
    simp only [altTree]
    exact rot_makeAlternate (rot_alt l h.2) (rot_cat c h.1)

theorem rot_body : ∀ (b : Body), b.hasMode = false → Rot (bodyTree b)
  | .alt l, h => by simp only [bodyTree]; exact rot_alt l h
  | .lead l, h => by simp only [bodyTree]; exact rot_makeAlternate (rot_alt l h) (by simp [Rot, Re.rotate])
end

/-! ### `?+` applies -/

/-- Not a lazy repetition. -/
def NotLazy (r : Re) : Prop := ∀ a b l, r ≠ .rep .lazy a b l

theorem kindOK_poss {r : Re} (h : NotLazy r) : kindOK .poss (makeOptional r) := by
  unfold makeOptional
  split
  · exact kindOK_greedy _ _ _ _
  · exact kindOK_greedy _ _ _ _
  · exact (h _ _ _ rfl).elim
  · exact kindOK_greedy _ _ _ _

theorem kindOK_lazy {r : Re} : kindOK .lazy (makeOptional r) := by
  unfold makeOptional
  split
  · exact kindOK_greedy _ _ _ _
  · exact kindOK_greedy _ _ _ _
  · exact .inr (.inr ⟨rfl, _, rfl⟩)
  · exact kindOK_greedy _ _ _ _

theorem notLazy_kind {k : RepKind} (hk : k ≠ .lazy) {r : Re} (h : NotLazy r) : NotLazy (kindTree k r) := by
  intro a b l hl
  cases k with
  | lazy => exact (hk rfl).elim
  | greedy => exact h a b l (by simpa [kindTree] using hl)
  | poss =>
    cases r with
    | rep k' a' b' l' => cases k' <;> simp only [kindTree, Re.rep.injEq, reduceCtorEq, false_and] at hl; exact h _ _ _ rfl
    | _ => simp [kindTree] at hl

theorem notLazy_greedy {a b : Nat} {l : List Re} : NotLazy (.rep .greedy a b l) := fun _ _ _ h => by cases h

theorem notLazy_makeOptional {r : Re} (h : NotLazy r) : NotLazy (makeOptional r) := by
  unfold makeOptional
  split
  · exact notLazy_greedy
  · exact notLazy_greedy
  · exact (h _ _ _ rfl).elim
  · exact notLazy_greedy

theorem notLazy_makeSequence {b a : Re} (h : NotLazy b ∨ NotLazy a) : NotLazy (makeSequence b a) := by
  unfold makeSequence
  split
  all_goals try (intro _ _ _ h; cases h; done)
  · rename_i k minB maxB l k' minA maxA l'
    split
    · rename_i hk
      have hk' : k ≠ .lazy := by
        rintro rfl
        rcases h with h | h
        · exact h _ _ _ rfl
        · exact h _ _ _ (by rw [← hk.1])
      cases k with
      | lazy => exact (hk' rfl).elim
      | greedy => exact notLazy_greedy
      | poss =>
        intro a b l hl
        simp only [combineRepeat] at hl
        repeat' split at hl
        all_goals cases hl
    · intro _ _ _ h; cases h
  · split
    all_goals intro _ _ _ h; cases h

theorem notLazy_item {a : Atom} (ha : a.lazyOnly = false → NotLazy (atomTree a)) {q : Quant}
    (h : (match q with | .none => a.lazyOnly | .opt k => Decidable.decide (k = .lazy) || a.lazyOnly | q => Decidable.decide (q.kind = .lazy)) = false) :
    NotLazy (quantTree q (atomTree a)) := by
  cases q with
  | none => exact ha h
  | opt k =>
    simp only [Bool.or_eq_false_iff, decide_eq_false_iff_not] at h
    exact notLazy_kind h.1 (notLazy_makeOptional (ha h.2))
  | exactly ds => exact notLazy_greedy
  | star k => exact notLazy_kind (of_decide_eq_false h) notLazy_greedy
  | plus k => exact notLazy_kind (of_decide_eq_false h) notLazy_greedy
  | atLeast ds k => exact notLazy_kind (of_decide_eq_false h) notLazy_greedy
  | between ds es k => exact notLazy_kind (of_decide_eq_false h) notLazy_greedy

theorem notLazy_makeAlternate {b a : Re} : NotLazy (makeAlternate b a) := by
  unfold makeAlternate
  split <;> (intro _ _ _ h; cases h)

mutual
theorem notLazy_atom : ∀ (a : Atom), a.lazyOnly = false → NotLazy (atomTree a)
  | .group b, h => by simp only [atomTree]; exact notLazy_body b h
  | .ch _, _ | .cls _, _ | .set _ _, _ | .dot, _ | .bol, _ | .eol, _ | .subjectBegin, _ | .subjectEnd, _
  | .subjectEndLine, _ | .unknown _ _, _ | .wordBoundary, _ | .notWordBoundary, _ | .ref _, _ | .refNumber _, _ | .refRelative _ _, _
  | .refName _, _ | .cap _ _, _ | .named _ _ _, _ | .ahead _ _, _ | .behind _ _, _ | .atomic _, _ | .mode _, _ => by
    intro _ _ _ h
    simp [atomTree] at h

theorem notLazy_cat : ∀ (c : Cat), c.lazyOnly = false → NotLazy (catTree c)
  | .one a q, h => by
    simp only [catTree]
    refine notLazy_item (notLazy_atom a) ?_
    cases q <;> simpa [Cat.lazyOnly] using h
  | .cons a q l, h => by
    simp only [catTree]
    refine notLazy_makeSequence ?_
    by_cases hl : l.lazyOnly = false
    · exact .inl (notLazy_cat l hl)
    · refine .inr (notLazy_item (notLazy_atom a) ?_)
      cases q <;> simp_all [Cat.lazyOnly]

theorem notLazy_alt : ∀ (l : Alt), l.lazyOnly = false → NotLazy (altTree l)
  | .empty, _ => by intro _ _ _ h; simp [altTree] at h
  | .one c, h => by simp only [altTree]; exact notLazy_cat c h
  | .bar c l, h => by simp only [altTree]; exact notLazy_makeAlternate

theorem notLazy_body : ∀ (b : Body), b.lazyOnly = false → NotLazy (bodyTree b)
  | .alt l, h => by simp only [bodyTree]; exact notLazy_alt l h
  | .lead l, _ => by simp only [bodyTree]; exact notLazy_makeAlternate
end

theorem optOK {a : Atom} {q : Quant} (h : q = .opt .poss → a.lazyOnly = false) :
    ∀ c, q = .opt c → kindOK c (makeOptional (atomTree a)) := by
  rintro c rfl
  cases c with
  | greedy => exact .inl rfl
  | lazy => exact kindOK_lazy
  | poss => exact kindOK_poss (notLazy_atom a (h rfl))

end Ctre.Parse
