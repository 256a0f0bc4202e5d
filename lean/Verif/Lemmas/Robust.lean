import Verif.Lemmas.Anchored
import Verif.Spec.Robust
import Verif.Lemmas.TextPlain
import Verif.Spec.Anchored
import Verif.Spec.Cursor
import Verif.Model.Wrapper
/-
From conditions on the text of a pattern to conditions on its tree.
-/
namespace Ctre
open Parse Surface

/-! ### Trees -/

mutual
theorem steady_mono {ml M K M' K' : Bool} (hM : M = true → M' = true) (hK : K' = true → K = true) : ∀ (r : Re),
    r.steady ml M K = true → r.steady ml M' K' = true
  | .sel l, h => by simp only [Re.steady] at h ⊢; exact steadyEach_mono hM hK l h
  | .seq l, h | .cap _ _ l, h => by simp only [Re.steady] at h ⊢; exact steadyAll_mono hM hK l h
  | .rep k _ _ l, h => by
    simp only [Re.steady, Bool.and_eq_true, Bool.or_eq_true, Bool.not_eq_true'] at h ⊢
    refine ⟨⟨h.1.1, h.1.2.imp (Or.imp id hM) fun h => ?_⟩, h.2⟩
    cases hk : K' with
    | false => rfl
    | true => rw [hK hk] at h; cases h
  | .cc _, h | .any, h | .empty, h | .str _, h | .boundary _, h | .notBoundary _, h | .bref _, h | .brefName _, h | .ahead _ _, h
  | .behind _ _, h | .atomic _, h | .mode .caseInsensitive, h | .mode .caseSensitive, h | .mode .multiline, h | .mode .singleline, h
  | .sBegin, h | .sEnd, h | .sEndLine, h | .lBegin, h | .lEnd, h | .reject _, h => by
    simpa only [Re.steady] using h

theorem steadyAll_mono {ml M K M' K' : Bool} (hM : M = true → M' = true) (hK : K' = true → K = true) : ∀ (l : List Re),
    steadyAll ml M K l = true → steadyAll ml M' K' l = true
  | [], _ => rfl
  | r :: l, h => by
    simp only [steadyAll, Bool.and_eq_true] at h ⊢
    refine ⟨steady_mono ?_ ?_ r h.1, steadyAll_mono hM hK l h.2⟩
    · simp only [Bool.or_eq_true]; exact Or.imp id hM
    · simp only [Bool.or_eq_true]; exact Or.imp id hK

theorem steadyEach_mono {ml M K M' K' : Bool} (hM : M = true → M' = true) (hK : K' = true → K = true) : ∀ (l : List Re),
    steadyEach ml M K l = true → steadyEach ml M' K' l = true
  | [], _ => rfl
  | r :: l, h => by
    simp only [steadyEach, Bool.and_eq_true] at h ⊢
    exact ⟨steady_mono hM hK r h.1, steadyEach_mono hM hK l h.2⟩
end

mutual
theorem scannable_mono {T T' : Bool} (hT : T = true → T' = true) : ∀ (r : Re), r.scannable T = true → r.scannable T' = true
  | .sel l, h => by simp only [Re.scannable] at h ⊢; exact scannableEach_mono hT l h
  | .seq l, h | .cap _ _ l, h => by simp only [Re.scannable] at h ⊢; exact scannableAll_mono hT l h
  | .rep k _ _ l, h => by
    simp only [Re.scannable, Bool.and_eq_true, Bool.or_eq_true] at h ⊢
    exact ⟨h.1.imp id fun h => ⟨h.1, hT h.2⟩, h.2⟩
  | .cc _, h | .any, h | .empty, h | .str _, h | .boundary _, h | .notBoundary _, h | .bref _, h | .brefName _, h | .ahead _ _, h
  | .behind _ _, h | .atomic _, h | .mode _, h
  | .sBegin, h | .sEnd, h | .sEndLine, h | .lBegin, h | .lEnd, h | .reject _, h => by
    simpa only [Re.scannable] using h

theorem scannableAll_mono {T T' : Bool} (hT : T = true → T' = true) : ∀ (l : List Re), scannableAll T l = true → scannableAll T' l = true
  | [], _ => rfl
  | r :: l, h => by
    simp only [scannableAll, Bool.and_eq_true] at h ⊢
    refine ⟨scannable_mono ?_ r h.1, scannableAll_mono hT l h.2⟩
    simp only [Bool.and_eq_true]; exact And.imp id hT

theorem scannableEach_mono {T T' : Bool} (hT : T = true → T' = true) : ∀ (l : List Re), scannableEach T l = true → scannableEach T' l = true
  | [], _ => rfl
  | r :: l, h => by
    simp only [scannableEach, Bool.and_eq_true] at h ⊢
    exact ⟨scannable_mono hT r h.1, scannableEach_mono hT l h.2⟩
end

/-- What is asked of a tree in its context. -/
structure Re.Good (ml M K T : Bool) (r : Re) : Prop where
  steady : r.steady ml M K = true
  scannable : r.scannable T = true

theorem Re.Good.mono {ml M K T M' K' T' : Bool} {r : Re} (h : r.Good ml M K T) (hM : M = true → M' = true) (hK : K' = true → K = true)
    (hT : T = true → T' = true) : r.Good ml M' K' T' := ⟨steady_mono hM hK r h.1, scannable_mono hT r h.2⟩

theorem tests_unpack (r : Re) : testsAny (unpack r) = r.tests := by
  unfold unpack
  split
  · simp [Re.tests]
  · simp [testsAny]

theorem scans_unpack (r : Re) : scansAll (unpack r) = r.scans := by
  unfold unpack
  split
  · simp [Re.scans]
  · simp [scansAll]

theorem steady_unpack (ml M K : Bool) (r : Re) : steadyAll ml M K (unpack r) = r.steady ml M K := by
  unfold unpack
  split
  · simp [Re.steady]
  · simp [steadyAll, movesAny, testsAny]

theorem scannable_unpack (T : Bool) (r : Re) : scannableAll T (unpack r) = r.scannable T := by
  unfold unpack
  split
  · simp [Re.scannable]
  · simp [scannableAll, scansAll]

theorem tests_combine {k : RepKind} (hk : k ≠ .poss) {a b c d : Nat} {l : List Re} : (combineRepeat k a b c d l).tests = false := by
  cases k with
  | poss => exact (hk rfl).elim
  | _ => rfl

theorem scans_combine {k : RepKind} (hk : k ≠ .poss) {a b c d : Nat} {l : List Re} : (combineRepeat k a b c d l).scans = scansAll l := by
  cases k with
  | poss => exact (hk rfl).elim
  | _ => simp only [combineRepeat, Re.scans]

theorem good_combine {ml M K T : Bool} {k : RepKind} (hk : k ≠ .poss) {a b c d e m : Nat} {l : List Re} :
    (combineRepeat k a b c d l).Good ml M K T ↔ (Re.rep k e m l).Good ml M K T := by
  constructor <;> rintro ⟨h1, h2⟩
  all_goals
    cases k with
    | poss => exact (hk rfl).elim
    | _ =>
      simp only [combineRepeat, Re.steady, Re.scannable] at h1 h2 ⊢
      exact ⟨by simpa only [Re.steady] using h1, by simpa only [Re.scannable] using h2⟩

theorem tests_sequence {b a : Re} (hp : ¬ (isPoss a ∧ leadPoss b)) (h1 : a.tests = false) (h2 : b.tests = false) :
    (makeSequence b a).tests = false := by
  unfold makeSequence
  split
  · rfl
  · rfl
  · simp_all [Re.tests, testsAny]
  · simp_all [Re.tests, testsAny]
  · split
    · rename_i hk
      obtain ⟨rfl, hl⟩ := hk
      refine tests_combine ?_
      rintro rfl; exact hp ⟨⟨_, _, _, rfl⟩, ⟨_, _, rfl⟩⟩
    · rfl
  · split
    · rename_i hk
      obtain ⟨rfl, hl⟩ := hk
      simp only [Re.tests, testsAny, Bool.or_eq_false_iff] at h2 ⊢
      refine ⟨tests_combine ?_, h2.2⟩
      rintro rfl; exact hp ⟨⟨_, _, _, rfl⟩, ⟨_, _, rfl⟩⟩
    · simp_all [Re.tests, testsAny]
  · simp_all [Re.tests, testsAny]
  · simp_all [Re.tests, testsAny]

theorem scans_sequence {b a : Re} (hp : ¬ (isPoss a ∧ leadPoss b)) (h1 : a.scans = true) (h2 : b.scans = true) :
    (makeSequence b a).scans = true := by
  unfold makeSequence
  split
  · rfl
  · rfl
  · simp_all [Re.scans, scansAll]
  · simp_all [Re.scans, scansAll]
  · split
    · rename_i hk
      obtain ⟨rfl, hl⟩ := hk
      rw [scans_combine]
      · have := Re.sameList_eq hl
        subst this
        simpa only [Re.scans] using h1
      · rintro rfl; exact hp ⟨⟨_, _, _, rfl⟩, ⟨_, _, rfl⟩⟩
    · simp_all [Re.scans, scansAll]
  · split
    · rename_i hk
      obtain ⟨rfl, hl⟩ := hk
      have := Re.sameList_eq hl
      subst this
      simp only [Re.scans, scansAll, Bool.and_eq_true] at h2 ⊢
      refine ⟨?_, h2.2⟩
      rw [scans_combine]
      · exact h2.1
      · rintro rfl; exact hp ⟨⟨_, _, _, rfl⟩, ⟨_, _, rfl⟩⟩
    · simp_all [Re.scans, scansAll]
  · simp_all [Re.scans, scansAll]
  · simp_all [Re.scans, scansAll]

theorem good_pair {ml M K T : Bool} {a b : Re} (h1 : a.Good ml (b.moves || M) (b.tests || K) (b.scans && T)) (h2 : b.Good ml M K T) :
    (Re.seq [a, b]).Good ml M K T := by
  constructor
  · simp [Re.steady, steadyAll, movesAny, testsAny, h1.1, h2.1]
  · simp [Re.scannable, scannableAll, scansAll, h1.2, h2.2]

theorem good_cons {ml M K T : Bool} {a : Re} {l : List Re}
    (h1 : a.Good ml ((Re.seq l).moves || M) ((Re.seq l).tests || K) ((Re.seq l).scans && T)) (h2 : (Re.seq l).Good ml M K T) :
    (Re.seq (a :: l)).Good ml M K T := by
  obtain ⟨h1, h3⟩ := h1
  obtain ⟨h2, h4⟩ := h2
  simp only [Re.moves, Re.tests, Re.scans] at h1 h3
  simp only [Re.steady, Re.scannable] at h2 h4
  constructor
  · simp only [Re.steady, steadyAll, h1, h2, Bool.and_self]
  · simp only [Re.scannable, scannableAll, h3, h4, Bool.and_self]

theorem good_str {ml M K T : Bool} {cs : List Nat} : (Re.str cs).Good ml M K T ↔ ∀ c ∈ cs, c < 2147483648 := by
  constructor
  · intro h; simpa [Re.steady] using h.1
  · intro h; exact ⟨by simpa [Re.steady] using h, rfl⟩

theorem good_chr {ml M K T : Bool} {c : Nat} : (Re.cc (.chr c)).Good ml M K T ↔ c < 2147483648 := by
  constructor
  · intro h; simpa [Re.steady, CC.sane] using h.1
  · intro h; exact ⟨by simpa [Re.steady, CC.sane] using h, rfl⟩

theorem good_seq_cons {ml M K T : Bool} {r : Re} {l : List Re} : (Re.seq (r :: l)).Good ml M K T ↔
    r.Good ml (movesAny l || M) (testsAny l || K) (scansAll l && T) ∧ (Re.seq l).Good ml M K T := by
  constructor
  · rintro ⟨h1, h2⟩
    simp only [Re.steady, steadyAll, Re.scannable, scannableAll, Bool.and_eq_true] at h1 h2
    exact ⟨⟨h1.1, h2.1⟩, ⟨by simpa only [Re.steady] using h1.2, by simpa only [Re.scannable] using h2.2⟩⟩
  · rintro ⟨h1, h2⟩
    exact good_cons (by simpa only [Re.moves, Re.tests, Re.scans] using h1) h2

theorem good_sequence {ml M K T : Bool} {b a : Re} (hp : ¬ (isPoss a ∧ leadPoss b))
    (h1 : a.Good ml (b.moves || M) (b.tests || K) (b.scans && T)) (h2 : b.Good ml M K T) : (makeSequence b a).Good ml M K T := by
  unfold makeSequence
  split
  · rw [good_chr] at h1 h2; rw [good_str]; simp [h1, h2]
  · rw [good_chr] at h1; rw [good_str] at h2 ⊢; simpa [h1] using h2
  · rw [good_chr] at h1
    rw [good_seq_cons, good_chr] at h2
    rw [good_seq_cons, good_str]
    exact ⟨by simp [h1, h2.1], h2.2⟩
  · rw [good_chr] at h1
    rw [good_seq_cons, good_str] at h2 ⊢
    refine ⟨?_, h2.2⟩
    intro x hx
    rcases List.mem_cons.1 hx with rfl | hx
    · exact h1
    · exact h2.1 x hx
  · split
    · rename_i hk
      obtain ⟨rfl, hl⟩ := hk
      have hl := Re.sameList_eq hl
      subst hl
      refine (good_combine ?_).2 h2
      rintro rfl; exact hp ⟨⟨_, _, _, rfl⟩, ⟨_, _, rfl⟩⟩
    · exact good_pair h1 h2
  · split
    · rename_i hk
      obtain ⟨rfl, hl⟩ := hk
      have hl := Re.sameList_eq hl
      subst hl
      rw [good_seq_cons] at h2 ⊢
      refine ⟨(good_combine ?_).2 h2.1, h2.2⟩
      rintro rfl; exact hp ⟨⟨_, _, _, rfl⟩, ⟨_, _, rfl⟩⟩
    · exact good_cons h1 h2
  · exact good_cons h1 h2
  · exact good_pair h1 h2

theorem good_alternate {ml M K T : Bool} {b a : Re} (h1 : a.Good ml M K T) (h2 : b.Good ml M K T) : (makeAlternate b a).Good ml M K T := by
  obtain ⟨h1, h3⟩ := h1
  obtain ⟨h2, h4⟩ := h2
  unfold makeAlternate
  split
  · simp only [Re.steady, Re.scannable] at h2 h4
    exact ⟨by simp only [Re.steady, steadyEach, h1, h2, Bool.and_self], by simp only [Re.scannable, scannableEach, h3, h4, Bool.and_self]⟩
  · exact ⟨by simp only [Re.steady, steadyEach, h1, h2, Bool.and_self], by simp only [Re.scannable, scannableEach, h3, h4, Bool.and_self]⟩

theorem tests_alternate {b a : Re} : (makeAlternate b a).tests = (a.tests || b.tests) := by
  unfold makeAlternate
  split <;> simp [Re.tests, testsAny]

theorem scans_alternate {b a : Re} : (makeAlternate b a).scans = (a.scans && b.scans) := by
  unfold makeAlternate
  split <;> simp [Re.scans, scansAll]

/-- A quantifier other than none makes a repetition of its kind. -/
theorem quant_rep {q : Quant} {r : Re} (hq : q ≠ .none) (hm : r.moves = true) : ∃ a b, quantTree q r = .rep q.kind a b (unpack r) := by
  have hkind : ∀ (k : RepKind) (a b : Nat), kindTree k (.rep .greedy a b (unpack r)) = .rep k a b (unpack r) := by
    intro k a b; cases k <;> simp only [kindTree]
  cases q with
  | none => exact (hq rfl).elim
  | opt k =>
    refine ⟨0, 1, ?_⟩
    simp only [quantTree, Quant.kind]
    rw [← hkind]
    congr 1
    unfold makeOptional
    split
    · simp [unpack]
    · simp [Re.moves] at hm
    · simp [Re.moves] at hm
    · rename_i h1 h2 h3
      have e : unpack r = [r] := by
        unfold unpack; split
        · exact (h1 _ rfl).elim
        · rfl
      rw [e]
  | star k => simp only [quantTree, hkind, Quant.kind]; exact ⟨_, _, rfl⟩
  | plus k => simp only [quantTree, hkind, Quant.kind]; exact ⟨_, _, rfl⟩
  | exactly ds => simp only [quantTree, Quant.kind]; exact ⟨_, _, rfl⟩
  | atLeast ds k => simp only [quantTree, hkind, Quant.kind]; exact ⟨_, _, rfl⟩
  | between ds es k => simp only [quantTree, hkind, Quant.kind]; exact ⟨_, _, rfl⟩

theorem tests_quant {q : Quant} {r : Re} (h : itemTests q r.tests = false) : (quantTree q r).tests = false := by
  have hkind : ∀ (k : RepKind) (a b : Nat) (l : List Re), kindTree k (.rep .greedy a b l) = .rep k a b l := by
    intro k a b l; cases k <;> simp only [kindTree]
  have hkind' : ∀ (k : RepKind) (r : Re), r.tests = false → (kindTree k r).tests = false := by
    intro k r h
    unfold kindTree; split <;> simp_all [Re.tests]
  cases q with
  | none => simpa [itemTests, quantTree] using h
  | opt k =>
    simp only [quantTree]
    apply hkind'
    unfold makeOptional
    split <;> rfl
  | _ => simp [quantTree, hkind, Re.tests]

theorem scans_quant {q : Quant} {r : Re} (h : r.scans = true) : (quantTree q r).scans = true := by
  have hkind : ∀ (k : RepKind) (r : Re), r.scans = true → (kindTree k r).scans = true := by
    intro k r h
    unfold kindTree; split <;> simp_all [Re.scans]
  have hrep : ∀ (k : RepKind) (a b : Nat), (Re.rep k a b (unpack r)).scans = true := by
    intro k a b; rw [Re.scans, scans_unpack, h]
  cases q with
  | none => simpa [quantTree] using h
  | opt k =>
    simp only [quantTree]
    apply hkind
    unfold makeOptional
    split <;> simp_all [Re.scans, scansAll]
  | exactly => simpa only [quantTree] using hrep _ _ _
  | _ => simp only [quantTree]; exact hkind _ _ (hrep _ _ _)

theorem good_rep {ml M K T : Bool} {q : Quant} {r : Re} {mv sc : Bool} (hq : q ≠ .none) (h : q.robust mv sc M K T = true)
    (hm : mv = true → r.moves = true) (hs : sc = true → r.scans = true) (hr : r.Good ml false false true) : (quantTree q r).Good ml M K T := by
  simp only [Quant.robust, Bool.and_eq_true, Bool.or_eq_true] at h
  obtain ⟨h1, h2⟩ := h
  obtain ⟨a, b, e⟩ := quant_rep hq (hm h1)
  rw [e]
  constructor
  · simp only [Re.steady, moves_unpack (hm h1), steady_unpack, hr.1, Bool.and_true, Bool.true_and, Bool.or_eq_true]
    rcases h2 with h2 | h2
    · exact .inl (.inl h2)
    · exact h2.1.1.elim (fun h => .inl (.inr h)) .inr
  · simp only [Re.scannable, scannable_unpack, scans_unpack, hr.2, Bool.and_true, Bool.or_eq_true, Bool.and_eq_true]
    exact h2.imp id fun h => ⟨hs h.1.2, h.2⟩

/-! ### Lookbehinds -/

mutual
/-- Trees without repetitions, references and lookarounds. -/
def Re.level : Re → Bool
  | .cc c => c.sane
  | .str cs => cs.all fun c => Decidable.decide (c < 2147483648)
  | .any | .empty | .boundary _ => true
  | .sel l | .seq l => levelAll l
  | _ => false

def levelAll : List Re → Bool
  | [] => true
  | r :: l => r.level && levelAll l
end

mutual
theorem level_steady {ml : Bool} (M K : Bool) : ∀ (r : Re), r.level = true → r.steady ml M K = true
  | .cc _, h | .str _, h => h
  | .any, _ | .empty, _ | .boundary _, _ => rfl
  | .sel l, h => by simp only [Re.level] at h; simp only [Re.steady]; exact levelEach_steady M K l h
  | .seq l, h => by simp only [Re.level] at h; simp only [Re.steady]; exact levelAll_steady M K l h
  | .rep _ _ _ _, h | .cap _ _ _, h | .notBoundary _, h | .bref _, h | .brefName _, h | .ahead _ _, h
  | .behind _ _, h | .atomic _, h | .mode _, h | .sBegin, h | .sEnd, h | .sEndLine, h | .lBegin, h | .lEnd, h | .reject _, h => by cases h

theorem levelAll_steady {ml : Bool} (M K : Bool) : ∀ (l : List Re), levelAll l = true → steadyAll ml M K l = true
  | [], _ => rfl
  | r :: l, h => by
    simp only [levelAll, Bool.and_eq_true] at h
    simp only [steadyAll, level_steady _ _ r h.1, levelAll_steady M K l h.2, Bool.and_self]

theorem levelEach_steady {ml : Bool} (M K : Bool) : ∀ (l : List Re), levelAll l = true → steadyEach ml M K l = true
  | [], _ => rfl
  | r :: l, h => by
    simp only [levelAll, Bool.and_eq_true] at h
    simp only [steadyEach, level_steady _ _ r h.1, levelEach_steady M K l h.2, Bool.and_self]
end

theorem levelAll_iff {l : List Re} : levelAll l = true ↔ ∀ r ∈ l, r.level = true := by
  induction l with
  | nil => simp [levelAll]
  | cons r l ih => simp [levelAll, ih]

mutual
theorem level_rotate : ∀ (r r' : Re), r.level = true → r.rotate = some r' → r'.level = true
  | .cc _, _, h, e | .any, _, h, e | .empty, _, h, e | .boundary _, _, h, e => by
    simp only [Re.rotate, Option.some.injEq] at e
    subst e; exact h
  | .str cs, _, h, e => by
    simp only [Re.rotate, Option.some.injEq] at e
    subst e
    simpa [Re.level] using h
  | .sel l, _, h, e => by
    simp only [Re.rotate, Option.map_eq_some_iff] at e
    obtain ⟨l', h1, rfl⟩ := e
    simp only [Re.level] at h ⊢
    exact level_rotateList l l' h h1
  | .seq l, _, h, e => by
    simp only [Re.rotate, Option.map_eq_some_iff] at e
    obtain ⟨l', h1, rfl⟩ := e
    simp only [Re.level] at h ⊢
    have := level_rotateList l l' h h1
    rw [levelAll_iff] at this ⊢
    exact fun r hr => this r (List.mem_reverse.1 hr)
  | .rep _ _ _ _, _, h, _ | .cap _ _ _, _, h, _ | .notBoundary _, _, h, _ | .bref _, _, h, _ | .brefName _, _, h, _ | .ahead _ _, _, h, _
  | .behind _ _, _, h, _ | .atomic _, _, h, _ | .mode _, _, h, _ | .sBegin, _, h, _ | .sEnd, _, h, _ | .sEndLine, _, h, _ | .lBegin, _, h, _
  | .lEnd, _, h, _ | .reject _, _, h, _ => by cases h

theorem level_rotateList : ∀ (l l' : List Re), levelAll l = true → rotateList l = some l' → levelAll l' = true
  | [], _, _, e => by
    simp only [rotateList, Option.some.injEq] at e
    subst e; rfl
  | r :: l, _, h, e => by
    simp only [rotateList] at e
    simp only [levelAll, Bool.and_eq_true] at h
    cases h1 : r.rotate with
    | none => simp [h1] at e
    | some r' =>
      simp only [h1, Option.map_eq_some_iff] at e
      obtain ⟨l', h2, rfl⟩ := e
      simp [levelAll, level_rotate r r' h.1 h1, level_rotateList l l' h.2 h2]
end

theorem level_unpack (r : Re) : levelAll (unpack r) = r.level := by
  unfold unpack
  split
  · simp [Re.level]
  · simp [levelAll]

theorem level_rotated {r : Re} (h : r.level = true) : levelAll (rotated r) = true := by
  unfold rotated
  rw [← level_unpack] at h
  cases e : rotateList (unpack r) with
  | none => rfl
  | some l =>
    have := level_rotateList _ _ h e
    simp only [Option.getD_some]
    rw [levelAll_iff] at this ⊢
    exact fun r hr => this r (List.mem_reverse.1 hr)

theorem level_sequence {b a : Re} (h1 : a.level = true) (h2 : b.level = true) : (makeSequence b a).level = true := by
  unfold makeSequence
  split
  · simp_all [Re.level, CC.sane]
  · simp_all [Re.level, CC.sane]
  · simp_all [Re.level, levelAll, CC.sane]
  · simp_all [Re.level, levelAll, CC.sane]
  · cases h1
  · cases h1
  · simp_all [Re.level, levelAll]
  · simp_all [Re.level, levelAll]

theorem level_alternate {b a : Re} (h1 : a.level = true) (h2 : b.level = true) : (makeAlternate b a).level = true := by
  unfold makeAlternate
  split <;> simp_all [Re.level, levelAll]

theorem easy_sane {c : CC} (h : (Re.cc c).easy = true) : c.sane = true ∧ c.scans = true := by
  simp only [Re.easy, Bool.and_eq_true] at h
  simp_all

mutual
theorem atom_level {ml M K T : Bool} : ∀ (a : Atom), a.Faithful → a.plainBehind = true → a.robust ml M K T = true → (atomTree a).level = true
  | .ch c, h, _, hr => by
    simp only [Atom.Faithful] at h
    simp only [Atom.robust, Char1.small, decide_eq_true_eq] at hr
    simp [atomTree, Re.level, CC.sane, charTree_eq h, hr]
  | .cls c, _, _, _ => (easy_sane (cls_easy c)).1
  | .set neg l, h, _, hr => (easy_sane (set_easy h hr)).1
  | .dot, _, _, _ | .wordBoundary, _, _, _ => rfl
  | .group b, h, hp, hr => by
    simp only [Atom.Faithful, Atom.plainBehind, Atom.robust] at h hp hr
    simp only [atomTree]; exact body_level b h hp hr
  | .cap _ _, _, h, _ | .named _ _ _, _, h, _ | .unknown _ _, _, h, _ | .bol, _, h, _ | .eol, _, h, _ | .subjectBegin, _, h, _
  | .subjectEnd, _, h, _ | .subjectEndLine, _, h, _ | .notWordBoundary, _, h, _ | .ref _, _, h, _ | .refNumber _, _, h, _
  | .refRelative _ _, _, h, _ | .refName _, _, h, _ | .ahead _ _, _, h, _ | .behind _ _, _, h, _ | .atomic _, _, h, _
  | .mode _, _, h, _ => by cases h

theorem cat_level {ml M K T : Bool} : ∀ (c : Cat), c.Faithful → c.plainBehind = true → c.robust ml M K T = true → (catTree c).level = true
  | .one a q, h, hp, hr => by
    simp only [Cat.Faithful] at h
    cases q with
    | none =>
      simp only [Cat.plainBehind, Cat.robust] at hp hr
      simp only [catTree, quantTree]; exact atom_level a h.1 hp hr
    | _ => cases hp
  | .cons a q l, h, hp, hr => by
    simp only [Cat.Faithful] at h
    cases q with
    | none =>
      simp only [Cat.plainBehind, Cat.robust, Bool.and_eq_true] at hp hr
      simp only [catTree, quantTree]
      exact level_sequence (atom_level a h.1 hp.1 hr.1) (cat_level l h.2.2.1 hp.2 hr.2)
    | _ => cases hp

theorem alt_level {ml M K T : Bool} : ∀ (l : Alt), l.Faithful → l.plainBehind = true → l.robust ml M K T = true → (altTree l).level = true
  | .empty, _, _, _ => rfl
  | .one c, h, hp, hr => by
    simp only [Alt.Faithful, Alt.plainBehind, Alt.robust] at h hp hr
    simp only [altTree]; exact cat_level c h hp hr
  | .bar c l, h, hp, hr => by
    simp only [Alt.Faithful, Alt.plainBehind, Alt.robust, Bool.and_eq_true] at h hp hr
    simp only [altTree]; exact level_alternate (cat_level c h.1 hp.1 hr.1) (alt_level l h.2 hp.2 hr.2)

theorem body_level {ml M K T : Bool} : ∀ (b : Body), b.Faithful → b.plainBehind = true → b.robust ml M K T = true → (bodyTree b).level = true
  | .alt l, h, hp, hr => by
    simp only [Body.Faithful, Body.plainBehind, Body.robust] at h hp hr
    simp only [bodyTree]; exact alt_level l h hp hr
  | .lead l, h, hp, hr => by
    simp only [Body.Faithful, Body.plainBehind, Body.robust] at h hp hr
    simp only [bodyTree]; exact level_alternate rfl (alt_level l h hp hr)
end

/-! ### Texts -/

theorem item_tests {q : Quant} {t t' : Bool} (h : t = false → t' = false) (hi : itemTests q t = false) : itemTests q t' = false := by
  cases t with
  | false => simp [itemTests, h rfl]
  | true =>
    simp only [itemTests, Bool.and_true, decide_eq_false_iff_not] at hi
    simp [itemTests, hi]

mutual
theorem atom_tests : ∀ (a : Atom), a.Faithful → a.size < szMod → a.tests = false → (atomTree a).tests = false
  | .cap _ b, hf, hs, h | .named _ _ b, hf, hs, h => by
    simp only [Atom.Faithful, Atom.size, Atom.tests] at hf hs h
    simp only [atomTree, Re.tests, tests_unpack]; exact body_tests b hf hs h
  | .group b, hf, hs, h => by
    simp only [Atom.Faithful, Atom.size, Atom.tests] at hf hs h
    simp only [atomTree]; exact body_tests b hf hs h
  | .bol, _, _, h | .subjectBegin, _, _, h | .wordBoundary, _, _, h | .notWordBoundary, _, _, h => by cases h
  | .ch _, _, _, _ | .cls _, _, _, _ | .set _ _, _, _, _ | .dot, _, _, _ | .unknown _ _, _, _, _ | .eol, _, _, _ | .subjectEnd, _, _, _
  | .subjectEndLine, _, _, _ | .ref _, _, _, _ | .refNumber _, _, _, _ | .refRelative _ _, _, _, _ | .refName _, _, _, _
  | .ahead _ _, _, _, _ | .behind _ _, _, _, _ | .atomic _, _, _, _ | .mode _, _, _, _ => rfl

theorem cat_tests : ∀ (c : Cat), c.Faithful → c.size < szMod → c.tests = false → (catTree c).tests = false
  | .one a q, hf, hs, h => by
    simp only [Cat.Faithful, Cat.size, Cat.tests] at hf hs h
    simp only [catTree]
    exact tests_quant (item_tests (atom_tests a hf.1 (by omega)) h)
  | .cons a q l, hf, hs, h => by
    simp only [Cat.Faithful, Cat.size, Cat.tests, Bool.or_eq_false_iff] at hf hs h
    have h1 := lead_item (lead_atom a hf.1 (by omega)) hf.2.1
    have h2 := lead_cat l hf.2.2.1 (by omega)
    simp only [catTree]
    exact tests_sequence (fun hp => hf.2.2.2 ⟨h1.2.1 hp.1, h2.2.1 hp.2⟩) (tests_quant (item_tests (atom_tests a hf.1 (by omega)) h.1))
      (cat_tests l hf.2.2.1 (by omega) h.2)

theorem alt_tests : ∀ (l : Alt), l.Faithful → l.size < szMod → l.tests = false → (altTree l).tests = false
  | .empty, _, _, _ => rfl
  | .one c, hf, hs, h => by
    simp only [Alt.Faithful, Alt.size, Alt.tests] at hf hs h
    simp only [altTree]; exact cat_tests c hf hs h
  | .bar c l, hf, hs, h => by
    simp only [Alt.Faithful, Alt.size, Alt.tests, Bool.or_eq_false_iff] at hf hs h
    simp only [altTree, tests_alternate, cat_tests c hf.1 (by omega) h.1, alt_tests l hf.2 (by omega) h.2, Bool.or_self]

theorem body_tests : ∀ (b : Body), b.Faithful → b.size < szMod → b.tests = false → (bodyTree b).tests = false
  | .alt l, hf, hs, h => by
    simp only [Body.Faithful, Body.size, Body.tests] at hf hs h
    simp only [bodyTree]; exact alt_tests l hf hs h
  | .lead l, hf, hs, h => by
    simp only [Body.Faithful, Body.size, Body.tests] at hf hs h
    simp only [bodyTree, tests_alternate, alt_tests l hf hs h, Bool.or_false]; rfl
end

mutual
theorem atom_scans : ∀ (a : Atom), a.Faithful → a.size < szMod → a.scans = true → (atomTree a).scans = true
  | .cap _ b, hf, hs, h | .named _ _ b, hf, hs, h | .atomic b, hf, hs, h => by
    simp only [Atom.Faithful, Atom.size, Atom.scans] at hf hs h
    simp only [atomTree, Re.scans, scans_unpack]; exact body_scans b hf hs h
  | .group b, hf, hs, h => by
    simp only [Atom.Faithful, Atom.size, Atom.scans] at hf hs h
    simp only [atomTree]; exact body_scans b hf hs h
  | .cls c, _, _, _ => (easy_sane (cls_easy c)).2
  | .set neg l, hf, _, h => (easy_sane (set_easy hf h)).2
  | .unknown _ _, _, _, h | .mode _, _, _, h => by cases h
  | .ch _, _, _, _ | .dot, _, _, _ | .eol, _, _, _ | .subjectEnd, _, _, _ | .bol, _, _, _ | .subjectBegin, _, _, _
  | .wordBoundary, _, _, _ | .notWordBoundary, _, _, _ | .subjectEndLine, _, _, _ | .ref _, _, _, _ | .refNumber _, _, _, _
  | .refRelative _ _, _, _, _ | .refName _, _, _, _ | .ahead _ _, _, _, _ | .behind _ _, _, _, _ => rfl

theorem cat_scans : ∀ (c : Cat), c.Faithful → c.size < szMod → c.scans = true → (catTree c).scans = true
  | .one a q, hf, hs, h => by
    simp only [Cat.Faithful, Cat.size, Cat.scans] at hf hs h
    simp only [catTree]
    exact scans_quant (atom_scans a hf.1 (by omega) h)
  | .cons a q l, hf, hs, h => by
    simp only [Cat.Faithful, Cat.size, Cat.scans, Bool.and_eq_true] at hf hs h
    have h1 := lead_item (lead_atom a hf.1 (by omega)) hf.2.1
    have h2 := lead_cat l hf.2.2.1 (by omega)
    simp only [catTree]
    exact scans_sequence (fun hp => hf.2.2.2 ⟨h1.2.1 hp.1, h2.2.1 hp.2⟩) (scans_quant (atom_scans a hf.1 (by omega) h.1))
      (cat_scans l hf.2.2.1 (by omega) h.2)

theorem alt_scans : ∀ (l : Alt), l.Faithful → l.size < szMod → l.scans = true → (altTree l).scans = true
  | .empty, _, _, _ => rfl
  | .one c, hf, hs, h => by
    simp only [Alt.Faithful, Alt.size, Alt.scans] at hf hs h
    simp only [altTree]; exact cat_scans c hf hs h
  | .bar c l, hf, hs, h => by
    simp only [Alt.Faithful, Alt.size, Alt.scans, Bool.and_eq_true] at hf hs h
    simp only [altTree, scans_alternate, cat_scans c hf.1 (by omega) h.1, alt_scans l hf.2 (by omega) h.2, Bool.and_self]

theorem body_scans : ∀ (b : Body), b.Faithful → b.size < szMod → b.scans = true → (bodyTree b).scans = true
  | .alt l, hf, hs, h => by
    simp only [Body.Faithful, Body.size, Body.scans] at hf hs h
    simp only [bodyTree]; exact alt_scans l hf hs h
  | .lead l, hf, hs, h => by
    simp only [Body.Faithful, Body.size, Body.scans] at hf hs h
    simp only [bodyTree, scans_alternate, alt_scans l hf hs h, Bool.and_true]; rfl
end

mutual
theorem atom_robust {ml : Bool} : ∀ (a : Atom) (M K T : Bool), a.Faithful → a.size < szMod → a.robust ml M K T = true →
    (atomTree a).Good ml M K T
  | .ch c, M, K, T, hf, _, h => by
    simp only [Atom.Faithful] at hf
    simp only [Atom.robust, Char1.small, decide_eq_true_eq] at h
    rw [atomTree, good_chr, charTree_eq hf]; exact h
  | .cls c, _, _, _, _, _, _ => ⟨(easy_sane (cls_easy c)).1, rfl⟩
  | .set neg l, _, _, _, hf, _, h => ⟨(easy_sane (set_easy hf h)).1, rfl⟩
  | .cap _ b, M, K, T, hf, hs, h | .named _ _ b, M, K, T, hf, hs, h => by
    simp only [Atom.Faithful, Atom.size, Atom.robust] at hf hs h
    have := body_robust b M K T hf hs h
    exact ⟨by simp only [atomTree, Re.steady, steady_unpack, this.1], by simp only [atomTree, Re.scannable, scannable_unpack, this.2]⟩
  | .group b, M, K, T, hf, hs, h => by
    simp only [Atom.Faithful, Atom.size, Atom.robust] at hf hs h
    simp only [atomTree]; exact body_robust b M K T hf hs h
  | .ahead _ b, _, _, _, hf, hs, h => by
    simp only [Atom.Faithful, Atom.size, Atom.robust] at hf hs h
    have := body_robust b _ _ _ hf hs h
    exact ⟨by simp only [atomTree, Re.steady, steady_unpack, this.1], by simp only [atomTree, Re.scannable, scannable_unpack, this.2]⟩
  | .behind _ b, _, _, _, hf, _, h => by
    simp only [Atom.Faithful, Atom.robust] at hf h
    refine ⟨?_, rfl⟩
    simp only [atomTree, Re.steady]
    exact levelAll_steady _ _ _ (level_rotated (body_level b hf.1 hf.2 h))
  | .atomic b, _, _, _, hf, hs, h => by
    simp only [Atom.Faithful, Atom.size, Atom.robust, Bool.and_eq_true] at hf hs h
    have := body_robust b _ _ _ hf hs h.2
    have hm := moves_unpack ((body_fits b hf hs).1 h.1)
    exact ⟨by simp only [atomTree, Re.steady, steady_unpack, this.1, hm, Bool.and_self],
      by simp only [atomTree, Re.scannable, scannable_unpack, this.2]⟩
  | .eol, _, _, _, _, _, h | .subjectEndLine, _, _, _, _, _, h => ⟨by simpa only [atomTree, Re.steady, Atom.robust] using h, rfl⟩
  | .mode m, _, _, _, _, _, h => by
    refine ⟨?_, rfl⟩
    cases m <;> simp_all [atomTree, Re.steady, Atom.robust]
  | .dot, _, _, _, _, _, _ | .unknown _ _, _, _, _, _, _, _ | .subjectEnd, _, _, _, _, _, _ | .bol, _, _, _, _, _, _
  | .subjectBegin, _, _, _, _, _, _ | .wordBoundary, _, _, _, _, _, _ | .notWordBoundary, _, _, _, _, _, _ | .ref _, _, _, _, _, _, _
  | .refNumber _, _, _, _, _, _, _ | .refRelative _ _, _, _, _, _, _, _ | .refName _, _, _, _, _, _, _ => ⟨rfl, rfl⟩

theorem cat_robust {ml : Bool} : ∀ (c : Cat) (M K T : Bool), c.Faithful → c.size < szMod → c.robust ml M K T = true →
    (catTree c).Good ml M K T
  | .one a q, M, K, T, hf, hs, h => by
    simp only [Cat.Faithful, Cat.size] at hf hs
    have h1 := atom_robust (ml := ml) a M K T hf.1 (by omega)
    have h2 := atom_robust (ml := ml) a false false true hf.1 (by omega)
    have hm := (atom_fits a hf.1 (by omega)).1
    have hc := atom_scans a hf.1 (by omega)
    by_cases hq : q = .none
    · subst hq
      simp only [catTree, quantTree]; exact h1 (by simpa only [Cat.robust] using h)
    · have h : q.robust a.moves a.scans M K T = true ∧ a.robust ml false false true = true := by
        cases q <;> simp_all [Cat.robust]
      simp only [catTree]
      exact good_rep hq h.1 hm hc (h2 h.2)
  | .cons a q l, M, K, T, hf, hs, h => by
    simp only [Cat.Faithful, Cat.size] at hf hs
    have hm := (atom_fits a hf.1 (by omega)).1
    have hc := atom_scans a hf.1 (by omega)
    have hml := (cat_fits l hf.2.2.1 (by omega)).1
    have htl := cat_tests l hf.2.2.1 (by omega)
    have hcl := cat_scans l hf.2.2.1 (by omega)
    have l1 := lead_item (lead_atom a hf.1 (by omega)) hf.2.1
    have l2 := lead_cat l hf.2.2.1 (by omega)
    have key : (quantTree q (atomTree a)).Good ml (l.moves || M) (l.tests || K) (l.scans && T) ∧ l.robust ml M K T = true := by
      have h1 := atom_robust (ml := ml) a (l.moves || M) (l.tests || K) (l.scans && T) hf.1 (by omega)
      have h2 := atom_robust (ml := ml) a false false true hf.1 (by omega)
      by_cases hq : q = .none
      · subst hq
        simp only [Cat.robust, Bool.and_eq_true] at h
        simp only [quantTree]; exact ⟨h1 h.1, h.2⟩
      · have h : (q.robust a.moves a.scans (l.moves || M) (l.tests || K) (l.scans && T) = true ∧ a.robust ml false false true = true) ∧
            l.robust ml M K T = true := by
          cases q <;> simp_all [Cat.robust]
        exact ⟨good_rep hq h.1.1 hm hc (h2 h.1.2), h.2⟩
    simp only [catTree]
    refine good_sequence (fun hp => hf.2.2.2 ⟨l1.2.1 hp.1, l2.2.1 hp.2⟩) (key.1.mono ?_ ?_ ?_)
      (cat_robust l M K T hf.2.2.1 (by omega) key.2)
    · simp only [Bool.or_eq_true]; exact Or.imp hml id
    · simp only [Bool.or_eq_true]
      refine Or.imp (fun h => ?_) id
      cases ht : l.tests with
      | true => rfl
      | false => rw [htl ht] at h; cases h
    · simp only [Bool.and_eq_true]; exact And.imp hcl id

theorem alt_robust {ml : Bool} : ∀ (l : Alt) (M K T : Bool), l.Faithful → l.size < szMod → l.robust ml M K T = true →
    (altTree l).Good ml M K T
  | .empty, _, _, _, _, _, _ => ⟨rfl, rfl⟩
  | .one c, M, K, T, hf, hs, h => by
    simp only [Alt.Faithful, Alt.size, Alt.robust] at hf hs h
    simp only [altTree]; exact cat_robust c M K T hf hs h
  | .bar c l, M, K, T, hf, hs, h => by
    simp only [Alt.Faithful, Alt.size, Alt.robust, Bool.and_eq_true] at hf hs h
    simp only [altTree]
    exact good_alternate (cat_robust c M K T hf.1 (by omega) h.1) (alt_robust l M K T hf.2 (by omega) h.2)

theorem body_robust {ml : Bool} : ∀ (b : Body) (M K T : Bool), b.Faithful → b.size < szMod → b.robust ml M K T = true →
    (bodyTree b).Good ml M K T
  | .alt l, M, K, T, hf, hs, h => by
    simp only [Body.Faithful, Body.size, Body.robust] at hf hs h
    simp only [bodyTree]; exact alt_robust l M K T hf hs h
  | .lead l, M, K, T, hf, hs, h => by
    simp only [Body.Faithful, Body.size, Body.robust] at hf hs h
    simp only [bodyTree]
    exact good_alternate ⟨rfl, rfl⟩ (alt_robust l M K T hf hs h)
end

/-! ### Anchors -/

/-- The tree is no repetition and begins with an anchor, and nothing that may be skipped comes before it. -/
def Re.Begins (ml : Bool) (r : Re) : Prop :=
  r.anchored ml false = true ∧ r.noStarsBefore ml = true ∧ ∀ k c d l, r ≠ .rep k c d l

theorem begins_seq {ml : Bool} {a : Re} {l : List Re} (h : a.Begins ml) : (Re.seq (a :: l)).Begins ml := by
  refine ⟨?_, ?_, fun _ _ _ _ e => by cases e⟩
  · simp only [Re.anchored, anchoredSeq]
    exact anchored_mono a _ _ (by simp) h.1
  · simp only [Re.noStarsBefore, noStarsSeq, h.1, h.2.1, Bool.true_or, Bool.and_self]

theorem begins_cap {ml : Bool} {r : Re} {id : Nat} {n : Option (List Nat)} (h : r.Begins ml) : (Re.cap id n (unpack r)).Begins ml := by
  refine ⟨?_, ?_, fun _ _ _ _ e => by cases e⟩ <;> simp only [Re.anchored, Re.noStarsBefore]
  all_goals
    unfold unpack
    split
  · have := h.1; simpa only [Re.anchored] using this
  · exact h.1
  · have := h.2.1; simpa only [Re.noStarsBefore] using this
  · simp only [noStarsSeq, h.1, h.2.1, Bool.true_or, Bool.and_self]

theorem begins_sequence {ml : Bool} {b a : Re} (h : a.Begins ml) : (makeSequence b a).Begins ml := by
  unfold makeSequence
  split
  · cases h.1
  · cases h.1
  · cases h.1
  · cases h.1
  · exact (h.2.2 _ _ _ _ rfl).elim
  · exact (h.2.2 _ _ _ _ rfl).elim
  · exact begins_seq h
  · exact begins_seq h

theorem begins_alternate {ml : Bool} {b a : Re} (h1 : a.Begins ml) (h2 : b.Begins ml) : (makeAlternate b a).Begins ml := by
  obtain ⟨h1, h3, _⟩ := h1
  obtain ⟨h2, h4, _⟩ := h2
  unfold makeAlternate
  split
  · simp only [Re.anchored, Re.noStarsBefore] at h2 h4
    exact ⟨by simp only [Re.anchored, anchoredAlts, h1, h2, Bool.and_self], by simp only [Re.noStarsBefore, noStarsAlts, h3, h4, Bool.and_self],
      fun _ _ _ _ e => by cases e⟩
  · exact ⟨by simp only [Re.anchored, anchoredAlts, h1, h2, Bool.and_self], by simp only [Re.noStarsBefore, noStarsAlts, h3, h4, Bool.and_self],
      fun _ _ _ _ e => by cases e⟩

mutual
theorem atom_begins {ml : Bool} : ∀ (a : Atom), a.begins ml = true → (atomTree a).Begins ml
  | .cap _ b, h | .named _ _ b, h => by
    simp only [Atom.begins] at h
    simp only [atomTree]; exact begins_cap (body_begins b h)
  | .group b, h => by
    simp only [Atom.begins] at h
    simp only [atomTree]; exact body_begins b h
  | .subjectBegin, _ => ⟨rfl, rfl, fun _ _ _ _ e => by cases e⟩
  | .bol, h => by
    simp only [Atom.begins] at h
    exact ⟨by simp only [atomTree, Re.anchored, h, Bool.true_or], rfl, fun _ _ _ _ e => by cases e⟩
  | .ch _, h | .cls _, h | .set _ _, h | .dot, h | .eol, h | .subjectEnd, h
  | .subjectEndLine, h | .unknown _ _, h | .wordBoundary, h | .notWordBoundary, h | .ref _, h
  | .refNumber _, h | .refRelative _ _, h | .refName _, h | .ahead _ _, h | .behind _ _, h | .atomic _, h | .mode _, h => by cases h

theorem cat_begins {ml : Bool} : ∀ (c : Cat), c.begins ml = true → (catTree c).Begins ml
  | .one a q, h => by
    simp only [Cat.begins, Bool.and_eq_true, decide_eq_true_eq] at h
    obtain ⟨rfl, h⟩ := h
    simp only [catTree, quantTree]; exact atom_begins a h
  | .cons a q l, h => by
    simp only [Cat.begins, Bool.and_eq_true, decide_eq_true_eq] at h
    obtain ⟨rfl, h⟩ := h
    simp only [catTree, quantTree]; exact begins_sequence (atom_begins a h)

theorem alt_begins {ml : Bool} : ∀ (l : Alt), l.begins ml = true → (altTree l).Begins ml
  | .empty, h => by cases h
  | .one c, h => by
    simp only [Alt.begins] at h
    simp only [altTree]; exact cat_begins c h
  | .bar c l, h => by
    simp only [Alt.begins, Bool.and_eq_true] at h
    simp only [altTree]; exact begins_alternate (cat_begins c h.1) (alt_begins l h.2)

theorem body_begins {ml : Bool} : ∀ (b : Body), b.begins ml = true → (bodyTree b).Begins ml
  | .alt l, h => by
    simp only [Body.begins] at h
    simp only [bodyTree]; exact alt_begins l h
  | .lead _, h => by cases h
end

mutual
/-- The shortcut for anchored patterns is not taken, and no alternation is empty. -/
def Re.unanchored (ml : Bool) : Re → Bool
  | .sBegin => false
  | .lBegin => ml
  | .sel l => !l.isEmpty && unanchoredAll ml l
  | .seq l | .cap _ _ l | .rep _ _ _ l => unanchoredAll ml l
  | _ => true

def unanchoredAll (ml : Bool) : List Re → Bool
  | [] => true
  | r :: l => Re.unanchored ml r && unanchoredAll ml l
end

mutual
theorem unanchored_anchor (f : Flags) : ∀ (r : Re), r.unanchored f.ml = true → anchorRe f false r = false
  | .cc _, _ | .any, _ | .str _, _ | .empty, _ | .boundary _, _ | .notBoundary _, _ | .reject _, _
  | .bref _, _ | .brefName _, _ | .behind _ _, _ | .mode _, _ | .atomic _, _ | .ahead _ _, _
  | .sEnd, _ | .sEndLine, _ | .lEnd, _ => by simp [anchorRe]
  | .sBegin, h => by simp [Re.unanchored] at h
  | .lBegin, h => by
    simp only [Re.unanchored] at h
    simp [anchorRe, h]
  | .sel l, h => by
    simp only [Re.unanchored, Bool.and_eq_true, Bool.not_eq_true', List.isEmpty_eq_false_iff] at h
    simp only [anchorRe]; exact unanchoredAll_sel f l h.1 h.2
  | .seq l, h => by
    simp only [Re.unanchored] at h
    simp only [anchorRe]; exact unanchoredAll_seq f l h
  | .cap _ n l, h => by
    simp only [Re.unanchored] at h
    cases n
    · simp only [anchorRe]; exact unanchoredAll_seq f l h
    · simp [anchorRe]
  | .rep _ _ _ l, h => by
    simp only [Re.unanchored] at h
    simp [anchorRe, unanchoredAll_seq f l h]

theorem unanchoredAll_seq (f : Flags) : ∀ (l : List Re), unanchoredAll f.ml l = true → anchorSeq f false l = false
  | [], _ => rfl
  | r :: l, h => by
    simp only [unanchoredAll, Bool.and_eq_true] at h
    simp only [anchorSeq, unanchoredAll_seq f l h.2]; exact unanchored_anchor f r h.1

theorem unanchoredAll_sel (f : Flags) : ∀ (l : List Re), l ≠ [] → unanchoredAll f.ml l = true → anchorSel f false l = false
  | [], h, _ => (h rfl).elim
  | r :: l, _, h => by
    simp only [unanchoredAll, Bool.and_eq_true] at h
    simp [anchorSel, unanchored_anchor f r h.1]
end

theorem unanchored_unpack {ml : Bool} {r : Re} (h : r.unanchored ml = true) : unanchoredAll ml (unpack r) = true := by
  unfold unpack
  split
  · simpa [Re.unanchored] using h
  · simp [unanchoredAll, h]

theorem unanchored_combine {ml : Bool} {k : RepKind} {a b c d : Nat} {l : List Re} (h : unanchoredAll ml l = true) :
    (combineRepeat k a b c d l).unanchored ml = true := by
  unfold combineRepeat
  repeat' split
  all_goals simp [Re.unanchored, unanchoredAll, h]

theorem unanchored_sequence {ml : Bool} {b a : Re} (h1 : a.unanchored ml = true) (h2 : b.unanchored ml = true) :
    (makeSequence b a).unanchored ml = true := by
  unfold makeSequence
  split
  · simp [Re.unanchored]
  · simp [Re.unanchored]
  · simp_all [Re.unanchored, unanchoredAll]
  · simp_all [Re.unanchored, unanchoredAll]
  · split
    · rename_i hk
      rw [Re.sameList_eq hk.2]
      exact unanchored_combine (by simpa only [Re.unanchored] using h1)
    · simp_all [Re.unanchored, unanchoredAll]
  · split
    · rename_i hk
      simp only [Re.unanchored, unanchoredAll, Bool.and_eq_true] at h2 ⊢
      exact ⟨unanchored_combine h2.1, h2.2⟩
    · simp_all [Re.unanchored, unanchoredAll]
  · simp_all [Re.unanchored, unanchoredAll]
  · simp_all [Re.unanchored, unanchoredAll]

theorem unanchored_alternate {ml : Bool} {b a : Re} (h1 : a.unanchored ml = true) (h2 : b.unanchored ml = true) :
    (makeAlternate b a).unanchored ml = true := by
  unfold makeAlternate
  split <;> simp_all [Re.unanchored, unanchoredAll]

theorem unanchored_quant {ml : Bool} {q : Quant} {r : Re} (h : r.unanchored ml = true) : (quantTree q r).unanchored ml = true := by
  have hkind : ∀ (k : RepKind) (r : Re), r.unanchored ml = true → (kindTree k r).unanchored ml = true := by
    intro k r h
    unfold kindTree; split <;> simp_all only [Re.unanchored]
  have hrep : ∀ (k : RepKind) (a b : Nat), (Re.rep k a b (unpack r)).unanchored ml = true := by
    intro k a b; simp only [Re.unanchored]; exact unanchored_unpack h
  cases q with
  | none => simpa only [quantTree] using h
  | opt k =>
    simp only [quantTree]
    refine hkind _ _ ?_
    unfold makeOptional
    split <;> simp_all [Re.unanchored, unanchoredAll]
  | exactly ds => simp only [quantTree]; exact hrep _ _ _
  | _ => simp only [quantTree]; exact hkind _ _ (hrep _ _ _)

mutual
theorem atom_unanchored {ml : Bool} : ∀ (a : Atom), a.unanchored ml = true → (atomTree a).unanchored ml = true
  | .cap _ b, h | .named _ _ b, h => by
    simp only [Atom.unanchored] at h
    simp only [atomTree, Re.unanchored]; exact unanchored_unpack (body_unanchored b h)
  | .group b, h => by
    simp only [Atom.unanchored] at h
    simp only [atomTree]; exact body_unanchored b h
  | .subjectBegin, h => by simp [Atom.unanchored] at h
  | .bol, h => by simpa only [atomTree, Re.unanchored, Atom.unanchored] using h
  | .ch _, _ | .cls _, _ | .set _ _, _ | .dot, _ | .eol, _ | .subjectEnd, _
  | .subjectEndLine, _ | .unknown _ _, _ | .wordBoundary, _ | .notWordBoundary, _ | .ref _, _
  | .refNumber _, _ | .refRelative _ _, _ | .refName _, _ | .ahead _ _, _ | .behind _ _, _ | .atomic _, _ | .mode _, _ => by
    simp [atomTree, Re.unanchored]

theorem cat_unanchored {ml : Bool} : ∀ (c : Cat), c.unanchored ml = true → (catTree c).unanchored ml = true
  | .one a q, h => by
    simp only [Cat.unanchored] at h
    simp only [catTree]; exact unanchored_quant (atom_unanchored a h)
  | .cons a q l, h => by
    simp only [Cat.unanchored, Bool.and_eq_true] at h
    simp only [catTree]
    exact unanchored_sequence (unanchored_quant (atom_unanchored a h.1)) (cat_unanchored l h.2)

theorem alt_unanchored {ml : Bool} : ∀ (l : Alt), l.unanchored ml = true → (altTree l).unanchored ml = true
  | .empty, _ => by simp [altTree, Re.unanchored]
  | .one c, h => by
    simp only [Alt.unanchored] at h
    simp only [altTree]; exact cat_unanchored c h
  | .bar c l, h => by
    simp only [Alt.unanchored, Bool.and_eq_true] at h
    simp only [altTree]; exact unanchored_alternate (cat_unanchored c h.1) (alt_unanchored l h.2)

theorem body_unanchored {ml : Bool} : ∀ (b : Body), b.unanchored ml = true → (bodyTree b).unanchored ml = true
  | .alt l, h => by
    simp only [Body.unanchored] at h
    simp only [bodyTree]; exact alt_unanchored l h
  | .lead l, h => by
    simp only [Body.unanchored] at h
    simp only [bodyTree]; exact unanchored_alternate (by simp [Re.unanchored]) (alt_unanchored l h)
end

mutual
/-- A repetition that may be skipped does not contain an anchor. -/
def Re.placed (ml : Bool) : Re → Bool
  | .sel l | .seq l | .cap _ _ l => placedAll ml l
  | .rep _ a _ l => placedAll ml l && (Decidable.decide (0 < a) || unanchoredAll ml l)
  | _ => true

def placedAll (ml : Bool) : List Re → Bool
  | [] => true
  | r :: l => Re.placed ml r && placedAll ml l
end

mutual
theorem unanchored_passes (f : Flags) : ∀ (r : Re) (k : Bool), r.unanchored f.ml = true → anchorRe f k r = true → k = true
  | .boundary _, _, _, h => by simpa [anchorRe] using h
  | .cc _, _, _, h | .any, _, _, h | .str _, _, _, h | .empty, _, _, h | .notBoundary _, _, _, h | .reject _, _, _, h
  | .bref _, _, _, h | .brefName _, _, _, h | .behind _ _, _, _, h | .mode _, _, _, h | .atomic _, _, _, h | .ahead _ _, _, _, h
  | .sEnd, _, _, h | .sEndLine, _, _, h | .lEnd, _, _, h => by simp [anchorRe] at h
  | .sBegin, _, hu, _ => by simp [Re.unanchored] at hu
  | .lBegin, k, hu, h => by
    simp only [Re.unanchored] at hu
    simpa [anchorRe, hu] using h
  | .sel l, k, hu, h => by
    simp only [Re.unanchored, Bool.and_eq_true, Bool.not_eq_true', List.isEmpty_eq_false_iff] at hu
    simp only [anchorRe] at h; exact unanchoredAll_passes_sel f l k hu.1 hu.2 h
  | .seq l, k, hu, h => by
    simp only [Re.unanchored] at hu
    simp only [anchorRe] at h; exact unanchoredAll_passes f l k hu h
  | .cap _ n l, k, hu, h => by
    simp only [Re.unanchored] at hu
    cases n
    · simp only [anchorRe] at h; exact unanchoredAll_passes f l k hu h
    · simp [anchorRe] at h
  | .rep _ _ _ l, k, hu, h => by
    simp only [Re.unanchored] at hu
    simp only [anchorRe] at h
    split at h
    · simp only [Bool.and_eq_true] at h; exact h.2
    · exact unanchoredAll_passes f l k hu h

theorem unanchoredAll_passes (f : Flags) : ∀ (l : List Re) (k : Bool), unanchoredAll f.ml l = true → anchorSeq f k l = true → k = true
  | [], _, _, h => h
  | r :: l, k, hu, h => by
    simp only [unanchoredAll, Bool.and_eq_true] at hu
    simp only [anchorSeq] at h
    exact unanchoredAll_passes f l k hu.2 (unanchored_passes f r _ hu.1 h)

theorem unanchoredAll_passes_sel (f : Flags) : ∀ (l : List Re) (k : Bool), l ≠ [] → unanchoredAll f.ml l = true →
    anchorSel f k l = true → k = true
  | [], _, hn, _, _ => (hn rfl).elim
  | r :: l, k, _, hu, h => by
    simp only [unanchoredAll, Bool.and_eq_true] at hu
    simp only [anchorSel, Bool.and_eq_true] at h
    exact unanchored_passes f r k hu.1 h.1
end

mutual
/-- If the library takes a pattern for anchored, it is. -/
theorem placed_anchored (f : Flags) : ∀ (r : Re) (k : Bool), r.placed f.ml = true → anchorRe f k r = true → r.anchored f.ml k = true
  | .boundary _, _, _, h => by simpa [anchorRe, Re.anchored] using h
  | .cc _, _, _, h | .any, _, _, h | .str _, _, _, h | .empty, _, _, h | .notBoundary _, _, _, h | .reject _, _, _, h
  | .bref _, _, _, h | .brefName _, _, _, h | .behind _ _, _, _, h | .mode _, _, _, h | .atomic _, _, _, h | .ahead _ _, _, _, h
  | .sEnd, _, _, h | .sEndLine, _, _, h | .lEnd, _, _, h => by simp [anchorRe] at h
  | .sBegin, _, _, _ => by simp [Re.anchored]
  | .lBegin, k, _, h => by simpa [anchorRe, Re.anchored] using h
  | .sel l, k, hu, h => by
    simp only [Re.placed] at hu
    simp only [anchorRe] at h
    simp only [Re.anchored]; exact placedAll_alts f l k hu h
  | .seq l, k, hu, h => by
    simp only [Re.placed] at hu
    simp only [anchorRe] at h
    simp only [Re.anchored]; exact placedAll_seq f l k hu h
  | .cap _ n l, k, hu, h => by
    simp only [Re.placed] at hu
    cases n
    · simp only [anchorRe] at h
      simp only [Re.anchored]; exact placedAll_seq f l k hu h
    · simp [anchorRe] at h
  | .rep _ a _ l, k, hu, h => by
    simp only [Re.placed, Bool.and_eq_true, Bool.or_eq_true, decide_eq_true_eq] at hu
    simp only [anchorRe] at h
    simp only [Re.anchored, Bool.and_eq_true, Bool.or_eq_true, decide_eq_true_eq]
    split at h
    · simp only [Bool.and_eq_true] at h; exact ⟨placedAll_seq f l k hu.1 h.1, .inr h.2⟩
    · exact ⟨placedAll_seq f l k hu.1 h, hu.2.imp id fun hu => unanchoredAll_passes f l k hu h⟩

theorem placedAll_seq (f : Flags) : ∀ (l : List Re) (k : Bool), placedAll f.ml l = true → anchorSeq f k l = true →
    anchoredSeq f.ml k l = true
  | [], _, _, h => h
  | r :: l, k, hu, h => by
    simp only [placedAll, Bool.and_eq_true] at hu
    simp only [anchorSeq] at h
    simp only [anchoredSeq]
    exact anchored_mono r _ _ (placedAll_seq f l k hu.2) (placed_anchored f r _ hu.1 h)

theorem placedAll_alts (f : Flags) : ∀ (l : List Re) (k : Bool), placedAll f.ml l = true → anchorSel f k l = true →
    anchoredAlts f.ml k l = true
  | [], _, _, _ => rfl
  | r :: l, k, hu, h => by
    simp only [placedAll, Bool.and_eq_true] at hu
    simp only [anchorSel, Bool.and_eq_true] at h
    simp only [anchoredAlts, Bool.and_eq_true]
    exact ⟨placed_anchored f r k hu.1 h.1, placedAll_alts f l k hu.2 h.2⟩
end

theorem placed_unpack {ml : Bool} {r : Re} (h : r.placed ml = true) : placedAll ml (unpack r) = true := by
  unfold unpack
  split
  · simpa [Re.placed] using h
  · simp [placedAll, h]

theorem placed_combine {ml : Bool} {k : RepKind} (hk : k ≠ .poss) {a b c d n m : Nat} {l : List Re} (h1 : BoundOK n a b) (h2 : BoundOK m c d)
    (hnm : n + m < szMod) (h3 : (Re.rep k a b l).placed ml = true) : (combineRepeat k a b c d l).placed ml = true ∧
      (combineRepeat k c d a b l).placed ml = true := by
  have e3 : (a + c) % szMod = a + c := Nat.mod_eq_of_lt (by have := h1.2.1; have := h2.2.1; omega)
  have e4 : (c + a) % szMod = c + a := Nat.mod_eq_of_lt (by have := h1.2.1; have := h2.2.1; omega)
  simp only [Re.placed, Bool.and_eq_true, Bool.or_eq_true, decide_eq_true_eq] at h3
  cases k with
  | poss => exact (hk rfl).elim
  | _ =>
    simp only [combineRepeat, e3, e4, Re.placed, Bool.and_eq_true, Bool.or_eq_true, decide_eq_true_eq]
    exact ⟨⟨h3.1, h3.2.imp (by omega) id⟩, h3.1, h3.2.imp (by omega) id⟩

theorem placed_sequence {ml : Bool} {b a : Re} {n m : Nat} (ha : LeadOK n a) (hb : LeadOK m b) (hnm : n + m < szMod)
    (hp : ¬ (isPoss a ∧ leadPoss b)) (h1 : a.placed ml = true) (h2 : b.placed ml = true) : (makeSequence b a).placed ml = true := by
  unfold makeSequence
  split
  · simp [Re.placed]
  · simp [Re.placed]
  · simp_all [Re.placed, placedAll]
  · simp_all [Re.placed, placedAll]
  · rename_i k minB maxB l k' minA maxA l'
    split
    · rename_i hk
      obtain ⟨rfl, hl⟩ := hk
      have hl := Re.sameList_eq hl
      subst hl
      have hk : k ≠ .poss := by
        rintro rfl
        exact hp ⟨⟨_, _, _, rfl⟩, ⟨_, _, rfl⟩⟩
      exact (placed_combine hk (ha _ _ _ rfl) (hb _ _ _ rfl) hnm h1).1
    · simp only [Re.placed] at h1 h2 ⊢
      simp only [placedAll, Re.placed, h1, h2, Bool.and_self]
  · rename_i k minB maxB l as k' minA maxA l'
    split
    · rename_i hk
      obtain ⟨rfl, hl⟩ := hk
      have hl := Re.sameList_eq hl
      subst hl
      have hk : k ≠ .poss := by
        rintro rfl
        exact hp ⟨⟨_, _, _, rfl⟩, ⟨_, _, rfl⟩⟩
      have h3 := (placed_combine hk (ha _ _ _ rfl) (hb _ _ _ rfl) hnm h1).2
      simp only [Re.placed, placedAll, Bool.and_eq_true] at h2
      simp only [Re.placed, placedAll, h3, h2.2, Bool.and_self]
    · simp only [Re.placed] at h1 h2 ⊢
      simp only [placedAll, Re.placed] at h1 h2 ⊢
      simp only [h1, h2, Bool.and_self]
  · simp only [Re.placed] at h2 ⊢
    simp only [placedAll, h1, h2, Bool.and_self]
  · simp only [Re.placed, placedAll, h1, h2, Bool.and_self]

theorem placed_alternate {ml : Bool} {b a : Re} (h1 : a.placed ml = true) (h2 : b.placed ml = true) : (makeAlternate b a).placed ml = true := by
  unfold makeAlternate
  split <;> simp_all [Re.placed, placedAll]

theorem placed_quant {ml : Bool} {q : Quant} (hq : q.Faithful) {r : Re} (h : r.placed ml = true)
    (h0 : 0 < q.low ∨ r.unanchored ml = true) : (quantTree q r).placed ml = true := by
  have hkind : ∀ (k : RepKind) (r : Re), r.placed ml = true → (kindTree k r).placed ml = true := by
    intro k r h
    unfold kindTree; split <;> simp_all only [Re.placed]
  have hrep : ∀ (k : RepKind) (a b : Nat), (0 < a ∨ r.unanchored ml = true) → (Re.rep k a b (unpack r)).placed ml = true := by
    intro k a b h1
    simp only [Re.placed, Bool.and_eq_true, Bool.or_eq_true, decide_eq_true_eq]
    exact ⟨placed_unpack h, h1.imp id unanchored_unpack⟩
  cases q with
  | none => simpa only [quantTree] using h
  | opt k =>
    simp only [Quant.low, Nat.lt_irrefl, false_or] at h0
    simp only [quantTree]
    refine hkind _ _ ?_
    unfold makeOptional
    split <;> simp_all [Re.placed, placedAll, Re.unanchored, unanchoredAll]
  | star k => simp only [quantTree]; exact hkind _ _ (hrep _ _ _ (by simpa only [Quant.low] using h0))
  | plus k => simp only [quantTree]; exact hkind _ _ (hrep _ _ _ (.inl (by decide)))
  | exactly ds =>
    simp only [Quant.Faithful] at hq
    simp only [quantTree, Nat.mod_eq_of_lt (show decimal ds < szMod by simp only [szMod]; omega)]
    exact hrep _ _ _ h0
  | atLeast ds k =>
    simp only [Quant.Faithful] at hq
    simp only [quantTree, Nat.mod_eq_of_lt (show decimal ds < szMod by simp only [szMod]; omega)]
    exact hkind _ _ (hrep _ _ _ h0)
  | between ds es k =>
    simp only [Quant.Faithful] at hq
    simp only [quantTree, Nat.mod_eq_of_lt (show decimal ds < szMod by simp only [szMod]; omega)]
    exact hkind _ _ (hrep _ _ _ h0)

mutual
theorem atom_placed {ml : Bool} : ∀ (a : Atom), a.Faithful → a.size < szMod → a.placed ml = true → (atomTree a).placed ml = true
  | .cap _ b, hf, hs, h | .named _ _ b, hf, hs, h => by
    simp only [Atom.Faithful, Atom.size, Atom.placed] at hf hs h
    simp only [atomTree, Re.placed]; exact placed_unpack (body_placed b hf hs h)
  | .group b, hf, hs, h => by
    simp only [Atom.Faithful, Atom.size, Atom.placed] at hf hs h
    simp only [atomTree]; exact body_placed b hf hs h
  | .ch _, _, _, _ | .cls _, _, _, _ | .set _ _, _, _, _ | .dot, _, _, _ | .bol, _, _, _ | .eol, _, _, _ | .subjectBegin, _, _, _
  | .subjectEnd, _, _, _ | .subjectEndLine, _, _, _ | .unknown _ _, _, _, _ | .wordBoundary, _, _, _ | .notWordBoundary, _, _, _
  | .ref _, _, _, _ | .refNumber _, _, _, _ | .refRelative _ _, _, _, _ | .refName _, _, _, _ | .ahead _ _, _, _, _
  | .behind _ _, _, _, _ | .atomic _, _, _, _ | .mode _, _, _, _ => by simp [atomTree, Re.placed]

theorem cat_placed {ml : Bool} : ∀ (c : Cat), c.Faithful → c.size < szMod → c.placed ml = true → (catTree c).placed ml = true
  | .one a q, hf, hs, h => by
    simp only [Cat.Faithful, Cat.size, Cat.placed, Bool.and_eq_true, Bool.or_eq_true, decide_eq_true_eq] at hf hs h
    simp only [catTree]
    exact placed_quant hf.2 (atom_placed a hf.1 (by omega) h.1) (h.2.imp id (atom_unanchored a))
  | .cons a q l, hf, hs, h => by
    simp only [Cat.Faithful, Cat.size, Cat.placed, Bool.and_eq_true, Bool.or_eq_true, decide_eq_true_eq] at hf hs h
    have h1 := lead_item (lead_atom a hf.1 (by omega)) hf.2.1
    have h2 := lead_cat l hf.2.2.1 (by omega)
    simp only [catTree]
    exact placed_sequence h1.1 h2.1 hs (fun hp => hf.2.2.2 ⟨h1.2.1 hp.1, h2.2.1 hp.2⟩)
      (placed_quant hf.2.1 (atom_placed a hf.1 (by omega) h.1.1) (h.1.2.imp id (atom_unanchored a)))
      (cat_placed l hf.2.2.1 (by omega) h.2)

theorem alt_placed {ml : Bool} : ∀ (l : Alt), l.Faithful → l.size < szMod → l.placed ml = true → (altTree l).placed ml = true
  | .empty, _, _, _ => by simp [altTree, Re.placed]
  | .one c, hf, hs, h => by
    simp only [Alt.Faithful, Alt.size, Alt.placed] at hf hs h
    simp only [altTree]; exact cat_placed c hf hs h
  | .bar c l, hf, hs, h => by
    simp only [Alt.Faithful, Alt.size, Alt.placed, Bool.and_eq_true] at hf hs h
    simp only [altTree]; exact placed_alternate (cat_placed c hf.1 (by omega) h.1) (alt_placed l hf.2 (by omega) h.2)

theorem body_placed {ml : Bool} : ∀ (b : Body), b.Faithful → b.size < szMod → b.placed ml = true → (bodyTree b).placed ml = true
  | .alt l, hf, hs, h => by
    simp only [Body.Faithful, Body.size, Body.placed] at hf hs h
    simp only [bodyTree]; exact alt_placed l hf hs h
  | .lead l, hf, hs, h => by
    simp only [Body.Faithful, Body.size, Body.placed] at hf hs h
    simp only [bodyTree]; exact placed_alternate (by simp [Re.placed]) (alt_placed l hf hs h)
end

mutual
theorem atom_unanchored_placed {ml : Bool} : ∀ (a : Atom), a.unanchored ml = true → a.placed ml = true
  | .cap _ b, h | .named _ _ b, h | .group b, h => by
    simp only [Atom.unanchored] at h
    simp only [Atom.placed]; exact body_unanchored_placed b h
  | .ch _, _ | .cls _, _ | .set _ _, _ | .dot, _ | .eol, _ | .subjectEnd, _ | .subjectBegin, _ | .bol, _
  | .subjectEndLine, _ | .unknown _ _, _ | .wordBoundary, _ | .notWordBoundary, _ | .ref _, _
  | .refNumber _, _ | .refRelative _ _, _ | .refName _, _ | .ahead _ _, _ | .behind _ _, _ | .atomic _, _ | .mode _, _ => rfl

theorem cat_unanchored_placed {ml : Bool} : ∀ (c : Cat), c.unanchored ml = true → c.placed ml = true
  | .one a q, h => by
    simp only [Cat.unanchored] at h
    simp only [Cat.placed, atom_unanchored_placed a h, h, Bool.or_true, Bool.and_self]
  | .cons a q l, h => by
    simp only [Cat.unanchored, Bool.and_eq_true] at h
    simp only [Cat.placed, atom_unanchored_placed a h.1, h.1, cat_unanchored_placed l h.2, Bool.or_true, Bool.and_self]

theorem alt_unanchored_placed {ml : Bool} : ∀ (l : Alt), l.unanchored ml = true → l.placed ml = true
  | .empty, _ => rfl
  | .one c, h => by
    simp only [Alt.unanchored] at h
    simp only [Alt.placed]; exact cat_unanchored_placed c h
  | .bar c l, h => by
    simp only [Alt.unanchored, Bool.and_eq_true] at h
    simp only [Alt.placed, cat_unanchored_placed c h.1, alt_unanchored_placed l h.2, Bool.and_self]

/-- Texts without anchors. -/
theorem body_unanchored_placed {ml : Bool} : ∀ (b : Body), b.unanchored ml = true → b.placed ml = true
  | .alt l, h => by
    simp only [Body.unanchored] at h
    simp only [Body.placed]; exact alt_unanchored_placed l h
  | .lead l, h => by
    simp only [Body.unanchored] at h
    simp only [Body.placed]; exact alt_unanchored_placed l h
end

/-- If the library takes the text for anchored, it is. -/
theorem body_taken {b : Body} {f : Flags} (hf : b.Faithful) (hs : b.size < szMod) (h : b.placed f.ml = true ∨ b.begins f.ml = true)
    (ha : startsWithAnchor f (bodyTree b) = true) : (bodyTree b).anchored f.ml false = true :=
  h.elim (fun h => placed_anchored f _ _ (body_placed b hf hs h) ha) fun h => (body_begins b h).1

/-! ### Needs -/

theorem hered_fits (o : Needs) : Hered (Re.fits o) (fitsList o) := by
  constructor <;> intros <;> simp [Re.fits, fitsList]

mutual
theorem atom_forward : ∀ (a : Atom), a.forward = true → (atomTree a).fits ⟨true, false, false, true⟩ = true
  | .cap _ b, h | .named _ _ b, h | .ahead _ b, h | .atomic b, h => by
    simp only [Atom.forward] at h
    simp only [atomTree, Re.fits, (hered_fits _).unpack]; exact body_forward b h
  | .group b, h => by
    simp only [Atom.forward] at h
    simp only [atomTree]; exact body_forward b h
  | .ref _, h | .refNumber _, h | .refRelative _ _, h | .refName _, h | .behind _ _, h => by cases h
  | .ch _, _ | .cls _, _ | .set _ _, _ | .dot, _ | .eol, _ | .subjectEnd, _ | .bol, _ | .subjectBegin, _
  | .subjectEndLine, _ | .unknown _ _, _ | .wordBoundary, _ | .notWordBoundary, _ | .mode _, _ => rfl

theorem cat_forward : ∀ (c : Cat), c.forward = true → (catTree c).fits ⟨true, false, false, true⟩ = true
  | .one a q, h => by
    simp only [Cat.forward] at h
    simp only [catTree, (hered_fits _).quant]; exact atom_forward a h
  | .cons a q l, h => by
    simp only [Cat.forward, Bool.and_eq_true] at h
    simp only [catTree, (hered_fits _).makeSequence, (hered_fits _).quant, atom_forward a h.1, cat_forward l h.2, Bool.and_self]

theorem alt_forward : ∀ (l : Alt), l.forward = true → (altTree l).fits ⟨true, false, false, true⟩ = true
  | .empty, _ => rfl
  | .one c, h => by
    simp only [Alt.forward] at h
    simp only [altTree]; exact cat_forward c h
  | .bar c l, h => by
    simp only [Alt.forward, Bool.and_eq_true] at h
    simp only [altTree, (hered_fits _).makeAlternate, cat_forward c h.1, alt_forward l h.2, Bool.and_self]

theorem body_forward : ∀ (b : Body), b.forward = true → (bodyTree b).fits ⟨true, false, false, true⟩ = true
  | .alt l, h => by
    simp only [Body.forward] at h
    simp only [bodyTree]; exact alt_forward l h
  | .lead l, h => by
    simp only [Body.forward] at h
    simp only [bodyTree, (hered_fits _).makeAlternate, alt_forward l h, Bool.and_true]; rfl
end

end Ctre
