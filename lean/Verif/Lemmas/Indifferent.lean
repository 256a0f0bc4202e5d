import Verif.Spec.Indifferent
import Verif.Spec.OneCase
import Verif.Lemmas.Caseless
import Verif.Model.Wrapper
import Verif.Lemmas.SurfaceMeaning
import Verif.Lemmas.ParseBody
/-
Where flags make no difference: an induction over the evaluation, and the leaves of the tree of a text.
-/
namespace Ctre
open Parse Surface

/-! ### Leaves -/

theorem leavesAll_append (l m : List Re) : leavesAll (l ++ m) = leavesAll l ++ leavesAll m := by
  induction l with
  | nil => rfl
  | cons r l ih => simp [leavesAll, ih]

theorem mem_leavesAll {x : Re} {l : List Re} : x ∈ leavesAll l ↔ ∃ r ∈ l, x ∈ r.leaves := by
  induction l with
  | nil => simp [leavesAll]
  | cons r l ih => simp [leavesAll, ih]

theorem leaves_unpack (r : Re) : leavesAll (unpack r) = r.leaves := by
  unfold unpack
  split
  · simp [Re.leaves]
  · simp [leavesAll]

mutual
theorem leaves_rotate : ∀ (r r' : Re), r.rotate = some r' → ∀ x ∈ r'.leaves, x ∈ r.leaves
  | .cc _, _, h | .any, _, h | .empty, _, h | .bref _, _, h | .brefName _, _, h | .ahead _ _, _, h | .behind _ _, _, h | .boundary _, _, h
  | .notBoundary _, _, h | .sBegin, _, h | .sEnd, _, h | .sEndLine, _, h | .lBegin, _, h | .lEnd, _, h | .reject true, _, h => by
    simp only [Re.rotate, Option.some.injEq] at h
    subst h; exact fun _ h => h
  | .str cs, _, h => by
    simp only [Re.rotate, Option.some.injEq] at h
    subst h; intro x hx
    simpa [Re.leaves] using hx
  | .sel l, _, h => by
    simp only [Re.rotate, Option.map_eq_some_iff] at h
    obtain ⟨l', h1, rfl⟩ := h
    intro x hx
    exact leaves_rotateList l l' h1 x hx
  | .seq l, _, h | .rep _ _ _ l, _, h | .cap _ _ l, _, h | .atomic l, _, h => by
    simp only [Re.rotate, Option.map_eq_some_iff] at h
    obtain ⟨l', h1, rfl⟩ := h
    intro x hx
    simp only [Re.leaves] at hx ⊢
    refine leaves_rotateList l l' h1 x ?_
    rw [mem_leavesAll] at hx ⊢
    obtain ⟨r, h2, h3⟩ := hx
    exact ⟨r, List.mem_reverse.1 h2, h3⟩
  | .mode _, _, h | .reject false, _, h => by simp [Re.rotate] at h

theorem leaves_rotateList : ∀ (l l' : List Re), rotateList l = some l' → ∀ x ∈ leavesAll l', x ∈ leavesAll l
  | [], _, h => by
    simp only [rotateList, Option.some.injEq] at h
    subst h; exact fun _ h => h
  | r :: l, _, h => by
    simp only [rotateList] at h
    cases h1 : r.rotate with
    | none => simp [h1] at h
    | some r' =>
      simp only [h1, Option.map_eq_some_iff] at h
      obtain ⟨l', h2, rfl⟩ := h
      intro x hx
      simp only [leavesAll, List.mem_append] at hx ⊢
      exact hx.imp (leaves_rotate r r' h1 x) (leaves_rotateList l l' h2 x)
end

theorem leaves_rotated (r : Re) : ∀ x ∈ leavesAll (rotated r), x ∈ r.leaves := by
  intro x hx
  unfold rotated at hx
  rw [← leaves_unpack]
  cases h : rotateList (unpack r) with
  | none => simp [h, leavesAll] at hx
  | some l =>
    refine leaves_rotateList _ _ h x ?_
    simp only [h, Option.getD_some] at hx
    rw [mem_leavesAll] at hx ⊢
    obtain ⟨r, h2, h3⟩ := hx
    exact ⟨r, List.mem_reverse.1 h2, h3⟩

theorem leaves_combine {k : RepKind} {a b c d : Nat} {l : List Re} : ∀ x ∈ (combineRepeat k a b c d l).leaves, x ∈ leavesAll l := by
  intro x hx
  unfold combineRepeat at hx
  repeat' split at hx
  all_goals simpa [Re.leaves, leavesAll] using hx

theorem leaves_sequence {b a : Re} : ∀ x ∈ (makeSequence b a).leaves, x ∈ a.leaves ∨ x ∈ b.leaves := by
  intro x hx
  unfold makeSequence at hx
  split at hx
  · simpa [Re.leaves] using hx
  · simpa [Re.leaves] using hx
  · simpa [Re.leaves, leavesAll, or_assoc] using hx
  · simpa [Re.leaves, leavesAll, or_assoc] using hx
  · split at hx
    · exact .inr (leaves_combine x hx)
    · simpa [Re.leaves, leavesAll] using hx
  · split at hx
    · simp only [Re.leaves, leavesAll, List.mem_append] at hx ⊢
      exact .inr (hx.imp (leaves_combine x) id)
    · simpa [Re.leaves, leavesAll] using hx
  · simpa [Re.leaves, leavesAll] using hx
  · simpa [Re.leaves, leavesAll] using hx

theorem leaves_alternate {b a : Re} : ∀ x ∈ (makeAlternate b a).leaves, x ∈ a.leaves ∨ x ∈ b.leaves := by
  intro x hx
  unfold makeAlternate at hx
  split at hx <;> simpa [Re.leaves, leavesAll] using hx

theorem leaves_kind {k : RepKind} {r : Re} : (kindTree k r).leaves = r.leaves := by
  unfold kindTree; split <;> simp [Re.leaves]

theorem leaves_quant {q : Quant} {r : Re} : ∀ x ∈ (quantTree q r).leaves, x ∈ r.leaves := by
  intro x hx
  have hopt : ∀ x ∈ (makeOptional r).leaves, x ∈ r.leaves := by
    intro x hx
    unfold makeOptional at hx
    split at hx <;> simpa [Re.leaves, leavesAll] using hx
  cases q <;> simp only [quantTree, leaves_kind, Re.leaves, leaves_unpack] at hx
  all_goals first | exact hx | exact hopt x hx

/-! ### Evaluation -/

/-- Ignoring case makes no difference for the class. -/
def CC.Steadfast (c : CC) : Prop := ∀ (U : Uni) (v : Ch), c.matchChar U true v = c.matchChar U false v

theorem CC.Steadfast.eq {c : CC} (h : c.Steadfast) (U : Uni) (v : Ch) (i j : Bool) : c.matchChar U i v = c.matchChar U j v := by
  cases i <;> cases j <;> simp [h U v]

/-- Leaves for which neither the case (if `x`) nor the treatment of lines (if `y`) makes a difference. -/
def Indiff (x y : Bool) : Re → Prop
  | .cc c | .boundary c | .notBoundary c => x = true → c.Steadfast
  | .any | .lBegin | .lEnd | .sEndLine => y = false
  | _ => True

/-- Flags that agree where it matters. -/
structure FlagsAgree (x y : Bool) (f f' : Flags) : Prop where
  ci : x = false → f.ci = f'.ci
  ml : y = false → f.ml = f'.ml
  blk : f.blk = f'.blk

variable {x y : Bool} {f f' : Flags}

theorem FlagsAgree.consumed (h : FlagsAgree x y f f') (b : Bool) : FlagsAgree x y (f.consumed b) (f'.consumed b) := by
  cases b
  · exact h
  · exact ⟨h.ci, h.ml, rfl⟩

theorem FlagsAgree.notEmpty (h : FlagsAgree x y f f') : FlagsAgree x y f.notEmpty f'.notEmpty := ⟨h.ci, h.ml, rfl⟩

theorem FlagsAgree.add (h : FlagsAgree x y f f') (m : Mode) : FlagsAgree x y (f.add m) (f'.add m) := by
  cases m
  all_goals constructor
  all_goals first
    | exact fun _ => rfl
    | exact h.ci
    | exact h.ml
    | exact h.blk

theorem matchString_indiff {s : List Ch} (hf : FlagsAgree x y f f') : ∀ (cs : List Nat) (cur : Nat),
    (∀ c ∈ cs, Indiff x y (.cc (.chr c))) → matchString f.ci s cs cur = matchString f'.ci s cs cur := by
  intro cs
  induction cs with
  | nil => intro cur _; rfl
  | cons c cs ih =>
    intro cur h
    have hc : ∀ v : Ch, matchCharacter f.ci v c = matchCharacter f'.ci v c := by
      intro v
      cases hx : x with
      | false => rw [hf.ci hx]
      | true =>
        have := (h c (by simp) hx).eq (fun _ _ => false) v f.ci f'.ci
        simpa only [CC.matchChar] using this
    unfold matchString
    simp only [hc, ih _ fun d hd => h d (by simp [hd])]

theorem cc_indiff {c : CC} (hf : FlagsAgree x y f f') (h : x = true → c.Steadfast) (U : Uni) (v : Ch) :
    c.matchChar U f.ci v = c.matchChar U f'.ci v := by
  cases hx : x with
  | false => rw [hf.ci hx]
  | true => exact (h hx).eq _ _ _ _

theorem boundaryAt_indiff {U : Uni} {s : List Ch} {c : CC} (hf : FlagsAgree x y f f') (h : x = true → c.Steadfast) (cur : Nat) :
    boundaryAt U f.ci s cur c = boundaryAt U f'.ci s cur c := by
  have e : c.matchChar U f.ci = c.matchChar U f'.ci := by
    funext v; exact cc_indiff hf h U v
  unfold boundaryAt
  rw [e]

theorem testAt_indiff {U : Uni} {s : List Ch} {r : Re} (hf : FlagsAgree x y f f') (h : Indiff x y r) (cur : Nat) :
    testAt U s cur f r = testAt U s cur f' r := by
  cases r with
  | boundary c => simp only [testAt, boundaryAt_indiff hf h]
  | notBoundary c => simp only [testAt, boundaryAt_indiff hf h]
  | sEndLine | lBegin | lEnd => simp only [testAt, hf.ml h]
  | _ => simp only [testAt]

def StkIndiff (x y : Bool) (st : Stack) : Prop := ∀ r, Item.re r ∈ st → ∀ z ∈ r.leaves, Indiff x y z

theorem stkIndiff_cons {i : Item} {t : Stack} :
    StkIndiff x y (i :: t) ↔ (∀ r, i = .re r → ∀ z ∈ r.leaves, Indiff x y z) ∧ StkIndiff x y t := by
  unfold StkIndiff
  constructor
  · intro h; exact ⟨fun r hr => h r (by simp [hr]), fun r hr => h r (by simp [hr])⟩
  · intro h r hr
    rcases List.mem_cons.1 hr with hr | hr
    · exact h.1 r hr.symm
    · exact h.2 r hr

theorem stkIndiff_re {r : Re} {t : Stack} : StkIndiff x y (.re r :: t) ↔ (∀ z ∈ r.leaves, Indiff x y z) ∧ StkIndiff x y t := by
  rw [stkIndiff_cons]; simp

theorem stkIndiff_mark {i : Item} {t : Stack} (hx : ∀ r, i ≠ .re r) (h : StkIndiff x y t) : StkIndiff x y (i :: t) := by
  rw [stkIndiff_cons]; exact ⟨fun r hr => absurd hr (hx r), h⟩

theorem stkIndiff_items {l : List Re} {t : Stack} (h : ∀ z ∈ leavesAll l, Indiff x y z) (ht : StkIndiff x y t) :
    StkIndiff x y (items l t) := by
  induction l with
  | nil => exact ht
  | cons r l ih =>
    simp only [leavesAll, List.mem_append] at h
    have : items (r :: l) t = .re r :: items l t := rfl
    rw [this, stkIndiff_re]
    exact ⟨fun z hz => h z (.inl hz), ih fun z hz => h z (.inr hz)⟩

/-- Evaluation does not depend on flags that make no difference for the leaves. -/
theorem eval_indiff (C : Cfg) : ∀ n (s : List Ch) lb cur f f' c st, FlagsAgree x y f f' → StkIndiff x y st →
    eval C n s lb cur f c st = eval C n s lb cur f' c st := by
  intro n
  induction n with
  | zero => intros; rfl
  | succ n ih =>
    intro s lb cur f f' c st hf hst
    rcases st with _ | ⟨it, t⟩
    · rfl
    · have ht := (stkIndiff_cons.1 hst).2
      have iht : ∀ p f f' c, FlagsAgree x y f f' → eval C n s lb p f c t = eval C n s lb p f' c t :=
        fun p f f' c hf => ih s lb p f f' c t hf ht
      cases it with
      | accept | endAhead | endBehind => cases t <;> rfl
      | endCycle =>
        cases t with
        | nil => simp only [eval, hf.blk]
        | cons _ _ => rfl
      | startMark => simp only [eval_startMark, iht _ _ _ _ hf]
      | endMark => simp only [eval_endMark, iht _ _ _ _ hf]
      | numMark id => simp only [eval_numMark, iht _ _ _ _ hf]
      | re r =>
        have hr := (stkIndiff_re.1 hst).1
        have hbody : ∀ m, (∀ z ∈ leavesAll m, Indiff x y z) →
            (fun p c' => eval C n s lb p f.notEmpty c' (items m [.endCycle])) =
            (fun p c' => eval C n s lb p f'.notEmpty c' (items m [.endCycle])) := by
          intro m hm
          funext p c'
          exact ih s lb p _ _ _ _ hf.notEmpty (stkIndiff_items hm (stkIndiff_mark (by simp) (by simp [StkIndiff])))
        have htail : (fun p c' => eval C n s lb p (f.consumed true) c' t) =
            (fun p c' => eval C n s lb p (f'.consumed true) c' t) := by
          funext p c'
          exact iht _ _ _ _ (hf.consumed true)
        cases r with
        | cc cl =>
          have h1 : Indiff x y (.cc cl) := hr _ (by simp [Re.leaves])
          simp only [eval_cc, cc_indiff hf h1, iht _ _ _ _ (hf.consumed true)]
        | any =>
          have := hf.ml (hr .any (by simp [Re.leaves]))
          simp only [eval_any, this, iht _ _ _ _ (hf.consumed true)]
        | str cs =>
          simp only [eval_str]
          rw [matchString_indiff hf cs cur fun c hc => hr _ (by simp only [Re.leaves, List.mem_map]; exact ⟨c, hc, rfl⟩)]
          simp only [iht _ _ _ _ (hf.consumed _)]
        | sel l =>
          cases l with
          | nil => rfl
          | cons r opts =>
            simp only [Re.leaves, leavesAll, List.mem_append] at hr
            simp only [eval_sel_cons]
            rw [ih s lb cur f f' c _ hf (stkIndiff_re.2 ⟨fun z hz => hr z (.inl hz), ht⟩),
              ih s lb cur f f' c (.re (.sel opts) :: t) hf (stkIndiff_re.2 ⟨fun z hz => hr z (.inr hz), ht⟩)]
        | seq l =>
          rcases l with _ | ⟨r, _ | ⟨r', m⟩⟩
          · rfl
          · simp only [Re.leaves, leavesAll, List.append_nil] at hr
            exact ih _ _ _ _ _ _ _ hf (stkIndiff_re.2 ⟨hr, ht⟩)
          · simp only [Re.leaves, leavesAll, List.mem_append] at hr
            refine ih _ _ _ _ _ _ _ hf (stkIndiff_re.2 ⟨fun z hz => hr z (.inl hz), stkIndiff_re.2 ⟨fun z hz => ?_, ht⟩⟩)
            simp only [Re.leaves, leavesAll, List.mem_append] at hz
            exact hr z (.inr hz)
        | empty => exact iht _ _ _ _ hf
        | rep k a b m =>
          cases k with
          | lazy => simp only [eval_lazy, hbody m hr, htail, iht _ _ _ _ (hf.consumed _)]
          | poss => simp only [eval_poss, hbody m hr, iht _ _ _ _ (hf.consumed _)]
          | greedy =>
            simp only [eval_greedy, greedyRecRef_eq, ite_self, hbody m hr, htail]
            rw [ih s lb cur f f' c (.re (.rep .poss a b m) :: t) hf (stkIndiff_re.2 ⟨hr, ht⟩)]
        | cap id name m =>
          simp only [eval_cap]
          split
          · rfl
          · split
            · rfl
            · exact ih _ _ _ _ _ _ _ hf (stkIndiff_re.2 ⟨hr, stkIndiff_mark (by simp) ht⟩)
        | bref id => simp only [eval_bref, iht _ _ _ _ (hf.consumed _)]
        | brefName id => simp only [eval_brefName, iht _ _ _ _ (hf.consumed _)]
        | ahead pos m =>
          simp only [eval_ahead, iht _ _ _ _ hf]
          rw [ih s lb cur f f' c [.re (.seq m), .endAhead] hf
            (stkIndiff_re.2 ⟨hr, stkIndiff_mark (by simp) (by simp [StkIndiff])⟩)]
        | behind pos m =>
          simp only [eval_behind, iht _ _ _ _ hf]
          rw [ih s.reverse true (s.length - cur) f f' c [.re (.seq m), .endBehind] hf
            (stkIndiff_re.2 ⟨hr, stkIndiff_mark (by simp) (by simp [StkIndiff])⟩)]
        | atomic m =>
          rw [eval_atomic, eval_atomic]
          exact ih _ _ _ _ _ _ _ hf (stkIndiff_re.2 ⟨hr, ht⟩)
        | mode md =>
          rw [eval_mode, eval_mode]
          exact iht _ _ _ _ (hf.add md)
        | reject => rfl
        | boundary _ | notBoundary _ | sBegin | sEnd | sEndLine | lBegin | lEnd =>
          rw [eval_test (h := rfl), eval_test (h := rfl), testAt_indiff hf (hr _ (by simp [Re.leaves])), iht _ _ _ _ hf]

mutual
theorem anchorRe_indiff (hf : FlagsAgree x y f f') : ∀ (r : Re) (k : Bool), (∀ z ∈ r.leaves, Indiff x y z) → anchorRe f k r = anchorRe f' k r
  | .lBegin, k, h => by
    have := hf.ml (h .lBegin (by simp [Re.leaves]))
    simp only [anchorRe, this]
  | .sel l, k, h => by simp only [anchorRe]; exact anchorSel_indiff hf l k h
  | .seq l, k, h => by simp only [anchorRe]; exact anchorSeq_indiff hf l k h
  | .rep kind a b l, k, h => by simp only [anchorRe, anchorSeq_indiff hf l k h]
  | .cap _ none l, k, h => by simp only [anchorRe]; exact anchorSeq_indiff hf l k h
  | .cap _ (some _) _, _, _ | .cc _, _, _ | .any, _, _ | .str _, _, _ | .empty, _, _ | .bref _, _, _ | .brefName _, _, _ | .ahead _ _, _, _
  | .behind _ _, _, _ | .atomic _, _, _ | .boundary _, _, _ | .notBoundary _, _, _ | .sBegin, _, _ | .sEnd, _, _ | .sEndLine, _, _
  | .lEnd, _, _ | .mode _, _, _ | .reject _, _, _ => by simp only [anchorRe]

theorem anchorSeq_indiff (hf : FlagsAgree x y f f') : ∀ (l : List Re) (k : Bool), (∀ z ∈ leavesAll l, Indiff x y z) →
    anchorSeq f k l = anchorSeq f' k l
  | [], _, _ => rfl
  | r :: l, k, h => by
    simp only [leavesAll, List.mem_append] at h
    simp only [anchorSeq, anchorSeq_indiff hf l k fun z hz => h z (.inr hz)]
    exact anchorRe_indiff hf r _ fun z hz => h z (.inl hz)

theorem anchorSel_indiff (hf : FlagsAgree x y f f') : ∀ (l : List Re) (k : Bool), (∀ z ∈ leavesAll l, Indiff x y z) →
    anchorSel f k l = anchorSel f' k l
  | [], _, _ => rfl
  | r :: l, k, h => by
    simp only [leavesAll, List.mem_append] at h
    simp only [anchorSel, anchorSel_indiff hf l k fun z hz => h z (.inr hz), anchorRe_indiff hf r k fun z hz => h z (.inl hz)]
end

/-- Neither do the results of the calls. -/
theorem calls_indiff (C : Cfg) (n : Nat) (s : List Ch) {r : Re} (hf : FlagsAgree x y f f') (hr : ∀ z ∈ r.leaves, Indiff x y z) (p : Nat) :
    matchAt C n s f r p = matchAt C n s f' r p ∧ startsWithAt C n s f r p = startsWithAt C n s f' r p ∧
      searchAt C n s f r p = searchAt C n s f' r p := by
  have hst : ∀ t : Stack, StkIndiff x y t → StkIndiff x y (.startMark :: .re r :: t) := fun t ht =>
    stkIndiff_mark (by simp) (stkIndiff_re.2 ⟨hr, ht⟩)
  have he : StkIndiff x y [.endMark, .accept] := by simp [StkIndiff]
  have hatt : ∀ it, attempt C n s f r it = attempt C n s f' r it := fun it => eval_indiff C n s false it f f' _ _ hf (hst _ he)
  refine ⟨?_, ?_, ?_⟩
  · unfold matchAt attemptFull
    rw [eval_indiff C n s false p f f' _ _ hf (hst _ (stkIndiff_re.2 ⟨by simp [Re.leaves, Indiff], he⟩))]
  · unfold startsWithAt
    rw [hatt]
  · have loop : ∀ k it, searchLoop C n s f r k it = searchLoop C n s f' r k it := by
      intro k
      induction k with
      | zero => intro it; unfold searchLoop; rw [hatt]
      | succ k ih => intro it; unfold searchLoop; rw [hatt, ih]
    unfold searchAt startsWithAnchor
    rw [loop, anchorRe_indiff hf r false hr]

/-! ### Classes -/

theorem matchCharacter_steadfast {c : Nat} (h : isAlpha c = false) (ci : Bool) (v : Ch) : matchCharacter ci v c = matchCharacter false v c := by
  simp [matchCharacter, h]

theorem chr_steadfast {c : Nat} (h : isAlpha c = false) : (CC.chr c).Steadfast := by
  intro U v
  simp only [CC.matchChar, matchCharacter_steadfast h true]

theorem enum_steadfast {cs : List Nat} (h : ∀ c ∈ cs, isAlpha c = false) : (CC.enum cs).Steadfast := by
  intro U v
  simp only [CC.matchChar]
  induction cs with
  | nil => rfl
  | cons c cs ih =>
    simp only [List.any_cons, matchCharacter_steadfast (h c (by simp)) true, ih fun d hd => h d (by simp [hd])]

theorem range_steadfast {a b : Nat} (h : ((isLower a && isLower b) || (isUpper a && isUpper b)) = false) : (CC.range a b).Steadfast := by
  intro U v
  simp [CC.matchChar, matchRange, h]

theorem any_steadfast {l : List CC} (h : ∀ c ∈ l, c.Steadfast) (U : Uni) (v : Ch) : CC.matchAny U true v l = CC.matchAny U false v l := by
  induction l with
  | nil => rfl
  | cons c l ih => simp only [CC.matchAny, h c (by simp) U v, ih fun d hd => h d (by simp [hd])]

theorem set_steadfast {l : List CC} (h : ∀ c ∈ l, c.Steadfast) : (CC.set l).Steadfast ∧ (CC.negSet l).Steadfast ∧ (CC.negate l).Steadfast := by
  refine ⟨fun U v => ?_, fun U v => ?_, fun U v => ?_⟩ <;> simp only [CC.matchChar, any_steadfast h U v]

theorem prop_steadfast (p : Nat) : (CC.prop p).Steadfast := fun _ _ => rfl

/-- A set that contains all letters in both cases. -/
theorem letters_steadfast {a : Nat} (ha : a ≤ 25) {l : List CC} (hl : ∀ c ∈ l, c.Steadfast) :
    (CC.set (.range 65 (65 + a) :: .range 97 (97 + a) :: l)).Steadfast := by
  intro U v
  have e1 : (Nat.xor 65 32) = 97 := by decide
  have e2 : (Nat.xor 97 32) = 65 := by decide
  have e3 : Nat.xor (65 + a) 32 = 97 + a := by
    rw [xor_upper (by simp [isUpper]; omega)]; omega
  have e4 : Nat.xor (97 + a) 32 = 65 + a := by
    rw [xor_lower (by simp [isLower]; omega)]; omega
  have u1 : isUpper (65 + a) = true := by simp [isUpper]; omega
  have u2 : isLower (97 + a) = true := by simp [isLower]; omega
  simp only [CC.matchChar, CC.matchAny, any_steadfast hl, matchRange, e1, e2, e3, e4, u1, u2, show isUpper 65 = true by decide,
    show isLower 97 = true by decide, Bool.and_self, Bool.or_true, Bool.true_or, Bool.and_true, Bool.and_false, Bool.false_and, Bool.false_or]
  cases geConst v 97 <;> cases leConst v (97 + a) <;> cases geConst v 65 <;> cases leConst v (65 + a) <;> simp

theorem wordChars_steadfast : wordChars.Steadfast := by
  refine letters_steadfast (a := 25) (by decide) (l := [.range 48 57, .chr 95]) ?_
  intro c hc
  simp only [List.mem_cons, List.not_mem_nil, or_false] at hc
  rcases hc with rfl | rfl
  · exact range_steadfast (by decide)
  · exact chr_steadfast (by decide)

theorem letterClass_steadfast (l : Nat) : (letterClass l).Steadfast := by
  unfold letterClass
  split
  · exact range_steadfast (by decide)
  split
  · exact enum_steadfast (by decide)
  split
  · exact wordChars_steadfast
  split
  · exact enum_steadfast (by decide)
  split
  · exact enum_steadfast (by decide)
  · exact chr_steadfast (by decide)

theorem posix_steadfast {n : Posix} (h1 : n ≠ .lower) (h2 : n ≠ .upper) : n.cls.Steadfast := by
  cases n with
  | lower => exact (h1 rfl).elim
  | upper => exact (h2 rfl).elim
  | alnum =>
    refine letters_steadfast (a := 25) (by decide) (l := [.range 48 57]) ?_
    simp only [List.mem_singleton, forall_eq]
    exact range_steadfast (by decide)
  | alpha => exact letters_steadfast (a := 25) (by decide) (l := []) (by simp)
  | xdigit =>
    refine letters_steadfast (a := 5) (by decide) (l := [.range 48 57]) ?_
    simp only [List.mem_singleton, forall_eq]
    exact range_steadfast (by decide)
  | word => exact wordChars_steadfast
  | ascii | digit | graph | print => exact range_steadfast (by decide)
  | blank | punct | space => exact enum_steadfast (by decide)
  | cntrl =>
    refine (set_steadfast fun c hc => ?_).1
    simp only [List.mem_cons, List.not_mem_nil, or_false] at hc
    rcases hc with rfl | rfl
    · exact range_steadfast (by decide)
    · exact chr_steadfast (by decide)

theorem cls_steadfast (c : Cls) : (clsTree c).Steadfast := by
  cases c with
  | letter l =>
    have := set_steadfast (l := [letterClass l]) (by simpa using letterClass_steadfast l)
    simp only [clsTree]
    split
    · exact this.1
    · exact this.2.1
  | prop neg p n v =>
    simp only [clsTree]
    split
    · exact (set_steadfast (l := [.prop p]) (by simpa using prop_steadfast p)).2.2
    · exact prop_steadfast p

/-! ### Sets as they are written -/

theorem charTree_num {c : Char1} {k : Nat} (hk : 65 ≤ k) :
    (charTree c = k ↔ c.num = k) ∧ (charTree c ≤ k ↔ c.num ≤ k) ∧ (k ≤ charTree c ↔ k ≤ c.num) := by
  cases c with
  | control l =>
    simp only [charTree, Char1.num, Char1.code]
    split
    · rename_i h; subst h
      simp only [controlCode]
      refine ⟨?_, ?_, ?_⟩ <;> simp <;> omega
    · simp
  | _ => simp [charTree, Char1.num, Char1.code, szMod]

theorem charTree_lower (c : Char1) : isLower (charTree c) = isLower c.num ∧ isUpper (charTree c) = isUpper c.num := by
  have h : ∀ k, 65 ≤ k → _ := fun k hk => charTree_num (c := c) (k := k) hk
  have h1 := h 65 (by decide); have h2 := h 90 (by decide); have h3 := h 97 (by decide); have h4 := h 122 (by decide)
  constructor <;> rw [Bool.eq_iff_iff] <;> simp only [isLower, isUpper, Bool.and_eq_true, decide_eq_true_eq]
  · rw [h3.2.2, h4.2.1]
  · rw [h1.2.2, h2.2.1]

theorem charTree_alpha (c : Char1) : isAlpha (charTree c) = isAlpha c.num := by
  simp only [isAlpha, charTree_lower c]

theorem items_foldl' {U : Uni} {ci : Bool} {v : Ch} : ∀ (l : List SetItem) (acc : List CC),
    (CC.matchAny U ci v (l.foldl (fun acc j => pushBackIntoSet (itemTree j) acc) acc) = true ↔
      CC.matchAny U ci v acc = true ∨ ∃ i ∈ l, (itemTree i).matchChar U ci v = true)
  | [], acc => by simp
  | i :: l, acc => by
    simp only [List.foldl_cons]
    rw [items_foldl' l, push_iff]
    simp only [List.mem_cons, exists_eq_or_imp, or_assoc]

theorem itemsTree_iff {U : Uni} {ci : Bool} {v : Ch} {l : List SetItem} :
    CC.matchAny U ci v (itemsTree l) = true ↔ ∃ i ∈ l, (itemTree i).matchChar U ci v = true := by
  cases l with
  | nil => simp [itemsTree, CC.matchAny]
  | cons i l =>
    simp only [itemsTree]
    rw [items_foldl' l]
    simp [CC.matchAny]

/-- The letter `v` in the other case is listed. -/
def OtherCase (i : SetItem) (v : Ch) : Prop :=
  ∃ k : Nat, k < 26 ∧ ((v = ((65 + k : Nat) : Int) ∧ i.lists (97 + k) = true) ∨ (v = ((97 + k : Nat) : Int) ∧ i.lists (65 + k) = true))

theorem eqConst_letter {v : Int} {c : Nat} (hc : c ≤ 127) : eqConst v c = true ↔ v = (c : Int) := eqConst_small hc

theorem item_steadfast {i : SetItem} (h : (itemTree i).Steadfast) (U : Uni) (v : Ch) :
    ((itemTree i).matchChar U true v = true → (itemTree i).matchChar U false v = true ∨ OtherCase i v) ∧
    ((itemTree i).matchChar U false v = true → (itemTree i).matchChar U true v = true) := by
  rw [h U v]; exact ⟨.inl, id⟩

theorem item_char (c : Char1) (U : Uni) (v : Ch) :
    ((itemTree (.one c)).matchChar U true v = true → (itemTree (.one c)).matchChar U false v = true ∨ OtherCase (.one c) v) ∧
    ((itemTree (.one c)).matchChar U false v = true → (itemTree (.one c)).matchChar U true v = true) := by
  cases ha : isAlpha (charTree c) with
  | false => exact item_steadfast (i := .one c) (chr_steadfast ha) U v
  | true =>
    simp only [itemTree, CC.matchChar, matchCharacter, ha, Bool.true_and, Bool.and_true, Bool.or_eq_true, Bool.false_and, Bool.and_false,
      Bool.false_or]
    refine ⟨fun h => h.symm.imp id fun h => ?_, .inr⟩
    simp only [isAlpha, Bool.or_eq_true] at ha
    rcases ha with ha | ha
    · rw [xor_lower ha] at h
      simp only [isLower, Bool.and_eq_true, decide_eq_true_eq] at ha
      rw [eqConst_letter (by omega)] at h
      refine ⟨charTree c - 97, by omega, .inl ⟨h.trans (by congr 1; omega), ?_⟩⟩
      simp only [SetItem.lists, decide_eq_true_eq]
      exact (charTree_num (by omega)).1.1 (by omega)
    · rw [xor_upper ha] at h
      simp only [isUpper, Bool.and_eq_true, decide_eq_true_eq] at ha
      rw [eqConst_letter (by omega)] at h
      refine ⟨charTree c - 65, by omega, .inr ⟨h.trans (by congr 1; omega), ?_⟩⟩
      simp only [SetItem.lists, decide_eq_true_eq]
      exact (charTree_num (by omega)).1.1 (by omega)

theorem range_fold {a b : Nat} {v : Int} (h : matchRange true v a b = true) : matchRange false v a b = true ∨
    ∃ k : Nat, k < 26 ∧ ((v = ((65 + k : Nat) : Int) ∧ a ≤ 97 + k ∧ 97 + k ≤ b) ∨ (v = ((97 + k : Nat) : Int) ∧ a ≤ 65 + k ∧ 65 + k ≤ b)) := by
  simp only [matchRange, Bool.or_eq_true, Bool.and_eq_true, and_true, Bool.false_eq_true, and_false, false_and, false_or] at h ⊢
  refine h.symm.imp id ?_
  rintro ⟨⟨hab, h1⟩, h2⟩
  rcases hab with hab | hab
  · rw [xor_lower hab.1] at h1
    rw [xor_lower hab.2] at h2
    simp only [isLower, Bool.and_eq_true, decide_eq_true_eq] at hab
    rw [geConst_small (by omega)] at h1
    rw [leConst_small (by omega)] at h2
    exact ⟨(v - 65).toNat, by omega, .inl ⟨by omega, by omega, by omega⟩⟩
  · rw [xor_upper hab.1] at h1
    rw [xor_upper hab.2] at h2
    simp only [isUpper, Bool.and_eq_true, decide_eq_true_eq] at hab
    rw [geConst_small (by omega)] at h1
    rw [leConst_small (by omega)] at h2
    exact ⟨(v - 97).toNat, by omega, .inr ⟨by omega, by omega, by omega⟩⟩

theorem range_mono {a b : Nat} {v : Int} (h : matchRange false v a b = true) : matchRange true v a b = true := by
  simp only [matchRange, Bool.or_eq_true, Bool.and_eq_true, and_true, Bool.false_eq_true, and_false, false_and, false_or] at h ⊢
  exact .inr h

theorem item_range (a b : Char1) (U : Uni) (v : Ch) :
    ((itemTree (.range a b)).matchChar U true v = true → (itemTree (.range a b)).matchChar U false v = true ∨ OtherCase (.range a b) v) ∧
    ((itemTree (.range a b)).matchChar U false v = true → (itemTree (.range a b)).matchChar U true v = true) := by
  simp only [itemTree, CC.matchChar]
  refine ⟨fun h => (range_fold h).imp id ?_, range_mono⟩
  rintro ⟨k, hk, h⟩
  refine ⟨k, hk, h.imp ?_ ?_⟩ <;> rintro ⟨h1, h2, h3⟩ <;>
    simp only [SetItem.lists, Bool.and_eq_true, decide_eq_true_eq]
  · exact ⟨h1, (charTree_num (by omega)).2.1.1 h2, (charTree_num (by omega)).2.2.1 h3⟩
  · exact ⟨h1, (charTree_num (by omega)).2.1.1 h2, (charTree_num (by omega)).2.2.1 h3⟩

theorem small_range {a b k : Nat} (ha : a ≤ 127) (hb : b ≤ 127) : matchRange false (k : Int) a b = (decide (a ≤ k) && decide (k ≤ b)) := by
  rw [Bool.eq_iff_iff]
  simp [matchRange, geConst, leConst, ha, hb]

theorem item_posix {n : Posix} (hn : n = .lower ∨ n = .upper) (U : Uni) (v : Ch) :
    ((itemTree (.posix false n)).matchChar U true v = true → (itemTree (.posix false n)).matchChar U false v = true ∨ OtherCase (.posix false n) v) ∧
    ((itemTree (.posix false n)).matchChar U false v = true → (itemTree (.posix false n)).matchChar U true v = true) := by
  rcases hn with rfl | rfl <;>
  · simp only [itemTree, Bool.false_eq_true, if_false, CC.matchChar, Posix.cls]
    refine ⟨fun h => (range_fold h).imp id ?_, range_mono⟩
    rintro ⟨k, hk, h⟩
    refine ⟨k, hk, h.imp ?_ ?_⟩ <;> rintro ⟨h1, h2, h3⟩ <;> refine ⟨h1, ?_⟩ <;>
      simp only [SetItem.lists, Posix.cls, CC.matchChar] <;> rw [small_range (by decide) (by decide)] <;>
      simp only [Bool.and_eq_true, decide_eq_true_eq] <;> omega

theorem item_fold {i : SetItem} (h : i.negCase = false) (U : Uni) (v : Ch) :
    ((itemTree i).matchChar U true v = true → (itemTree i).matchChar U false v = true ∨ OtherCase i v) ∧
    ((itemTree i).matchChar U false v = true → (itemTree i).matchChar U true v = true) := by
  cases i with
  | one c => exact item_char c U v
  | range a b => exact item_range a b U v
  | cls c => exact item_steadfast (i := .cls c) (cls_steadfast c) U v
  | posix neg n =>
    by_cases hn : n = .lower ∨ n = .upper
    · cases neg with
      | false => exact item_posix hn U v
      | true => rcases hn with rfl | rfl <;> cases h
    · rw [not_or] at hn
      have := posix_steadfast hn.1 hn.2
      refine item_steadfast (i := .posix neg n) ?_ U v
      simp only [itemTree]
      split
      · exact (set_steadfast (l := [n.cls]) (by simpa using this)).2.2
      · exact this

theorem clsPart_plain {U : Uni} (c : CC) (h : ∀ (U U' : Uni) (v : Ch), c.matchChar U false v = c.matchChar U' false v) (v : Ch) :
    c.matchChar (fun _ _ => false) false v = c.matchChar U false v := h _ _ _

theorem letterClass_plain (l : Nat) (U U' : Uni) (v : Ch) : (letterClass l).matchChar U false v = (letterClass l).matchChar U' false v := by
  unfold letterClass
  repeat' split
  all_goals rfl

theorem posix_plain (n : Posix) (U U' : Uni) (v : Ch) : n.cls.matchChar U false v = n.cls.matchChar U' false v := by
  cases n <;> rfl

theorem lists_match {i : SetItem} {k : Nat} (h1 : 65 ≤ k) (h2 : k ≤ 127) (h : i.lists k = true) (U : Uni) :
    (itemTree i).matchChar U false (k : Int) = true := by
  cases i with
  | one c =>
    simp only [SetItem.lists, decide_eq_true_eq] at h
    rw [← (charTree_num h1).1] at h
    simp only [itemTree, CC.matchChar, matchCharacter, h, Bool.and_false, Bool.false_and, Bool.false_or]
    exact (eqConst_letter h2).2 rfl
  | range a b =>
    simp only [SetItem.lists, Bool.and_eq_true, decide_eq_true_eq] at h
    rw [← (charTree_num h1).2.1, ← (charTree_num h1).2.2] at h
    simp only [itemTree, CC.matchChar, matchRange, Bool.and_false, Bool.false_and, Bool.false_or, Bool.and_eq_true]
    rw [geConst_nonneg (by omega) (by omega), leConst_nonneg (by omega) (by omega)]
    omega
  | cls c =>
    cases c with
    | letter l =>
      simp only [SetItem.lists, Bool.and_eq_true, decide_eq_true_eq] at h
      simp only [itemTree, clsTree, h.1, if_true, CC.matchChar, CC.matchAny, Bool.or_false]
      rw [letterClass_plain l U (fun _ _ => false)]; exact h.2
    | prop _ _ _ _ => cases h
  | posix neg n =>
    cases neg with
    | true => cases h
    | false =>
      simp only [SetItem.lists] at h
      simp only [itemTree, Bool.false_eq_true, if_false]
      rw [posix_plain n U (fun _ _ => false)]; exact h

theorem setTree_steadfast {neg : Bool} {l : List SetItem} (h : caseClosed l = true) : (setTree neg l).Steadfast := by
  have key : ∀ (U : Uni) (v : Ch), CC.matchAny U true v (itemsTree l) = CC.matchAny U false v (itemsTree l) := by
    intro U v
    simp only [caseClosed, Bool.and_eq_true, List.all_eq_true, List.mem_range, beq_iff_eq, Bool.not_eq_true'] at h
    rw [Bool.eq_iff_iff, itemsTree_iff, itemsTree_iff]
    constructor
    · rintro ⟨i, hi, hm⟩
      rcases (item_fold (h.2 i hi) U v).1 hm with h1 | ⟨k, hk, h1 | h1⟩
      · exact ⟨i, hi, h1⟩
      · have := h.1 k hk
        rw [show l.any (SetItem.lists (97 + k)) = true from List.any_eq_true.2 ⟨i, hi, h1.2⟩, List.any_eq_true] at this
        obtain ⟨j, hj, h2⟩ := this
        exact ⟨j, hj, by rw [h1.1]; exact lists_match (by omega) (by omega) h2 U⟩
      · have := h.1 k hk
        rw [show l.any (SetItem.lists (65 + k)) = true from List.any_eq_true.2 ⟨i, hi, h1.2⟩, eq_comm, List.any_eq_true] at this
        obtain ⟨j, hj, h2⟩ := this
        exact ⟨j, hj, by rw [h1.1]; exact lists_match (by omega) (by omega) h2 U⟩
    · rintro ⟨i, hi, hm⟩
      exact ⟨i, hi, (item_fold (h.2 i hi) U v).2 hm⟩
  intro U v
  unfold setTree
  split <;> simp only [CC.matchChar, key]

/-! ### Texts -/

mutual
theorem atom_leaves (x y : Bool) : ∀ (a : Atom), (x = true → a.caseFree = true) → (y = true → a.lineFree = true) →
    ∀ z ∈ (atomTree a).leaves, Indiff x y z
  | .ch c, hx, _ => by
    simp only [atomTree, Re.leaves, List.mem_singleton, forall_eq, Indiff]
    intro h
    have := hx h
    simp only [Atom.caseFree, Bool.not_eq_true'] at this
    exact chr_steadfast (by rw [charTree_alpha]; exact this)
  | .cls c, _, _ => by
    simp only [atomTree, Re.leaves, List.mem_singleton, forall_eq, Indiff]
    exact fun _ => cls_steadfast c
  | .set neg l, hx, _ => by
    simp only [atomTree, Re.leaves, List.mem_singleton, forall_eq, Indiff]
    exact fun h => setTree_steadfast (hx h)
  | .dot, _, hy | .bol, _, hy | .eol, _, hy | .subjectEndLine, _, hy => by
    simp only [atomTree, Re.leaves, List.mem_singleton, forall_eq, Indiff]
    cases y with
    | false => rfl
    | true => cases hy rfl
  | .wordBoundary, _, _ => by
    simp only [atomTree, Re.leaves, List.mem_singleton, forall_eq, Indiff]
    exact fun _ => wordChars_steadfast
  | .notWordBoundary, _, _ => by
    simp only [atomTree, Re.leaves, List.mem_singleton, forall_eq, Indiff]
    exact fun _ => (set_steadfast (l := [wordChars]) (by simpa using wordChars_steadfast)).2.1
  | .unknown _ _, _, _ => by simp [atomTree, Re.leaves]
  | .subjectBegin, _, _ | .subjectEnd, _, _ | .ref _, _, _ | .refNumber _, _, _ | .refRelative _ _, _, _ | .refName _, _, _ | .mode _, _, _ => by
    simp [atomTree, Re.leaves, Indiff]
  | .cap _ b, hx, hy | .named _ _ b, hx, hy | .ahead _ b, hx, hy | .atomic b, hx, hy => by
    simp only [atomTree, Re.leaves, leaves_unpack]
    exact body_leaves x y b hx hy
  | .behind _ b, hx, hy => by
    simp only [atomTree, Re.leaves]
    exact fun z hz => body_leaves x y b hx hy z (leaves_rotated _ z hz)
  | .group b, hx, hy => by
    simp only [atomTree]
    exact body_leaves x y b hx hy

theorem cat_leaves (x y : Bool) : ∀ (c : Cat), (x = true → c.caseFree = true) → (y = true → c.lineFree = true) →
    ∀ z ∈ (catTree c).leaves, Indiff x y z
  | .one a q, hx, hy => by
    simp only [catTree]
    exact fun z hz => atom_leaves x y a hx hy z (leaves_quant z hz)
  | .cons a q l, hx, hy => by
    simp only [Cat.caseFree, Cat.lineFree, Bool.and_eq_true] at hx hy
    simp only [catTree]
    intro z hz
    rcases leaves_sequence z hz with h | h
    · exact atom_leaves x y a (fun e => (hx e).1) (fun e => (hy e).1) z (leaves_quant z h)
    · exact cat_leaves x y l (fun e => (hx e).2) (fun e => (hy e).2) z h

theorem alt_leaves (x y : Bool) : ∀ (l : Alt), (x = true → l.caseFree = true) → (y = true → l.lineFree = true) →
    ∀ z ∈ (altTree l).leaves, Indiff x y z
  | .empty, _, _ => by simp [altTree, Re.leaves]
  | .one c, hx, hy => by simp only [altTree]; exact cat_leaves x y c hx hy
  | .bar c l, hx, hy => by
    simp only [Alt.caseFree, Alt.lineFree, Bool.and_eq_true] at hx hy
    simp only [altTree]
    intro z hz
    rcases leaves_alternate z hz with h | h
    · exact cat_leaves x y c (fun e => (hx e).1) (fun e => (hy e).1) z h
    · exact alt_leaves x y l (fun e => (hx e).2) (fun e => (hy e).2) z h

theorem body_leaves (x y : Bool) : ∀ (b : Body), (x = true → b.caseFree = true) → (y = true → b.lineFree = true) →
    ∀ z ∈ (bodyTree b).leaves, Indiff x y z
  | .alt l, hx, hy => by simp only [bodyTree]; exact alt_leaves x y l hx hy
  | .lead l, hx, hy => by
    simp only [bodyTree]
    intro z hz
    rcases leaves_alternate z hz with h | h
    · simp [Re.leaves] at h
    · exact alt_leaves x y l hx hy z h
end

end Ctre
