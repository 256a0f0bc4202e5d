import Verif.Spec.Recase
import Verif.Lemmas.Written
/-
Case-insensitive evaluation compared with evaluation on the subject in one case.
-/
namespace Ctre
open Parse Surface

/-- Ignoring case amounts to bringing the character into the given case. -/
def CC.Recased (up : Bool) (c : CC) : Prop := ∀ (U : Uni) (v : Ch), c.matchChar U true v = c.matchChar U false (caseForm up v)

theorem caseForm_idem (up : Bool) (v : Int) : caseForm up (caseForm up v) = caseForm up v := by
  cases up <;> simp only [caseForm, Bool.false_eq_true, if_true, if_false]
  all_goals split <;> (try rfl)
  all_goals split <;> omega

theorem caseForm_newline (up : Bool) (v : Int) : caseForm up v = 10 ↔ v = 10 := by
  cases up <;> simp only [caseForm, Bool.false_eq_true, if_true, if_false]
  all_goals split <;> omega

/-- It does not matter then whether case is ignored for the subject in the given case. -/
theorem CC.Recased.eq {up : Bool} {c : CC} (h : c.Recased up) (U : Uni) (v : Ch) (ci : Bool) :
    c.matchChar U true v = c.matchChar U ci (caseForm up v) := by
  cases ci with
  | false => exact h U v
  | true => rw [h U (caseForm up v), caseForm_idem, h U v]

/-- What is asked of the leaves. -/
def Recast (up : Bool) : Re → Prop
  | .cc c | .boundary c | .notBoundary c => c.Recased up
  | .bref _ | .brefName _ => False
  | .mode .caseSensitive => False
  | _ => True

/-- Case is ignored on one side; otherwise the flags agree. -/
structure FlagsRecast (f f' : Flags) : Prop where
  ci : f.ci = true
  ml : f.ml = f'.ml
  blk : f.blk = f'.blk

variable {up : Bool} {f f' : Flags}

theorem FlagsRecast.consumed (h : FlagsRecast f f') (b : Bool) : FlagsRecast (f.consumed b) (f'.consumed b) := by
  cases b
  · exact h
  · exact ⟨h.ci, h.ml, rfl⟩

theorem FlagsRecast.notEmpty (h : FlagsRecast f f') : FlagsRecast f.notEmpty f'.notEmpty := ⟨h.ci, h.ml, rfl⟩

theorem FlagsRecast.add (h : FlagsRecast f f') {m : Mode} (hm : Recast up (.mode m)) : FlagsRecast (f.add m) (f'.add m) := by
  cases m
  case caseSensitive => exact hm.elim
  all_goals constructor
  all_goals first
    | rfl
    | exact h.ci
    | exact h.ml
    | exact h.blk

/-- The subject in one case. -/
def recase (up : Bool) (s : List Ch) : List Ch := s.map (caseForm up)

@[simp] theorem recase_length (up : Bool) (s : List Ch) : (recase up s).length = s.length := by simp [recase]

theorem recase_get (up : Bool) (s : List Ch) (i : Nat) : (recase up s)[i]? = (s[i]?).map (caseForm up) := by simp [recase]

theorem recase_reverse (up : Bool) (s : List Ch) : (recase up s).reverse = recase up s.reverse := by simp [recase]

theorem matchString_recast {s : List Ch} (hf : FlagsRecast f f') : ∀ (cs : List Nat) (cur : Nat),
    (∀ c ∈ cs, Recast up (.cc (.chr c))) → matchString f.ci s cs cur = matchString f'.ci (recase up s) cs cur := by
  intro cs
  induction cs with
  | nil => intro cur _; rfl
  | cons c cs ih =>
    intro cur h
    have hc : ∀ v : Ch, matchCharacter f.ci v c = matchCharacter f'.ci (caseForm up v) c := by
      intro v
      have := CC.Recased.eq (h c (by simp)) (fun _ _ => false) v f'.ci
      simpa only [CC.matchChar, hf.ci] using this
    unfold matchString
    rw [recase_length, recase_get, ih _ fun d hd => h d (by simp [hd])]
    cases s[cur]? with
    | none => rfl
    | some v => simp only [Option.map_some, hc]

theorem boundaryAt_recast {U : Uni} {s : List Ch} {c : CC} (hf : FlagsRecast f f') (h : c.Recased up) (cur : Nat) :
    boundaryAt U f.ci s cur c = boundaryAt U f'.ci (recase up s) cur c := by
  have key : ∀ i : Nat, (s[i]?).map (c.matchChar U f.ci) = ((recase up s)[i]?).map (c.matchChar U f'.ci) := by
    intro i
    rw [recase_get, Option.map_map, hf.ci]
    cases s[i]? with
    | none => rfl
    | some v => simp only [Option.map_some, Function.comp_apply, h.eq U v f'.ci]
  unfold boundaryAt
  simp only [recase_length, key]

theorem testAt_recast {U : Uni} {s : List Ch} {r : Re} (hf : FlagsRecast f f') (h : Recast up r) (cur : Nat) :
    testAt U s cur f r = testAt U (recase up s) cur f' r := by
  cases r with
  | boundary c => simp only [testAt, boundaryAt_recast hf h]
  | notBoundary c => simp only [testAt, boundaryAt_recast hf h]
  | sEnd => simp only [testAt, recase_length]
  | sEndLine | lEnd =>
    simp only [testAt, recase_length, hf.ml, recase_get]
    cases s[cur]? with
    | none => rfl
    | some v => simp only [Option.map_some, caseForm_newline]
  | lBegin =>
    cases cur with
    | zero => simp only [testAt, hf.ml]
    | succ p =>
      simp only [testAt, hf.ml, recase_get]
      cases s[p]? with
      | none => rfl
      | some v => simp only [Option.map_some, caseForm_newline]
  | _ => simp only [testAt]

def StkRecast (up : Bool) (st : Stack) : Prop := ∀ r, Item.re r ∈ st → ∀ z ∈ r.leaves, Recast up z

theorem stkRecast_cons {i : Item} {t : Stack} :
    StkRecast up (i :: t) ↔ (∀ r, i = .re r → ∀ z ∈ r.leaves, Recast up z) ∧ StkRecast up t := by
  unfold StkRecast
  constructor
  · intro h; exact ⟨fun r hr => h r (by simp [hr]), fun r hr => h r (by simp [hr])⟩
  · intro h r hr
    rcases List.mem_cons.1 hr with hr | hr
    · exact h.1 r hr.symm
    · exact h.2 r hr

theorem stkRecast_re {r : Re} {t : Stack} : StkRecast up (.re r :: t) ↔ (∀ z ∈ r.leaves, Recast up z) ∧ StkRecast up t := by
  rw [stkRecast_cons]; simp

theorem stkRecast_mark {i : Item} {t : Stack} (hx : ∀ r, i ≠ .re r) (h : StkRecast up t) : StkRecast up (i :: t) := by
  rw [stkRecast_cons]; exact ⟨fun r hr => absurd hr (hx r), h⟩

theorem stkRecast_items {l : List Re} {t : Stack} (h : ∀ z ∈ leavesAll l, Recast up z) (ht : StkRecast up t) :
    StkRecast up (items l t) := by
  induction l with
  | nil => exact ht
  | cons r l ih =>
    simp only [leavesAll, List.mem_append] at h
    have : items (r :: l) t = .re r :: items l t := rfl
    rw [this, stkRecast_re]
    exact ⟨fun z hz => h z (.inl hz), ih fun z hz => h z (.inr hz)⟩

/-- Evaluation with case ignored is evaluation on the subject in one case. -/
theorem eval_recast (C : Cfg) : ∀ n (s : List Ch) lb cur f f' c st, FlagsRecast f f' → StkRecast up st →
    eval C n s lb cur f c st = eval C n (recase up s) lb cur f' c st := by
  intro n
  induction n with
  | zero => intros; rfl
  | succ n ih =>
    intro s lb cur f f' c st hf hst
    rcases st with _ | ⟨it, t⟩
    · rfl
    · have ht := (stkRecast_cons.1 hst).2
      have iht : ∀ p f f' c, FlagsRecast f f' → eval C n s lb p f c t = eval C n (recase up s) lb p f' c t :=
        fun p f f' c hf => ih s lb p f f' c t hf ht
      cases it with
      | accept | endAhead | endBehind => cases t <;> rfl
      | endCycle =>
        cases t with
        | nil => simp only [eval, hf.blk]
        | cons _ _ => rfl
      | startMark => simp only [eval_startMark, iht _ _ _ _ hf]
      | endMark => simp only [eval_endMark, iht _ _ _ _ hf]
      | numMark id => simp only [eval_numMark, iht _ _ _ _ hf]
      | re r =>
        have hr := (stkRecast_re.1 hst).1
        have hbody : ∀ m, (∀ z ∈ leavesAll m, Recast up z) →
            (fun p c' => eval C n s lb p f.notEmpty c' (items m [.endCycle])) =
            (fun p c' => eval C n (recase up s) lb p f'.notEmpty c' (items m [.endCycle])) := by
          intro m hm
          funext p c'
          exact ih s lb p _ _ _ _ hf.notEmpty (stkRecast_items hm (stkRecast_mark (by simp) (by simp [StkRecast])))
        have htail : (fun p c' => eval C n s lb p (f.consumed true) c' t) =
            (fun p c' => eval C n (recase up s) lb p (f'.consumed true) c' t) := by
          funext p c'
          exact iht _ _ _ _ (hf.consumed true)
        cases r with
        | cc cl =>
          have h1 : cl.Recased up := hr (.cc cl) (by simp [Re.leaves])
          simp only [eval_cc, recase_length, recase_get, hf.ci]
          cases s[cur]? with
          | none => rfl
          | some v => simp only [Option.map_some, ← h1.eq _ v f'.ci, iht _ _ _ _ (hf.consumed true)]
        | any =>
          simp only [eval_any, recase_length, recase_get, hf.ml]
          cases s[cur]? with
          | none => simp only [Option.map_none, iht _ _ _ _ (hf.consumed true)]
          | some v => simp only [Option.map_some, caseForm_newline, iht _ _ _ _ (hf.consumed true)]
        | str cs =>
          simp only [eval_str]
          rw [matchString_recast hf cs cur fun c hc => hr _ (by simp only [Re.leaves, List.mem_map]; exact ⟨c, hc, rfl⟩)]
          simp only [iht _ _ _ _ (hf.consumed _)]
        | sel l =>
          cases l with
          | nil => rfl
          | cons r opts =>
            simp only [Re.leaves, leavesAll, List.mem_append] at hr
            simp only [eval_sel_cons]
            rw [ih s lb cur f f' c _ hf (stkRecast_re.2 ⟨fun z hz => hr z (.inl hz), ht⟩),
              ih s lb cur f f' c (.re (.sel opts) :: t) hf (stkRecast_re.2 ⟨fun z hz => hr z (.inr hz), ht⟩)]
        | seq l =>
          rcases l with _ | ⟨r, _ | ⟨r', m⟩⟩
          · rfl
          · simp only [Re.leaves, leavesAll, List.append_nil] at hr
            exact ih _ _ _ _ _ _ _ hf (stkRecast_re.2 ⟨hr, ht⟩)
          · simp only [Re.leaves, leavesAll, List.mem_append] at hr
            refine ih _ _ _ _ _ _ _ hf (stkRecast_re.2 ⟨fun z hz => hr z (.inl hz), stkRecast_re.2 ⟨fun z hz => ?_, ht⟩⟩)
            simp only [Re.leaves, leavesAll, List.mem_append] at hz
            exact hr z (.inr hz)
        | empty => exact iht _ _ _ _ hf
        | rep k a b m =>
          cases k with
          | lazy => simp only [eval_lazy, recase_length, hbody m hr, htail, iht _ _ _ _ (hf.consumed _)]
          | poss => simp only [eval_poss, recase_length, hbody m hr, iht _ _ _ _ (hf.consumed _)]
          | greedy =>
            simp only [eval_greedy, recase_length, greedyRecRef_eq, ite_self, hbody m hr, htail]
            rw [ih s lb cur f f' c (.re (.rep .poss a b m) :: t) hf (stkRecast_re.2 ⟨hr, ht⟩)]
        | cap id name m =>
          simp only [eval_cap]
          split
          · rfl
          · split
            · rfl
            · exact ih _ _ _ _ _ _ _ hf (stkRecast_re.2 ⟨hr, stkRecast_mark (by simp) ht⟩)
        | bref id => exact (hr (.bref id) (by simp [Re.leaves])).elim
        | brefName id => exact (hr (.brefName id) (by simp [Re.leaves])).elim
        | ahead pos m =>
          simp only [eval_ahead, iht _ _ _ _ hf]
          rw [ih s lb cur f f' c [.re (.seq m), .endAhead] hf
            (stkRecast_re.2 ⟨hr, stkRecast_mark (by simp) (by simp [StkRecast])⟩)]
        | behind pos m =>
          simp only [eval_behind, iht _ _ _ _ hf, recase_length, recase_reverse]
          rw [ih s.reverse true (s.length - cur) f f' c [.re (.seq m), .endBehind] hf
            (stkRecast_re.2 ⟨hr, stkRecast_mark (by simp) (by simp [StkRecast])⟩)]
        | atomic m =>
          rw [eval_atomic, eval_atomic]
          exact ih _ _ _ _ _ _ _ hf (stkRecast_re.2 ⟨hr, ht⟩)
        | mode md =>
          rw [eval_mode, eval_mode]
          exact iht _ _ _ _ (hf.add (hr _ (by simp [Re.leaves])))
        | reject => rfl
        | boundary _ | notBoundary _ | sBegin | sEnd | sEndLine | lBegin | lEnd =>
          rw [eval_test (h := rfl), eval_test (h := rfl), testAt_recast hf (hr _ (by simp [Re.leaves])), iht _ _ _ _ hf]

mutual
theorem anchorRe_ml (h : f.ml = f'.ml) : ∀ (r : Re) (k : Bool), anchorRe f k r = anchorRe f' k r
  | .lBegin, k => by simp only [anchorRe, h]
  | .sel l, k => by simp only [anchorRe]; exact anchorSel_ml h l k
  | .seq l, k => by simp only [anchorRe]; exact anchorSeq_ml h l k
  | .rep kind a b l, k => by simp only [anchorRe, anchorSeq_ml h l k]
  | .cap _ none l, k => by simp only [anchorRe]; exact anchorSeq_ml h l k
  | .cap _ (some _) _, _ | .cc _, _ | .any, _ | .str _, _ | .empty, _ | .bref _, _ | .brefName _, _ | .ahead _ _, _
  | .behind _ _, _ | .atomic _, _ | .boundary _, _ | .notBoundary _, _ | .sBegin, _ | .sEnd, _ | .sEndLine, _
  | .lEnd, _ | .mode _, _ | .reject _, _ => by simp only [anchorRe]

theorem anchorSeq_ml (h : f.ml = f'.ml) : ∀ (l : List Re) (k : Bool), anchorSeq f k l = anchorSeq f' k l
  | [], _ => rfl
  | r :: l, k => by
    simp only [anchorSeq, anchorSeq_ml h l k]
    exact anchorRe_ml h r _

theorem anchorSel_ml (h : f.ml = f'.ml) : ∀ (l : List Re) (k : Bool), anchorSel f k l = anchorSel f' k l
  | [], _ => rfl
  | r :: l, k => by simp only [anchorSel, anchorSel_ml h l k, anchorRe_ml h r k]
end

/-- So are the results of the calls. -/
theorem calls_recast (C : Cfg) (n : Nat) (s : List Ch) {r : Re} (hf : FlagsRecast f f') (hr : ∀ z ∈ r.leaves, Recast up z) (p : Nat) :
    matchAt C n s f r p = matchAt C n (recase up s) f' r p ∧ startsWithAt C n s f r p = startsWithAt C n (recase up s) f' r p ∧
      searchAt C n s f r p = searchAt C n (recase up s) f' r p := by
  have hst : ∀ t : Stack, StkRecast up t → StkRecast up (.startMark :: .re r :: t) := fun t ht =>
    stkRecast_mark (by simp) (stkRecast_re.2 ⟨hr, ht⟩)
  have he : StkRecast up [.endMark, .accept] := by simp [StkRecast]
  have hatt : ∀ it, attempt C n s f r it = attempt C n (recase up s) f' r it := fun it => eval_recast C n s false it f f' _ _ hf (hst _ he)
  refine ⟨?_, ?_, ?_⟩
  · unfold matchAt attemptFull
    rw [eval_recast C n s false p f f' _ _ hf (hst _ (stkRecast_re.2 ⟨by simp [Re.leaves, Recast], he⟩))]
  · unfold startsWithAt
    rw [hatt]
  · have loop : ∀ k it, searchLoop C n s f r k it = searchLoop C n (recase up s) f' r k it := by
      intro k
      induction k with
      | zero => intro it; unfold searchLoop; rw [hatt]
      | succ k ih => intro it; unfold searchLoop; rw [hatt, ih]
    have ha : startsWithAnchor f r = startsWithAnchor f' r := anchorRe_ml hf.ml r false
    unfold searchAt
    rw [loop, ha, recase_length]

/-! ### Classes -/

theorem CC.Recased.of_check {c : CC} (hp : ∀ (U U' : Uni) (ci : Bool) (v : Ch), c.matchChar U ci v = c.matchChar U' ci v)
    (h : ∀ k ∈ letterCodes, c.matchChar (fun _ _ => false) true (k : Int) = c.matchChar (fun _ _ => false) false (caseForm up (k : Int))) :
    c.Recased up := by
  intro U v
  by_cases hv : IsLetter v
  · obtain ⟨k, hk, rfl⟩ := isLetter_code hv
    rw [hp _ (fun _ _ => false), h k hk, hp U (fun _ _ => false)]
  · rw [matchChar_nonletter hv true c, caseForm_other hv]

theorem letterSet_recased (up : Bool) (l : Nat) : (CC.set [letterClass l]).Recased up ∧ (CC.negSet [letterClass l]).Recased up := by
  unfold letterClass
  repeat' split
  all_goals
    refine ⟨CC.Recased.of_check (fun _ _ _ _ => rfl) ?_, CC.Recased.of_check (fun _ _ _ _ => rfl) ?_⟩ <;> cases up <;> decide +kernel

theorem wordChars_recased (up : Bool) : wordChars.Recased up :=
  CC.Recased.of_check (fun _ _ _ _ => rfl) (by cases up <;> decide +kernel)

theorem lowerCase_caseForm (up : Bool) (v : Int) : lowerCase (caseForm up v) = lowerCase v := by
  cases up <;> simp only [caseForm, lowerCase, Bool.false_eq_true, if_true, if_false] <;> repeat' split
  all_goals omega

theorem chr_recased {c : Nat} (h : (if up = true then isLower c else isUpper c) = false) : (CC.chr c).Recased up := by
  intro U v
  by_cases hv : IsLetter v
  · rw [Bool.eq_iff_iff]
    refine ⟨fun hm => matchCharacter_folds h hv hm, fun hm => ?_⟩
    simp only [CC.matchChar] at hm ⊢
    have e := CC.matchChar_fold (U := U) (lowerCase_caseForm up v) (cl := .chr c) rfl
    simp only [CC.matchChar] at e
    rw [← e]
    simp only [matchCharacter, Bool.and_false, Bool.false_and, Bool.false_or] at hm
    simp only [matchCharacter, hm, Bool.or_true]
  · rw [matchChar_nonletter hv true, caseForm_other hv]

theorem item_plain {U : Uni} {ci : Bool} {v : Ch} {i : SetItem} (h : i.isProp = false) : i.has U ci v ↔ i.has (fun _ _ => false) ci v := by
  cases i with
  | one c | range a b => simp [SetItem.has, CC.matchChar]
  | posix neg n =>
    simp only [SetItem.has]
    rw [show n.cls.matchChar U ci v = n.cls.matchChar (fun _ _ => false) ci v by cases n <;> rfl]
  | cls c =>
    cases c with
    | letter l =>
      simp only [SetItem.has, Cls.has]
      rw [show (letterClass l).matchChar U ci v = (letterClass l).matchChar (fun _ _ => false) ci v by
        unfold letterClass; repeat' split
        all_goals rfl]
    | prop neg p n w => cases h

theorem set_recased {neg : Bool} {l : List SetItem} (hf : ∀ i ∈ l, i.Faithful) (h : setRecased up neg l = true) :
    (setTree neg l).Recased up := by
  simp only [setRecased, Bool.and_eq_true, List.all_eq_true, Bool.not_eq_true', beq_iff_eq] at h
  obtain ⟨h, hn⟩ := h
  have key : ∀ (U : Uni) (ci : Bool) (v : Int), (setTree neg l).matchChar U ci v = setLists ci neg l v := by
    intro U ci v
    rw [Bool.eq_iff_iff, setTree_match hf]
    have : (∃ i ∈ l, i.has U ci v) ↔ (l.any fun i => decide (i.has (fun _ _ => false) ci v)) = true := by
      simp only [List.any_eq_true, decide_eq_true_eq]
      exact exists_congr fun i => and_congr_right fun hi => item_plain (hn i hi)
    rw [this]
    simp only [setLists]
    generalize (l.any fun i => decide (i.has (fun _ _ => false) ci v)) = a
    cases a <;> cases neg <;> simp
  refine CC.Recased.of_check (fun U U' ci v => by rw [key, key]) fun k hk => ?_
  rw [key, key, h k hk]

mutual
theorem atom_recased : ∀ (a : Atom), a.Faithful → a.recased up = true → ∀ z ∈ (atomTree a).leaves, Recast up z
  | .ch c, hf, hx => by
    simp only [atomTree, Re.leaves, List.mem_singleton, forall_eq, Recast]
    simp only [Atom.recased, Bool.not_eq_true'] at hx
    exact chr_recased (by rw [charTree_eq hf]; exact hx)
  | .cls (.letter l), _, _ => by
    simp only [atomTree, Re.leaves, List.mem_singleton, forall_eq, Recast, clsTree]
    split
    · exact (letterSet_recased up l).1
    · exact (letterSet_recased up l).2
  | .cls (.prop _ _ _ _), _, hx => by simp [Atom.recased] at hx
  | .set neg l, hf, hx => by
    simp only [atomTree, Re.leaves, List.mem_singleton, forall_eq, Recast]
    exact set_recased hf hx
  | .mode m, _, hx => by
    simp only [atomTree, Re.leaves, List.mem_singleton, forall_eq]
    cases m with
    | caseSensitive => cases hx
    | _ => trivial
  | .wordBoundary, _, _ => by
    simp only [atomTree, Re.leaves, List.mem_singleton, forall_eq, Recast]
    exact wordChars_recased up
  | .notWordBoundary, _, _ => by
    simp only [atomTree, Re.leaves, List.mem_singleton, forall_eq, Recast]
    exact CC.Recased.of_check (fun _ _ _ _ => rfl) (by cases up <;> decide +kernel)
  | .dot, _, _ | .bol, _, _ | .eol, _, _ | .subjectEndLine, _, _
  | .unknown _ _, _, _ | .subjectBegin, _, _ | .subjectEnd, _, _ => by
    simp [atomTree, Re.leaves, Recast]
  | .ref _, _, hx | .refNumber _, _, hx | .refRelative _ _, _, hx | .refName _, _, hx => by simp [Atom.recased] at hx
  | .cap _ b, hf, hx | .named _ _ b, hf, hx | .ahead _ b, hf, hx | .atomic b, hf, hx => by
    simp only [atomTree, Re.leaves, leaves_unpack]
    exact body_recased b hf hx
  | .behind _ b, hf, hx => by
    simp only [atomTree, Re.leaves]
    exact fun z hz => body_recased b hf.1 hx z (leaves_rotated _ z hz)
  | .group b, hf, hx => by
    simp only [atomTree]
    exact body_recased b hf hx

theorem cat_recased : ∀ (c : Cat), c.Faithful → c.recased up = true → ∀ z ∈ (catTree c).leaves, Recast up z
  | .one a q, hf, hx => by
    simp only [catTree]
    exact fun z hz => atom_recased a hf.1 hx z (leaves_quant z hz)
  | .cons a q l, hf, hx => by
    simp only [Cat.recased, Bool.and_eq_true] at hx
    simp only [catTree]
    intro z hz
    rcases leaves_sequence z hz with h | h
    · exact atom_recased a hf.1 hx.1 z (leaves_quant z h)
    · exact cat_recased l hf.2.2.1 hx.2 z h

theorem alt_recased : ∀ (l : Alt), l.Faithful → l.recased up = true → ∀ z ∈ (altTree l).leaves, Recast up z
  | .empty, _, _ => by simp [altTree, Re.leaves]
  | .one c, hf, hx => by simp only [altTree]; exact cat_recased c hf hx
  | .bar c l, hf, hx => by
    simp only [Alt.recased, Bool.and_eq_true] at hx
    simp only [altTree]
    intro z hz
    rcases leaves_alternate z hz with h | h
    · exact cat_recased c hf.1 hx.1 z h
    · exact alt_recased l hf.2 hx.2 z h

theorem body_recased : ∀ (b : Body), b.Faithful → b.recased up = true → ∀ z ∈ (bodyTree b).leaves, Recast up z
  | .alt l, hf, hx => by simp only [bodyTree]; exact alt_recased l hf hx
  | .lead l, hf, hx => by
    simp only [bodyTree]
    intro z hz
    rcases leaves_alternate z hz with h | h
    · simp [Re.leaves] at h
    · exact alt_recased l hf hx z h
end

end Ctre
