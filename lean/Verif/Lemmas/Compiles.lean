import Verif.Spec.Compiles
import Verif.Lemmas.Nullable
import Verif.Lemmas.Safe

/-
Runs that do not meet an instantiation which does not compile.
-/
namespace Ctre

/-! ### First sets -/

mutual
theorem negHelper_some : ∀ (c : CC) (start : Int), c.listable = true → (negHelper c start).isSome = true
  | .set l, st, h => by simp only [CC.listable] at h; simp only [negHelper]; exact negList_some l st h
  | .chr _, _, _ | .range _ _, _, _ | .enum _, _, _ | .prop _, _, _ => by simp [negHelper]
  | .negSet _, _, h | .negate _, _, h => by simp [CC.listable] at h

theorem negList_some : ∀ (l : List CC) (start : Int), listableAll l = true → (negList l start).isSome = true
  | [], _, _ => by simp [negList]
  | c :: l, st, h => by
    simp only [listableAll, Bool.and_eq_true] at h
    unfold negList
    have h1 := negHelper_some c st h.1
    cases h2 : negHelper c st with
    | none => simp [h2] at h1
    | some x =>
      dsimp only
      have h3 := negList_some l x.2 h.2
      cases h4 : negList l x.2 with
      | none => simp [h4] at h3
      | some y => simp
end

theorem negSetIntervals_some {l : List CC} (h : listableAll l = true) : (negSetIntervals l).isSome = true := by
  unfold negSetIntervals
  have := negList_some l i64min h
  cases h1 : negList l i64min with
  | none => simp [h1] at this
  | some x => simp

mutual
theorem populateCC_some : ∀ (c : CC) (ps : List (Int × Int)), c.member = true → (populateCC ps c).isSome = true
  | .set l, ps, h => by simp only [CC.member] at h; simp only [populateCC]; exact populateList_some l ps h
  | .negSet l, ps, h => by
    simp only [CC.member] at h
    simpa [populateCC] using negSetIntervals_some h
  | .chr _, _, _ | .range _ _, _, _ | .enum _, _, _ | .prop _, _, _ => by simp [populateCC]
  | .negate _, _, h => by simp [CC.member] at h

theorem populateList_some : ∀ (l : List CC) (ps : List (Int × Int)), memberAll l = true → (populateList ps l).isSome = true
  | [], _, _ => by simp [populateList]
  | c :: l, ps, h => by
    simp only [memberAll, Bool.and_eq_true] at h
    unfold populateList
    have h1 := populateCC_some c ps h.1
    cases h2 : populateCC ps c with
    | none => simp [h2] at h1
    | some x => exact populateList_some l x h.2
end

mutual
theorem checkCC_some : ∀ (c : CC) (ps : List (Int × Int)), c.member = true → (checkCC ps c).isSome = true
  | .set l, ps, h => by simp only [CC.member] at h; simp only [checkCC]; exact checkList_some l ps h
  | .negSet l, ps, h => by
    simp only [CC.member] at h
    simpa [checkCC] using negSetIntervals_some h
  | .chr _, _, _ | .range _ _, _, _ | .enum _, _, _ | .prop _, _, _ => by simp [checkCC]
  | .negate _, _, h => by simp [CC.member] at h

theorem checkList_some : ∀ (l : List CC) (ps : List (Int × Int)), memberAll l = true → (checkList ps l).isSome = true
  | [], _, _ => by simp [checkList]
  | c :: l, ps, h => by
    simp only [memberAll, Bool.and_eq_true] at h
    unfold checkList
    have h1 := checkCC_some c ps h.1
    have h2 := checkList_some l ps h.2
    cases h3 : checkCC ps c with
    | none => simp [h3] at h1
    | some x =>
      cases h4 : checkList ps l with
      | none => simp [h4] at h2
      | some y => simp
end

/-- All elements of a first list can be handled. -/
def Fits (l : List FC) : Prop := ∀ x ∈ l, ∀ c, x = .cc c → c.member = true

theorem populate_some : ∀ (l : List FC) (ps : List (Int × Int)), Fits l → (populate ps l).isSome = true
  | [], _, _ => by simp [populate]
  | x :: l, ps, h => by
    unfold populate
    have h1 : (populateFC ps x).isSome = true := by
      cases x with
      | anything => simp [populateFC]
      | cc c => exact populateCC_some c ps (h (.cc c) (by simp) c rfl)
    cases h2 : populateFC ps x with
    | none => simp [h2] at h1
    | some y => exact populate_some l y fun z hz => h z (by simp [hz])

theorem check_some : ∀ (l : List FC) (ps : List (Int × Int)), Fits l → (check ps l).isSome = true
  | [], _, _ => by simp [check]
  | x :: l, ps, h => by
    unfold check
    have h1 : (checkFC ps x).isSome = true := by
      cases x with
      | anything => simp [checkFC]
      | cc c => exact checkCC_some c ps (h (.cc c) (by simp) c rfl)
    have h2 := check_some l ps fun z hz => h z (by simp [hz])
    cases h3 : checkFC ps x with
    | none => simp [h3] at h1
    | some y =>
      cases h4 : check ps l with
      | none => simp [h4] at h2
      | some z => simp

/-- A continuation which handles all lists. -/
def KFits (k : List FC → Option (List FC)) : Prop := ∀ l, Fits l → ∃ x, k l = some x ∧ Fits x

theorem fits_append {l m : List FC} (h : Fits l) (h' : Fits m) : Fits (l ++ m) := by
  intro x hx
  rcases List.mem_append.1 hx with hx | hx
  · exact h x hx
  · exact h' x hx

theorem fits_one {c : CC} (h : c.member = true) : Fits [.cc c] := by
  intro x hx d hd
  simp only [List.mem_singleton] at hx
  subst hx
  simp only [FC.cc.injEq] at hd
  rw [← hd]; exact h

theorem fits_anything : Fits [.anything] := by
  intro x hx d hd
  simp only [List.mem_singleton] at hx
  subst hx
  simp at hd

theorem memberAll_mem : ∀ {l : List CC}, memberAll l = true → ∀ c ∈ l, c.member = true
  | [], _, c, hc => by simp at hc
  | d :: l, h, c, hc => by
    simp only [memberAll, Bool.and_eq_true] at h
    rcases List.mem_cons.1 hc with rfl | hc
    · exact h.1
    · exact memberAll_mem h.2 c hc

theorem firstCC_fits {l : List FC} {c : CC} (hl : Fits l) (h : c.scans = true) : Fits (firstCC l c) := by
  cases c with
  | chr c => exact fits_append hl (fits_one rfl)
  | range a b => exact fits_append hl (fits_one rfl)
  | enum cs =>
    refine fits_append hl ?_
    intro x hx d hd
    simp only [List.mem_map] at hx
    obtain ⟨e, _, rfl⟩ := hx
    simp only [FC.cc.injEq] at hd
    rw [← hd]; rfl
  | set m =>
    refine fits_append hl ?_
    intro x hx d hd
    simp only [List.mem_map] at hx
    obtain ⟨e, he, rfl⟩ := hx
    simp only [FC.cc.injEq] at hd
    rw [← hd]
    simp only [CC.scans, CC.member] at h
    exact memberAll_mem h e he
  | negSet m => exact fits_append hl (fits_one h)
  | negate m => exact fits_append hl (fits_one h)
  | prop p => exact fits_anything

mutual
theorem firstRe_fits : ∀ (r : Re) {k : List FC → Option (List FC)}, r.scans = true → KFits k → KFits (fun l => firstRe k l r)
  | .cc c, k, h, hk, l, hl => ⟨_, rfl, firstCC_fits hl h⟩
  | .any, k, h, hk, l, hl => ⟨_, rfl, fits_anything⟩
  | .str [], k, h, hk, l, hl => by simp only [firstRe]; exact hk l hl
  | .str (c :: cs), k, h, hk, l, hl => ⟨_, rfl, fits_append hl (fits_one rfl)⟩
  | .sel m, k, h, hk, l, hl => by simp only [Re.scans] at h; simp only [firstRe]; exact firstSel_fits m h hk l hl
  | .seq m, k, h, hk, l, hl => by simp only [Re.scans] at h; simp only [firstRe]; exact firstSeq_fits m h hk l hl
  | .empty, k, h, hk, l, hl => by simp only [firstRe]; exact hk l hl
  | .rep kd a b m, k, h, hk, l, hl => by
    simp only [Re.scans] at h
    simp only [firstRe]
    split
    · split
      · obtain ⟨x, h1, h2⟩ := firstSeq_fits m h hk l hl
        simp only at h1
        rw [h1]
        exact hk x h2
      · obtain ⟨x, h1, h2⟩ := hk l hl
        rw [h1]
        exact firstSeq_fits m h hk x h2
    · exact firstSeq_fits m h hk l hl
  | .cap _ _ m, k, h, hk, l, hl => by simp only [Re.scans] at h; simp only [firstRe]; exact firstSeq_fits m h hk l hl
  | .bref _, k, h, hk, l, hl | .brefName _, k, h, hk, l, hl | .ahead _ _, k, h, hk, l, hl | .behind _ _, k, h, hk, l, hl =>
    ⟨_, rfl, fits_anything⟩
  | .atomic m, k, h, hk, l, hl => by simp only [Re.scans] at h; simp only [firstRe]; exact firstSeq_fits m h hk l hl
  | .boundary _, k, h, hk, l, hl | .sBegin, k, h, hk, l, hl | .lBegin, k, h, hk, l, hl => by
    simp only [firstRe]; exact hk l hl
  | .sEnd, k, h, hk, l, hl | .sEndLine, k, h, hk, l, hl | .lEnd, k, h, hk, l, hl => ⟨_, rfl, hl⟩
  | .notBoundary _, k, h, hk, l, hl | .mode _, k, h, hk, l, hl | .reject _, k, h, hk, l, hl => by simp [Re.scans] at h

theorem firstSeq_fits : ∀ (m : List Re) {k : List FC → Option (List FC)}, scansAll m = true → KFits k →
    KFits (fun l => firstSeq k l m)
  | [], k, h, hk, l, hl => by simp only [firstSeq]; exact hk l hl
  | r :: m, k, h, hk, l, hl => by
    simp only [scansAll, Bool.and_eq_true] at h
    simp only [firstSeq]
    exact firstRe_fits r h.1 (firstSeq_fits m h.2 hk) l hl

theorem firstSel_fits : ∀ (m : List Re) {k : List FC → Option (List FC)}, scansAll m = true → KFits k →
    KFits (fun l => firstSel k l m)
  | [], k, h, hk, l, hl => ⟨_, rfl, hl⟩
  | r :: m, k, h, hk, l, hl => by
    simp only [scansAll, Bool.and_eq_true] at h
    simp only [firstSel]
    obtain ⟨x, h1, h2⟩ := firstRe_fits r h.1 hk l hl
    simp only at h1
    rw [h1]
    exact firstSel_fits m h.2 hk x h2
end

/-- The analysis can handle the stack. -/
def scansSt : Stack → Bool
  | [] => true
  | .accept :: _ | .endMark :: _ | .endCycle :: _ | .endAhead :: _ => true
  | .startMark :: _ | .endBehind :: _ => false
  | .numMark _ :: t => scansSt t
  | .re r :: t => r.scans && scansSt t

theorem first_fits : ∀ (t : Stack), scansSt t = true → KFits (first t)
  | [], _, l, hl => ⟨_, rfl, hl⟩
  | .accept :: _, _, l, hl | .endMark :: _, _, l, hl | .endCycle :: _, _, l, hl | .endAhead :: _, _, l, hl => ⟨_, rfl, hl⟩
  | .startMark :: _, h, _, _ | .endBehind :: _, h, _, _ => by simp [scansSt] at h
  | .numMark _ :: t, h, l, hl => first_fits t h l hl
  | .re r :: t, h, l, hl => by
    simp only [scansSt, Bool.and_eq_true] at h
    exact firstRe_fits r h.1 (first_fits t h.2) l hl

theorem scansSt_items (m : List Re) (t : Stack) : scansSt (items m t) = (scansAll m && scansSt t) := by
  induction m with
  | nil => simp [items, scansAll]
  | cons r m ih => simp only [items, List.map_cons, List.cons_append, scansSt, scansAll] at *; rw [ih, Bool.and_assoc]

theorem loopCollides_some {m : List Re} {t : Stack} (hm : scansAll m = true) (ht : scansSt t = true) :
    loopCollides m t ≠ none := by
  unfold loopCollides
  obtain ⟨a, h1, h2⟩ := first_fits (items m []) (by rw [scansSt_items, hm]; rfl) [] (by intro x hx; simp at hx)
  obtain ⟨b, h3, h4⟩ := first_fits t ht [] (by intro x hx; simp at hx)
  rw [h1, h3]
  show collides a b ≠ none
  unfold collides
  have h5 := populate_some a [] h2
  cases h6 : populate [] a with
  | none => simp [h6] at h5
  | some ps =>
    have h7 := check_some b ps h4
    intro h8
    simp [h8] at h7

/-! ### The machine -/

section loops
variable {I : Nat → Caps → Prop} {body tail : Nat → Caps → Out} {Q : Caps → Prop}

/-- Steps keep the invariant and compile. -/
def StepFine (I : Nat → Caps → Prop) (body : Nat → Caps → Out) : Prop :=
  ∀ p c, I p c → step body p c ≠ .stop .ill ∧ ∀ p' c', step body p c = .go p' c' → I p' c'

/-- Outcome that compiles and satisfies `Q` if successful. -/
def Fine (Q : Caps → Prop) (o : Out) : Prop := o ≠ .ill ∧ ∀ r, o = .ok r → Q r

theorem Fine.timeout : Fine Q .timeout := ⟨by simp, by simp⟩
theorem Fine.ub : Fine Q .ub := ⟨by simp, by simp⟩
theorem Fine.fail : Fine Q .fail := ⟨by simp, by simp⟩

theorem Fine.orElse {o x : Out} (h : Fine Q o) (h' : Fine Q x) : Fine Q (o.orElse x) := by
  cases o <;> first | exact h' | exact h

theorem mandLoop_fine (hs : StepFine I body) (a : Nat) : ∀ p c, I p c →
    mandLoop body a p c ≠ .stop .ill ∧ ∀ p' c', mandLoop body a p c = .go p' c' → I p' c' := by
  induction a with
  | zero => intro p c hi; simp only [mandLoop]; exact ⟨by simp, by rintro p' c' h; simp only [Loop.go.injEq] at h; rw [← h.1, ← h.2]; exact hi⟩
  | succ a ih =>
    intro p c hi
    unfold mandLoop
    cases hq : step body p c with
    | stop o =>
      refine ⟨?_, by simp⟩
      have := (hs p c hi).1
      rw [hq] at this
      simpa using this
    | go p' c' => exact ih _ _ ((hs p c hi).2 _ _ hq)

theorem possLoop_fine (hs : StepFine I body) {a b : Nat} (m : Nat) : ∀ i p c, I p c →
    possLoop body a b m i p c ≠ .stop .ill ∧ ∀ p' c', possLoop body a b m i p c = .go p' c' → I p' c' := by
  induction m with
  | zero => intro i p c hi; simp [possLoop]
  | succ m ih =>
    intro i p c hi
    unfold possLoop
    split
    · cases hq : step body p c with
      | stop o =>
        cases o with
        | fail =>
          simp only
          split
          · simp
          · exact ⟨by simp, by rintro p' c' h; simp only [Loop.go.injEq] at h; rw [← h.1, ← h.2]; exact hi⟩
        | ill => exact absurd hq (hs p c hi).1
        | _ => simp
      | go p' c' => exact ih _ _ _ ((hs p c hi).2 _ _ hq)
    · exact ⟨by simp, by rintro p' c' h; simp only [Loop.go.injEq] at h; rw [← h.1, ← h.2]; exact hi⟩

theorem fine_stop {o : Out} (h1 : o ≠ .ill) (h2 : ∀ r, o ≠ .ok r) : Fine Q o :=
  ⟨h1, fun r h => absurd h (h2 r)⟩

theorem lazyLoop_fine (hs : StepFine I body) (ht : ∀ p c, I p c → Fine Q (tail p c)) {b : Nat} (m : Nat) :
    ∀ i p c, I p c → Fine Q (lazyLoop body tail b m i p c) := by
  induction m with
  | zero => intro i p c hi; exact .timeout
  | succ m ih =>
    intro i p c hi
    unfold lazyLoop
    split
    · cases hq : step body p c with
      | stop o =>
        refine fine_stop ?_ ?_
        · rintro rfl; exact (hs p c hi).1 hq
        · rintro r rfl; exact step_ne_ok hq
      | go p' c' =>
        have hi' := (hs p c hi).2 _ _ hq
        simp only
        cases htl : tail p' c' with
        | fail => exact ih _ _ _ hi'
        | _ => have := ht p' c' hi'; rw [htl] at this; exact this
    · exact ht _ _ hi

theorem greedyRec_fine (hs : StepFine I body) (ht : ∀ p c, I p c → Fine Q (tail p c)) {b : Nat} (m : Nat) :
    ∀ i p c, I p c → Fine Q (greedyRec body tail b m i p c) := by
  induction m with
  | zero => intro i p c hi; exact .timeout
  | succ m ih =>
    intro i p c hi
    unfold greedyRec
    split
    · cases hq : step body p c with
      | stop o =>
        cases o with
        | fail => exact ht _ _ hi
        | ill => exact absurd hq (hs p c hi).1
        | ok r => exact absurd hq step_ne_ok
        | _ => exact fine_stop (by simp) (by simp)
      | go p' c' =>
        have hi' := (hs p c hi).2 _ _ hq
        simp only
        cases htl : greedyRec body tail b m (i+1) p' c' with
        | fail => exact ht _ _ hi
        | _ => have := ih (i+1) p' c' hi'; rw [htl] at this; exact this
    · exact ht _ _ hi
end loops

/-- All items of the stack are tame. -/
def tameSt (ids : List Nat) (names : List (List Nat)) (lb : Bool) : Stack → Bool
  | [] => true
  | .re r :: t => r.tame ids names lb && tameSt ids names lb t
  | .numMark id :: t => !lb && ids.contains id && tameSt ids names lb t
  | .startMark :: t | .endMark :: t | .endCycle :: t => !lb && tameSt ids names lb t
  | _ :: t => tameSt ids names lb t

theorem tameSt_items (ids : List Nat) (names : List (List Nat)) (lb : Bool) (m : List Re) (t : Stack) :
    tameSt ids names lb (items m t) = (tameAll ids names lb m && tameSt ids names lb t) := by
  induction m with
  | nil => simp [items, tameAll]
  | cons r m ih => simp only [items, List.map_cons, List.cons_append, tameSt, tameAll] at *; rw [ih, Bool.and_assoc]

/-- Every greedy repetition of the stack can be analysed. -/
def scannableSt : Stack → Bool
  | [] => true
  | .re r :: t => r.scannable (scansSt t) && scannableSt t
  | _ :: t => scannableSt t

theorem scannableSt_items (m : List Re) (t : Stack) :
    scannableSt (items m t) = (scannableAll (scansSt t) m && scannableSt t) := by
  induction m with
  | nil => simp [items, scannableAll]
  | cons r m ih =>
    have h1 := scansSt_items m t
    simp only [items, List.map_cons, List.cons_append, scannableSt, scannableAll] at *
    rw [ih, h1, Bool.and_assoc]

theorem startCapture_some {ids : List Nat} {c : Caps} (hc : groupIds c.groups = ids) {id p : Nat} (h : id ∈ ids) :
    ∃ c', c.startCapture id p = some c' ∧ shape c'.groups = shape c.groups := by
  unfold Caps.startCapture
  split
  · exact ⟨_, rfl, rfl⟩
  · rw [if_pos ((hasId_iff _ _).2 (by rw [hc]; exact h))]
    exact ⟨_, rfl, shape_modifyId _ _ _⟩

theorem endCapture_some {ids : List Nat} {c : Caps} (hc : groupIds c.groups = ids) {id p : Nat} (h : id ∈ ids) :
    ∃ c', c.endCapture id p = some c' ∧ shape c'.groups = shape c.groups := by
  unfold Caps.endCapture
  split
  · exact ⟨_, rfl, rfl⟩
  · rw [if_pos ((hasId_iff _ _).2 (by rw [hc]; exact h))]
    exact ⟨_, rfl, shape_modifyId _ _ _⟩

theorem groupNames_shape (gs : List Group) : groupNames gs = (shape gs).filterMap (·.2) := by
  simp [groupNames, shape, List.filterMap_map, Function.comp_def]

theorem selectName_some {gs : List Group} {n : List Nat} (h : n ∈ groupNames gs) : ∃ sl, selectName n gs = some sl := by
  induction gs with
  | nil => simp [groupNames] at h
  | cons g gs ih =>
    unfold selectName
    split
    · exact ⟨_, rfl⟩
    · rename_i hg
      apply ih
      simp only [groupNames, List.mem_filterMap, List.mem_cons] at h ⊢
      obtain ⟨x, hx | hx, h1⟩ := h
      · subst hx; exact absurd h1 hg
      · exact ⟨x, hx, h1⟩

theorem brefCmp_some {s : List Ch} {cur : Nat} {sl : Slot} : brefCmp s cur (some sl) ≠ none := by
  unfold brefCmp
  dsimp only
  split
  · split <;> simp
  · simp

/-- A tame stack never meets an instantiation that does not compile. -/
theorem eval_fine {C : Cfg} {sh : Shape} : ∀ n s lb cur f c st,
    tameSt (sh.map (·.1)) (sh.filterMap (·.2)) lb st = true → (C.greedyOpt = false ∨ lb = true ∨ scannableSt st = true) → shape c.groups = sh →
    Fine (fun c' => shape c'.groups = sh) (eval C n s lb cur f c st) := by
  intro n
  induction n with
  | zero => intros; exact .timeout
  | succ n ih =>
    intro s lb cur f c st ht hsc hc
    have hids : groupIds c.groups = sh.map (·.1) := by rw [groupIds_shape, hc]
    have hok : ∀ c', shape c'.groups = sh → Fine (fun c' => shape c'.groups = sh) (.ok c') := by
      intro c' h
      refine ⟨by simp, ?_⟩
      intro r hr
      simp only [Out.ok.injEq] at hr
      subst hr; exact h
    rcases st with _ | ⟨i, t⟩
    · exact .fail
    · cases i with
      | accept => cases t with
        | nil => exact hok _ hc
        | cons => exact .fail
      | endAhead => cases t with
        | nil => exact hok _ hc
        | cons => exact .fail
      | endBehind => cases t with
        | nil => exact hok _ hc
        | cons => exact .fail
      | endCycle =>
        cases t with
        | cons => exact .fail
        | nil =>
          simp only [tameSt, Bool.and_eq_true, Bool.not_eq_true'] at ht
          rw [eval_endCycle, ht.1, if_neg (by simp)]
          split
          · exact .fail
          · exact hok _ hc
      | startMark =>
        simp only [tameSt, Bool.and_eq_true, Bool.not_eq_true'] at ht
        rw [eval_startMark, if_neg (by simp [ht.1])]
        exact ih _ _ _ _ _ _ ht.2 hsc hc
      | endMark =>
        simp only [tameSt, Bool.and_eq_true, Bool.not_eq_true'] at ht
        rw [eval_endMark, if_neg (by simp [ht.1])]
        exact ih _ _ _ _ _ _ ht.2 hsc hc
      | numMark id =>
        simp only [tameSt, Bool.and_eq_true, Bool.not_eq_true', List.contains_iff_mem] at ht
        rw [eval_numMark, if_neg (by simp [ht.1.1])]
        obtain ⟨c', h1, h2⟩ := endCapture_some (p := cur) hids ht.1.2
        rw [h1]
        exact ih _ _ _ _ _ _ ht.2 hsc (h2.trans hc)
      | re r =>
        simp only [tameSt, Bool.and_eq_true] at ht
        obtain ⟨hr, ht⟩ := ht
        have hsct : C.greedyOpt = false ∨ lb = true ∨ scannableSt t = true := by
          rcases hsc with h | h | h
          · exact .inl h
          · exact .inr (.inl h)
          · simp only [scannableSt, Bool.and_eq_true] at h; exact .inr (.inr h.2)
        have next : ∀ p f c, shape c.groups = sh → Fine (fun c' => shape c'.groups = sh) (eval C n s lb p f c t) :=
          fun p f c hc => ih _ _ _ _ _ _ ht hsct hc
        have test : r.isTest = true → Fine (fun c' => shape c'.groups = sh) (eval C (n+1) s lb cur f c (.re r :: t)) := by
          intro h
          rw [eval_test (h := h)]
          split
          · exact .ub
          · exact .fail
          · exact next _ _ _ hc
        cases r with
        | cc cl =>
          rw [eval_cc]
          split
          · exact .fail
          · split
            · exact .ub
            · split
              · exact next _ _ _ hc
              · exact .fail
        | any =>
          rw [eval_any]
          split
          · exact .fail
          · split
            · split
              · exact .ub
              · split
                · exact .fail
                · exact next _ _ _ hc
            · exact next _ _ _ hc
        | reject => exact .fail
        | str cs =>
          rw [eval_str]
          split
          · exact .ub
          · exact .fail
          · exact next _ _ _ hc
        | sel l =>
          cases l with
          | nil => exact .fail
          | cons r l =>
            rw [eval_sel_cons]
            simp only [Re.tame, tameAll, Bool.and_eq_true] at hr
            refine .orElse (ih _ _ _ _ _ _ (by simp [tameSt, hr.1, ht]) ?_ hc) (ih _ _ _ _ _ _ (by simp [tameSt, Re.tame, hr.2, ht]) ?_ hc)
            · rcases hsc with h | h | h
              · exact .inl h
              · exact .inr (.inl h)
              · simp only [scannableSt, Re.scannable, scannableEach, Bool.and_eq_true] at h ⊢
                exact .inr (.inr ⟨h.1.1, h.2⟩)
            · rcases hsc with h | h | h
              · exact .inl h
              · exact .inr (.inl h)
              · simp only [scannableSt, Re.scannable, scannableEach, Bool.and_eq_true] at h ⊢
                exact .inr (.inr ⟨h.1.2, h.2⟩)
        | seq m =>
          rcases m with _ | ⟨r, _ | ⟨r', m⟩⟩
          · exact .fail
          · rw [eval_seq_one]
            simp only [Re.tame, tameAll, Bool.and_eq_true] at hr
            refine ih _ _ _ _ _ _ (by simp [tameSt, hr.1, ht]) ?_ hc
            rcases hsc with h | h | h
            · exact .inl h
            · exact .inr (.inl h)
            · exact .inr (.inr (by simpa [scannableSt, Re.scannable, scannableAll, scansAll] using h))
          · rw [eval_seq_cons]
            simp only [Re.tame, tameAll, Bool.and_eq_true] at hr
            refine ih _ _ _ _ _ _ (by simp [tameSt, Re.tame, tameAll, hr.1, hr.2.1, hr.2.2, ht]) ?_ hc
            rcases hsc with h | h | h
            · exact .inl h
            · exact .inr (.inl h)
            · exact .inr (.inr (by simpa [scannableSt, Re.scannable, scannableAll, scansSt, Re.scans, scansAll, and_assoc] using h))
        | empty => rw [eval_empty]; exact next _ _ _ hc
        | rep k a b m =>
          simp only [Re.tame, Bool.and_eq_true, Bool.not_eq_true'] at hr
          obtain ⟨rfl, hr⟩ := hr
          have hm : C.greedyOpt = false ∨ false = true ∨ scannableSt (items m [.endCycle]) = true := by
            rcases hsc with h | h | h
            · exact .inl h
            · exact .inr (.inl h)
            · simp only [scannableSt, Re.scannable, Bool.and_eq_true] at h
              refine .inr (.inr ?_)
              rw [scannableSt_items]
              simpa [scansSt, scannableSt] using h.1.2
          have hs : StepFine (fun _ c => shape c.groups = sh) (fun p c' => eval C n s false p f.notEmpty c' (items m [.endCycle])) := by
            intro p c1 hc1
            have := ih s false p f.notEmpty c1 (items m [.endCycle]) (by rw [tameSt_items, hr]; rfl) hm hc1
            simp only [step]
            cases ho : eval C n s false p f.notEmpty c1 (items m [.endCycle]) with
            | ok c2 =>
              dsimp only
              have h1 := this.2 c2 ho
              cases he : c2.whole.e with
              | none => simp
              | some e =>
                refine ⟨by simp, ?_⟩
                intro p' c' hq
                simp only [Loop.go.injEq] at hq
                rw [← hq.2]; exact h1
            | ill => exact absurd ho this.1
            | _ => simp
          have hpo : ∀ {k'}, k' = n → Fine (fun c' => shape c'.groups = sh)
              (match possLoop (fun p c' => eval C n s false p f.notEmpty c' (items m [.endCycle])) a b k' 0 cur c with
                | .stop o => o
                | .go p c' => eval C n s false p (f.consumed (decide (cur ≠ p))) c' t) := by
            intro k' _
            have h1 := possLoop_fine hs (a := a) (b := b) k' 0 cur c hc
            cases hq : possLoop (fun p c' => eval C n s false p f.notEmpty c' (items m [.endCycle])) a b k' 0 cur c with
            | stop o =>
              rw [hq] at h1
              refine fine_stop (by simpa using h1.1) ?_
              rintro r hr
              dsimp only at hr
              subst hr
              exact absurd rfl (possLoop_stop_P (Q := fun _ => False) hq r)
            | go p c' => exact next _ _ _ (h1.2 _ _ hq)
          cases k with
          | greedy =>
            simp only [eval_greedy, greedyRecRef_eq, ite_self]
            split
            · exact .fail
            · simp only [Bool.false_eq_true, if_false]
              split
              · rename_i hlc
                exfalso
                split at hlc
                · rename_i hg
                  rcases hsc with h | h | h
                  · rw [hg] at h; simp at h
                  · simp at h
                  · simp only [scannableSt, Re.scannable, Bool.and_eq_true] at h
                    have h1 := h.1.1
                    simp at h1
                    exact loopCollides_some h1.1 h1.2 hlc
                · simp at hlc
              · refine ih _ _ _ _ _ _ (by simp [tameSt, Re.tame, hr, ht]) ?_ hc
                rcases hsc with h | h | h
                · exact .inl h
                · exact .inr (.inl h)
                · simp only [scannableSt, Re.scannable, Bool.and_eq_true] at h ⊢
                  exact .inr (.inr ⟨⟨rfl, h.1.2⟩, h.2⟩)
              · have h1 := mandLoop_fine hs a cur c hc
                split
                · rename_i o hq
                  rw [hq] at h1
                  exact fine_stop (by simpa using h1.1) (fun r hr => absurd rfl (mandLoop_stop_P (Q := fun _ => False) _ (hr ▸ hq) r))
                · rename_i p c' hq
                  exact greedyRec_fine hs (fun p c hc => next _ _ _ hc) _ _ _ _ (h1.2 _ _ hq)
          | lazy =>
            simp only [eval_lazy]
            split
            · exact .fail
            · simp only [Bool.false_eq_true, if_false]
              have h1 := mandLoop_fine hs a cur c hc
              split
              · rename_i o hq
                rw [hq] at h1
                exact fine_stop (by simpa using h1.1) (fun r hr => absurd rfl (mandLoop_stop_P (Q := fun _ => False) _ (hr ▸ hq) r))
              · rename_i p c' hq
                exact .orElse (next _ _ _ (h1.2 _ _ hq)) (lazyLoop_fine hs (fun p c hc => next _ _ _ hc) _ _ _ _ (h1.2 _ _ hq))
          | poss =>
            simp only [eval_poss]
            split
            · exact .fail
            · simp only [Bool.false_eq_true, if_false]
              exact hpo rfl
        | cap id nm m =>
          simp only [Re.tame, Bool.and_eq_true, Bool.not_eq_true', List.contains_iff_mem] at hr
          obtain ⟨⟨rfl, hid⟩, hr⟩ := hr
          rw [eval_cap, if_neg (by simp)]
          obtain ⟨c', h1, h2⟩ := startCapture_some (p := cur) hids hid
          rw [h1]
          refine ih _ _ _ _ _ _ ?_ ?_ (h2.trans hc)
          · simp only [tameSt, Re.tame, hr, ht, Bool.not_false, Bool.true_and, Bool.and_true, List.contains_iff_mem]; exact hid
          · rcases hsc with h | h | h
            · exact .inl h
            · exact .inr (.inl h)
            · exact .inr (.inr (by simpa [scannableSt, Re.scannable, scansSt] using h))
        | bref id =>
          simp only [Re.tame, Bool.and_eq_true, Bool.not_eq_true', List.contains_iff_mem] at hr
          obtain ⟨rfl, hid⟩ := hr
          rw [eval_bref, if_neg (by simp)]
          have : ∃ sl, c.get id = some sl := by
            unfold Caps.get
            split
            · exact ⟨_, rfl⟩
            · rw [← Option.isSome_iff_exists, selectId_isSome, hasId_iff, hids]; exact hid
          obtain ⟨sl, hsl⟩ := this
          rw [hsl]
          cases hb : brefCmp s cur (some sl) with
          | none => exact absurd hb brefCmp_some
          | some x =>
            obtain ⟨x, y⟩ := x
            cases x with
            | ub => exact .ub
            | no => exact .fail
            | yes p => exact next _ _ _ hc
        | brefName nm =>
          simp only [Re.tame, Bool.and_eq_true, Bool.not_eq_true', List.contains_iff_mem] at hr
          obtain ⟨rfl, hid⟩ := hr
          rw [eval_brefName, if_neg (by simp)]
          have : ∃ sl, c.getName nm = some sl := by
            apply selectName_some
            rw [groupNames_shape, hc]; exact hid
          obtain ⟨sl, hsl⟩ := this
          rw [hsl]
          cases hb : brefCmp s cur (some sl) with
          | none => exact absurd hb brefCmp_some
          | some x =>
            obtain ⟨x, y⟩ := x
            cases x with
            | ub => exact .ub
            | no => exact .fail
            | yes p => exact next _ _ _ hc
        | ahead pos m =>
          have h1 := ih s lb cur f c [.re (.seq m), .endAhead] (by simpa [tameSt, Re.tame] using hr) (by
            rcases hsc with h | h | h
            · exact .inl h
            · exact .inr (.inl h)
            · simp only [scannableSt, Re.scannable, Bool.and_eq_true] at h
              exact .inr (.inr (by simp [scannableSt, Re.scannable, scansSt, h.1]))) hc
          rw [eval_ahead]
          cases ho : eval C n s lb cur f c [.re (.seq m), .endAhead] with
          | ok c' =>
            dsimp only
            split
            · exact next _ _ _ (h1.2 c' ho)
            · exact .fail
          | fail =>
            dsimp only
            split
            · exact .fail
            · exact next _ _ _ hc
          | timeout => exact .timeout
          | ub => exact .ub
          | ill => exact absurd ho h1.1
        | behind pos m =>
          have h1 := ih s.reverse true (s.length - cur) f c [.re (.seq m), .endBehind] (by simpa [tameSt, Re.tame] using hr)
            (.inr (.inl rfl)) hc
          rw [eval_behind]
          cases ho : eval C n s.reverse true (s.length - cur) f c [.re (.seq m), .endBehind] with
          | ok c' =>
            dsimp only
            split
            · exact next _ _ _ (h1.2 c' ho)
            · exact .fail
          | fail =>
            dsimp only
            split
            · exact .fail
            · exact next _ _ _ hc
          | timeout => exact .timeout
          | ub => exact .ub
          | ill => exact absurd ho h1.1
        | atomic m =>
          rw [eval_atomic]
          refine ih _ _ _ _ _ _ (by simpa [tameSt, Re.tame, ht] using hr) ?_ hc
          rcases hsc with h | h | h
          · exact .inl h
          · exact .inr (.inl h)
          · exact .inr (.inr (by simpa [scannableSt, Re.scannable] using h))
        | mode md => rw [eval_mode]; exact next _ _ _ hc
        | boundary cl => exact test rfl
        | notBoundary cl => exact test rfl
        | sBegin => exact test rfl
        | sEnd => exact test rfl
        | sEndLine => exact test rfl
        | lBegin => exact test rfl
        | lEnd => exact test rfl

end Ctre
