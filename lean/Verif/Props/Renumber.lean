import Verif.Props.Either
import Verif.Lemmas.Prefix

/-
C57: the operator `>>` on patterns with groups.
-/
namespace Ctre

/-- Both calls end in the same way; if they return, with the same stretch. -/
def Exec.SameStretch : Exec → Exec → Prop
  | .done c, .done c' => c.whole = c'.whole
  | .timeout, .timeout => True
  | .ub, .ub => True
  | .ill, .ill => True
  | _, _ => False

/-- Both attempts end in the same way; if they succeed, with the same stretch. -/
def Out.SameStretch : Out → Out → Prop
  | .ok c, .ok c' => c.whole = c'.whole
  | .fail, .fail => True
  | .timeout, .timeout => True
  | .ub, .ub => True
  | .ill, .ill => True
  | _, _ => False

theorem hasId_of_mem {i : Nat} : ∀ {gs : List Group}, i ∈ groupIds gs → hasId i gs = true
  | g :: gs, h => by
    simp only [groupIds, List.map_cons, List.mem_cons] at h
    simp only [hasId, Bool.or_eq_true, beq_iff_eq]
    rcases h with h | h
    · exact .inl h.symm
    · exact .inr (hasId_of_mem h)

theorem Out.SameW.stretch {I I' : List Nat} {o o' x : Out} (h : o.SameW I x) (h' : o'.SameW I' x) : o.SameStretch o' := by
  cases o <;> cases x <;> first | exact h.elim | skip
  all_goals cases o' <;> first | exact h'.elim | skip
  all_goals first | exact trivial | exact (SameWhole.whole h).trans (SameWhole.whole h').symm

section
variable {C : Cfg} {s : List Ch} {f : Flags} {r r' : Re}

/-- The run of the pattern in which all groups have the number 1. -/
theorem run_bare (hr : r.byNumber = true) (hf : r.refers = false) {t : Stack} (ht : stackPlain (groupIds r.captures) t = true) (n p : Nat) :
    (eval C n s false p f (initCaps r) (.startMark :: .re r :: t)).SameW (groupIds r.captures)
      (eval C n s false p f { groups := [{ id := 1 }] } (.startMark :: .re r.bare :: bareStack t)) := by
  simp only [Re.byNumber, Bool.and_eq_true, Bool.not_eq_true'] at hr
  refine eval_bare C n s false p f (.startMark :: .re r :: t) ⟨rfl, ?_, fun i hi => hasId_of_mem hi, rfl⟩ ?_
  · intro h
    rw [List.contains_iff_mem.2 h] at hr
    exact absurd hr.2 (by simp)
  · simp only [stackPlain, List.all_cons, Item.plainIn, plainIn_of hr.1 hf, Bool.true_and]
    exact ht

theorem attempts_same (h : r.SameButNumbers r') (hr : r.byNumber = true) (hr' : r'.byNumber = true) {t : Stack}
    (ht : ∀ I, stackPlain I t = true) (n p : Nat) :
    (eval C n s false p f (initCaps r) (.startMark :: .re r :: t)).SameStretch
      (eval C n s false p f (initCaps r') (.startMark :: .re r' :: t)) := by
  have h1 := run_bare (C := C) (s := s) (f := f) hr h.2.1 (ht _) n p
  have h2 := run_bare (C := C) (s := s) (f := f) hr' h.2.2 (ht _) n p
  rw [← h.1] at h2
  exact h1.stretch h2

theorem toExec_same {o o' : Out} (h : o.SameStretch o') : (o.toExec r).SameStretch (o'.toExec r') := by
  cases o <;> cases o' <;> first | exact h.elim | exact h | rfl

/-- C57: the numbers of groups do not matter for what `match` finds, if there are no back references. -/
theorem C57_numbers_match (h : r.SameButNumbers r') (hr : r.byNumber = true) (hr' : r'.byNumber = true) (n p : Nat) :
    (matchAt C n s f r p).SameStretch (matchAt C n s f r' p) :=
  toExec_same (attempts_same h hr hr' (t := [.re .sEnd, .endMark, .accept]) (fun _ => rfl) n p)

/-- C57: the same for `starts_with`. -/
theorem C57_numbers_starts_with (h : r.SameButNumbers r') (hr : r.byNumber = true) (hr' : r'.byNumber = true) (n p : Nat) :
    (startsWithAt C n s f r p).SameStretch (startsWithAt C n s f r' p) :=
  toExec_same (attempts_same h hr hr' (t := [.endMark, .accept]) (fun _ => rfl) n p)

mutual
theorem anchorRe_bare (f : Flags) : ∀ (k : Bool) (r : Re), anchorRe f k r.bare = anchorRe f k r
  | _, .sBegin | _, .lBegin | _, .boundary _ | _, .cc _ | _, .any | _, .str _ | _, .empty | _, .bref _ | _, .brefName _ | _, .notBoundary _
  | _, .sEnd | _, .sEndLine | _, .lEnd | _, .mode _ | _, .reject _ | _, .ahead _ _ | _, .behind _ _ | _, .atomic _ => rfl
  | k, .sel l => anchorSel_bare f k l
  | k, .seq l => anchorSeq_bare f k l
  | k, .rep kd a b l => by simp only [Re.bare, anchorRe, anchorSeq_bare f k l]
  | k, .cap _ none l => anchorSeq_bare f k l
  | k, .cap _ (some _) l => rfl

theorem anchorSeq_bare (f : Flags) : ∀ (k : Bool) (l : List Re), anchorSeq f k (bareAll l) = anchorSeq f k l
  | _, [] => rfl
  | k, r :: l => by simp only [bareAll, anchorSeq, anchorSeq_bare f k l, anchorRe_bare f _ r]

theorem anchorSel_bare (f : Flags) : ∀ (k : Bool) (l : List Re), anchorSel f k (bareAll l) = anchorSel f k l
  | _, [] => rfl
  | k, r :: l => by simp only [bareAll, anchorSel, anchorSel_bare f k l, anchorRe_bare f _ r]
end

/-- C57: the same for `search`. -/
theorem C57_numbers_search (h : r.SameButNumbers r') (hr : r.byNumber = true) (hr' : r'.byNumber = true) (n p : Nat) :
    (searchAt C n s f r p).SameStretch (searchAt C n s f r' p) := by
  have ha : startsWithAnchor f r = startsWithAnchor f r' := by
    rw [startsWithAnchor, startsWithAnchor, ← anchorRe_bare f false r, ← anchorRe_bare f false r', h.1]
  have hl : ∀ k i, (searchLoop C n s f r k i).SameStretch (searchLoop C n s f r' k i) := by
    intro k
    induction k with
    | zero =>
      intro i
      have := attempts_same (C := C) (s := s) (f := f) h hr hr' (t := [.endMark, .accept]) (fun _ => rfl) n i
      unfold searchLoop attempt
      revert this
      generalize eval C n s false i f (initCaps r) _ = x
      generalize eval C n s false i f (initCaps r') _ = x'
      intro this
      cases x <;> cases x' <;> first | exact this.elim | exact this | rfl
    | succ k ih =>
      intro i
      have := attempts_same (C := C) (s := s) (f := f) h hr hr' (t := [.endMark, .accept]) (fun _ => rfl) n i
      unfold searchLoop attempt
      revert this
      generalize eval C n s false i f (initCaps r) _ = x
      generalize eval C n s false i f (initCaps r') _ = x'
      intro this
      cases x <;> cases x' <;> first | exact this.elim | exact ih (i + 1) | exact this | rfl
  unfold searchAt
  rw [ha]
  exact hl _ _
end

mutual
theorem refers_shift (k : Nat) : ∀ r : Re, (r.shift k).refers = r.refers
  | .sBegin | .lBegin | .boundary _ | .cc _ | .any | .str _ | .empty | .bref _ | .brefName _ | .notBoundary _
  | .sEnd | .sEndLine | .lEnd | .mode _ | .reject _ => rfl
  | .ahead _ l | .behind _ l | .atomic l | .sel l | .seq l | .rep _ _ _ l | .cap _ _ l => by
    simp only [Re.shift, Re.refers, refersAny_shift k l]

theorem refersAny_shift (k : Nat) : ∀ l : List Re, refersAny (shiftAll k l) = refersAny l
  | [] => rfl
  | r :: l => by simp only [shiftAll, refersAny, refers_shift k r, refersAny_shift k l]
end

theorem sameButNumbers_then {a b : Re} (ha : a.refers = false) (hb : b.refers = false) (k : Nat) :
    (andThen a b).SameButNumbers (andThen a (b.shift k)) :=
  ⟨by simp only [andThen, Re.bare, bareAll, bare_shift], by simp [andThen, Re.refers, refersAny, ha, hb],
    by simp [andThen, Re.refers, refersAny, ha, hb, refers_shift]⟩

mutual
theorem regular_refers : ∀ {r : Re}, r.regular = true → r.refers = false
  | .cc _, _ | .any, _ | .str _, _ | .empty, _ | .reject _, _ => rfl
  | .sel l, h => by simp only [Re.regular, Bool.and_eq_true] at h; simpa [Re.refers] using regularList_refers h.2
  | .seq l, h | .rep _ _ _ l, h | .cap _ _ l, h | .atomic l, h => by
    simp only [Re.regular] at h; simpa [Re.refers] using regularList_refers h
  | .sBegin, h | .lBegin, h | .boundary _, h | .bref _, h | .brefName _, h | .notBoundary _, h | .sEnd, h | .sEndLine, h | .lEnd, h | .mode _, h
  | .ahead _ _, h | .behind _ _, h => by simp [Re.regular] at h

theorem regularList_refers : ∀ {l : List Re}, regularList l = true → refersAny l = false
  | [], _ => rfl
  | r :: l, h => by
    simp only [regularList, Bool.and_eq_true] at h
    simp only [refersAny, regular_refers h.1, regularList_refers h.2, Bool.or_self]
end

mutual
theorem regular_shift (k : Nat) : ∀ r : Re, (r.shift k).regular = r.regular
  | .sBegin | .lBegin | .boundary _ | .cc _ | .any | .str _ | .empty | .bref _ | .brefName _ | .notBoundary _
  | .sEnd | .sEndLine | .lEnd | .mode _ | .reject _ | .ahead _ _ | .behind _ _ => rfl
  | .sel [] => rfl
  | .sel (r :: l) => by
    have := regularList_shift k (r :: l)
    simp only [shiftAll] at this
    simp only [Re.shift, Re.regular, shiftAll, this]; rfl
  | .atomic l | .seq l | .rep _ _ _ l | .cap _ _ l => by simp only [Re.shift, Re.regular, regularList_shift k l]

theorem regularList_shift (k : Nat) : ∀ l : List Re, regularList (shiftAll k l) = regularList l
  | [] => rfl
  | r :: l => by simp only [shiftAll, regularList, regular_shift k r, regularList_shift k l]
end

mutual
theorem lang_shift (U : Uni) (ml ci : Bool) (k : Nat) : ∀ r : Re, (r.shift k).lang U ml ci = r.lang U ml ci
  | .sBegin | .lBegin | .boundary _ | .cc _ | .any | .str _ | .empty | .bref _ | .brefName _ | .notBoundary _
  | .sEnd | .sEndLine | .lEnd | .mode _ | .reject _ | .ahead _ _ | .behind _ _ => rfl
  | .sel l => by simp only [Re.shift, Re.lang, langSum_shift U ml ci k l]
  | .atomic l | .seq l | .cap _ _ l => by simp only [Re.shift, Re.lang, langProd_shift U ml ci k l]
  | .rep _ _ _ l => by simp only [Re.shift, Re.lang, langProd_shift U ml ci k l]; rfl

theorem langProd_shift (U : Uni) (ml ci : Bool) (k : Nat) : ∀ l : List Re, langProd U ml ci (shiftAll k l) = langProd U ml ci l
  | [] => rfl
  | r :: l => by simp only [shiftAll, langProd, lang_shift U ml ci k r, langProd_shift U ml ci k l]

theorem langSum_shift (U : Uni) (ml ci : Bool) (k : Nat) : ∀ l : List Re, langSum U ml ci (shiftAll k l) = langSum U ml ci l
  | [] => rfl
  | r :: l => by simp only [shiftAll, langSum, lang_shift U ml ci k r, langSum_shift U ml ci k l]
end

/-- C57 with groups: `match` of `a >> b` succeeds exactly on the subjects that are a subject on which `match` of `a` succeeds followed by
one on which `match` of `b` succeeds. The number `k` tells the groups apart. -/
theorem C57_then_groups {C : Cfg} {f : Flags} {a b : Re} (k : Nat) (hr : (andThen a (b.shift k)).WellNumbered)
    (hra : a.WellNumbered) (hrb : b.WellNumbered) (hga : a.regular = true) (hgb : b.regular = true)
    (hn : (andThen a b).byNumber = true) (hn' : (andThen a (b.shift k)).byNumber = true)
    (hc : Complete C (andThen a (b.shift k))) (hca : Complete C a) (hcb : Complete C b)
    {n : Nat} {s : List Ch} {c : Caps} (h : cMatch C n s f (andThen a b) = .done c)
    (ra : ∀ u, ∃ m x, cMatch C m u f a = .done x) (rb : ∀ u, ∃ m x, cMatch C m u f b = .done x) :
    c.whole.matched = true ↔ ∃ u v, s = u ++ v ∧ (∃ m, (cMatch C m u f a).success = true) ∧ ∃ m, (cMatch C m v f b).success = true := by
  have hg : (andThen a (b.shift k)).regular = true := by simp [andThen, Re.regular, regularList, hga, hgb, regular_shift]
  have same : (cMatch C n s f (andThen a b)).SameStretch (cMatch C n s f (andThen a (b.shift k))) :=
    C57_numbers_match (sameButNumbers_then (regular_refers hga) (regular_refers hgb) k) hn hn' n 0
  rw [h] at same
  cases hd : cMatch C n s f (andThen a (b.shift k)) with
  | done c' =>
    rw [hd] at same
    have same : c.whole = c'.whole := same
    have dec : ∀ (r : Re) (u : List Ch), r.WellNumbered → r.regular = true → Complete C r → (∃ m x, cMatch C m u f r = .done x) →
        ((∃ m, (cMatch C m u f r).success = true) ↔ r.Accepts C f u) := by
      intro r u h1 h2 h3 ⟨m, x, hx⟩
      constructor
      · rintro ⟨k, hk⟩
        cases hd : cMatch C k u f r with
        | done y => rw [hd] at hk; exact (C58_match h1 h2 h3 hd).1 hk
        | _ => rw [hd] at hk; cases hk
      · intro ha
        exact ⟨m, by rw [hx]; exact (C58_match h1 h2 h3 hx).2 ha⟩
    rw [same, C58_match hr hg hc hd]
    have hl : (andThen a (b.shift k)).Accepts C f s ↔ ∃ u v, s = u ++ v ∧ a.Accepts C f u ∧ b.Accepts C f v := by
      simp only [Re.Accepts, andThen, Re.lang, langProd, mul_one, lang_shift]
      rw [Language.mem_mul]
      constructor
      · rintro ⟨u, hu, v, hv, rfl⟩; exact ⟨u, v, rfl, hu, hv⟩
      · rintro ⟨u, v, rfl, hu, hv⟩; exact ⟨u, hu, v, hv, rfl⟩
    rw [hl]
    constructor
    · rintro ⟨u, v, h1, h2, h3⟩
      exact ⟨u, v, h1, (dec a u hra hga hca (ra u)).2 h2, (dec b v hrb hgb hcb (rb v)).2 h3⟩
    · rintro ⟨u, v, h1, h2, h3⟩
      exact ⟨u, v, h1, (dec a u hra hga hca (ra u)).1 h2, (dec b v hrb hgb hcb (rb v)).1 h3⟩
  | _ => rw [hd] at same; exact same.elim

mutual
theorem captures_shift (k : Nat) : ∀ r : Re, groupIds (r.shift k).captures = (groupIds r.captures).map (· + k)
  | .sBegin | .lBegin | .boundary _ | .cc _ | .any | .str _ | .empty | .bref _ | .brefName _ | .notBoundary _
  | .sEnd | .sEndLine | .lEnd | .mode _ | .reject _ | .behind _ _ | .atomic _ => rfl
  | .ahead _ l | .sel l | .seq l | .rep _ _ _ l => by simpa only [Re.shift, Re.captures] using capturesList_shift k l
  | .cap id n l => by
    have := capturesList_shift k l
    simp only [groupIds] at this
    simp only [Re.shift, Re.captures, groupIds, List.map_cons, this]

theorem capturesList_shift (k : Nat) : ∀ l : List Re, groupIds (capturesList (shiftAll k l)) = (groupIds (capturesList l)).map (· + k)
  | [] => rfl
  | r :: l => by
    have h1 := captures_shift k r
    have h2 := capturesList_shift k l
    simp only [groupIds] at h1 h2
    simp only [shiftAll, capturesList, groupIds, List.map_append, h1, h2]
end

/-- What the result `c` of `a >> b` says, compared with the result `d` for which the groups of `b` have numbers of their own, larger by `k`:
a number is the group of `b` with this number, if it captured, and the one of `a` otherwise. -/
structure Overlaid (k : Nat) (a b : Re) (c d : Caps) : Prop where
  whole : c.whole = d.whole
  second : ∀ i ∈ groupIds b.captures, ∃ own, d.get (i + k) = some own ∧ (own.matched = true → c.get i = some own) ∧
    (own.matched = false → (i ∈ groupIds a.captures → c.get i = d.get i) ∧ (i ∉ groupIds a.captures → c.get i = some {}))
  first : ∀ i ∈ groupIds a.captures, i ∉ groupIds b.captures → c.get i = d.get i

section
variable {C : Cfg} {s : List Ch} {f : Flags} {a b : Re} {k : Nat}

theorem byNumber_pos {r : Re} (h : r.byNumber = true) : 0 ∉ groupIds r.captures := by
  simp only [Re.byNumber, Bool.and_eq_true, Bool.not_eq_true'] at h
  intro h0
  rw [List.contains_iff_mem.2 h0] at h
  exact absurd h.2 (by simp)

theorem then_groups (a b : Re) : groupIds (andThen a b).captures = groupIds a.captures ++ groupIds b.captures := by
  simp [andThen, Re.captures, capturesList, groupIds]

theorem then_start (ha : a.byNumber = true) (p : Nat) : SameBoth (groupIds a.captures) (fun i => selectId i (andThen a b).captures)
    (fun i => selectId i (andThen a (b.shift k)).captures) ((initCaps (andThen a b)).setStart p) ((initCaps (andThen a (b.shift k))).setStart p) := by
  have l1 : ∀ i ∈ groupIds a.captures, selectId i (andThen a b).captures = some {} :=
    fun i hi => unset_select (captures_unset _) (by rw [then_groups]; simp [hi])
  have l2 : ∀ i ∈ groupIds a.captures, selectId i (andThen a (b.shift k)).captures = some {} :=
    fun i hi => unset_select (captures_unset _) (by rw [then_groups]; simp [hi])
  exact ⟨⟨rfl, byNumber_pos ha, fun i hi => ⟨_, l1 i hi, l2 i hi⟩, fun _ _ => rfl⟩,
    ⟨rfl, byNumber_pos ha, fun i hi => ⟨_, l2 i hi, l1 i hi⟩, fun _ _ => rfl⟩⟩

/-- What comes after `a`. -/
theorem then_second (hb : b.byNumber = true) (hf : b.refers = false) (hk : ∀ i ∈ groupIds a.captures, i ≤ k) {t : Stack}
    (ht : stackPlain (groupIds b.captures) t = true) (hs : shiftStack k t = t) (hm : openMarks t = []) (n cur : Nat) (f : Flags) {c d : Caps}
    (h : SameBoth (groupIds a.captures) (fun i => selectId i (andThen a b).captures)
      (fun i => selectId i (andThen a (b.shift k)).captures) c d) :
    (eval C n s false cur f c (.re (.seq [b]) :: t)).Rel (Overlaid k a b) (eval C n s false cur f d (.re (.seq [b.shift k]) :: t)) := by
  have pos := byNumber_pos hb
  have pos' := h.1.positive
  simp only [Re.byNumber, Bool.and_eq_true] at hb
  have own : ∀ i ∈ groupIds b.captures, selectId (i + k) d.groups = some {} := by
    intro i hi
    have h0 : i ≠ 0 := fun e => pos (e ▸ hi)
    rw [h.2.others (i + k) fun hA => by have := hk _ hA; omega]
    refine unset_select (captures_unset _) ?_
    rw [then_groups, captures_shift]
    simp [hi]
  have old : ∀ i ∈ groupIds b.captures, i ∉ groupIds a.captures → selectId i c.groups = some {} := by
    intro i hi hA
    rw [h.1.others i hA]
    exact unset_select (captures_unset _) (by rw [then_groups]; simp [hi])
  have m : Merge k (groupIds b.captures) (fun i => (selectId i c.groups).getD {}) (fun i => selectId i c.groups)
      (fun j => selectId j d.groups) (openMarks (.re (.seq [b]) :: t) ++ []) c d := by
    refine ⟨h.1.whole, pos, fun i hi => ?_, fun _ _ => rfl, fun _ _ => rfl⟩
    have ex : ∃ sl, selectId i c.groups = some sl := by
      by_cases hA : i ∈ groupIds a.captures
      · obtain ⟨sl, h1, _⟩ := h.1.slots i hA
        exact ⟨sl, h1⟩
      · exact ⟨_, old i hi hA⟩
    obtain ⟨sl, hsl⟩ := ex
    refine ⟨sl, {}, hsl, own i hi, .inl ⟨rfl, by rw [hsl]; rfl, ?_⟩⟩
    simp [openMarks, hm]
  have pl : stackPlain (groupIds b.captures) (.re (.seq [b]) :: t) = true := by
    simp only [stackPlain, List.all_cons, Item.plainIn, Re.plainIn, plainInAll, plainIn_of hb.1 hf, Bool.true_and]
    exact ht
  have := eval_merge C n s false cur f (.re (.seq [b]) :: t) [] m pl
  rw [shift_cons, hs] at this
  simp only [Item.shift, Re.shift, shiftAll] at this
  revert this
  generalize eval C n s false cur f c _ = x
  generalize eval C n s false cur f d _ = x'
  intro this
  cases x <;> cases x' <;> first | exact this.elim | exact trivial | skip
  rename_i c2 d2
  have this : Merge _ _ _ _ _ _ c2 d2 := this
  have keep : ∀ i ∈ groupIds a.captures, selectId i d2.groups = selectId i c.groups := by
    intro i hi
    rw [this.others' i fun j hj e => by
      have h0 : j ≠ 0 := fun e => pos (e ▸ hj)
      have := hk i hi
      omega]
    obtain ⟨sl, h1, h2⟩ := h.1.slots i hi
    rw [h1, h2]
  refine ⟨this.whole, fun i hi => ?_, fun i hi hB => ?_⟩
  · have h0 : i ≠ 0 := fun e => pos (e ▸ hi)
    obtain ⟨sl, o, g1, g2, g3⟩ := this.slots i hi
    refine ⟨o, by rw [Caps.get, if_neg (by omega), g2], fun hmt => ?_, fun hmt => ⟨fun hA => ?_, fun hA => ?_⟩⟩
    all_goals rw [Caps.get, if_neg h0, g1]
    · rcases g3 with ⟨e, _⟩ | ⟨_, g⟩
      · rw [e] at hmt; cases hmt
      · rw [(g (by simp)).1]
    · rcases g3 with ⟨_, e, _⟩ | ⟨_, g⟩
      · rw [Caps.get, if_neg h0, keep i hA, e]
        obtain ⟨sl', h1, _⟩ := h.1.slots i hA
        simp only [h1, Option.getD_some]
      · rw [(g (by simp)).2] at hmt; cases hmt
    · rcases g3 with ⟨_, e, _⟩ | ⟨_, g⟩
      · rw [e, old i hi hA]; rfl
      · rw [(g (by simp)).2] at hmt; cases hmt
  · have h0 : i ≠ 0 := fun e => pos' (e ▸ hi)
    rw [Caps.get, Caps.get, if_neg h0, if_neg h0, this.others i hB, keep i hi]

theorem then_attempts (ha : a.byNumber = true) (hb : b.byNumber = true) (hf : b.refers = false) (hk : ∀ i ∈ groupIds a.captures, i ≤ k)
    {t : Stack} (ht : ∀ I, stackPlain I t = true) (hs : shiftStack k t = t) (hm : openMarks t = []) (n p : Nat) :
    (eval C n s false p f (initCaps (andThen a b)) (.startMark :: .re (andThen a b) :: t)).Rel (Overlaid k a b)
      (eval C n s false p f (initCaps (andThen a (b.shift k))) (.startMark :: .re (andThen a (b.shift k)) :: t)) := by
  rcases n with _ | n
  · exact trivial
  rcases n with _ | n
  · exact trivial
  simp only [eval_startMark, andThen, eval_seq_cons, Bool.false_eq_true, if_false]
  have hn := ha
  simp only [Re.byNumber, Bool.and_eq_true] at hn
  refine eval_prefix C (tB := .re (.seq [b]) :: t) (tB' := .re (.seq [b.shift k]) :: t) s false ?_
    (fun n cur f c c' h => then_second hb hf hk (ht _) hs hm n cur f h) n p f [.re a] (then_start ha p) ?_
  · simp only [bare_cons, Item.bare, Re.bare, bareAll, bare_shift]
  · simp only [stackInner, List.all_cons, Item.inner, hn.1, List.all_nil, Bool.and_self]

/-- Both calls end in the same way; if they return, the results are related. -/
def Exec.Rel (R : Caps → Caps → Prop) : Exec → Exec → Prop
  | .done c, .done c' => R c c'
  | .timeout, .timeout => True
  | .ub, .ub => True
  | .ill, .ill => True
  | _, _ => False

theorem overlaid_fresh (ha : a.byNumber = true) (hb : b.byNumber = true) {w : Slot} :
    Overlaid k a b { whole := w, groups := (andThen a b).captures } { whole := w, groups := (andThen a (b.shift k)).captures } := by
  have l1 : ∀ i ∈ groupIds a.captures ++ groupIds b.captures, selectId i (andThen a b).captures = some {} :=
    fun i hi => unset_select (captures_unset _) (by rw [then_groups]; exact hi)
  have l2 : ∀ i ∈ groupIds a.captures ++ (groupIds b.captures).map (· + k), selectId i (andThen a (b.shift k)).captures = some {} :=
    fun i hi => unset_select (captures_unset _) (by rw [then_groups, captures_shift]; exact hi)
  have pa := byNumber_pos ha
  have pb := byNumber_pos hb
  refine ⟨rfl, fun i hi => ⟨{}, ?_, fun h => (by cases h), fun _ => ⟨fun hA => ?_, fun hA => ?_⟩⟩, fun i hi hB => ?_⟩
  · have h0 : i ≠ 0 := fun e => pb (e ▸ hi)
    rw [Caps.get, if_neg (by omega)]; exact l2 _ (by simp [hi])
  · have h0 : i ≠ 0 := fun e => pb (e ▸ hi)
    rw [Caps.get, Caps.get, if_neg h0, if_neg h0]
    exact (l1 i (by simp [hi])).trans (l2 i (by simp [hA])).symm
  · have h0 : i ≠ 0 := fun e => pb (e ▸ hi)
    rw [Caps.get, if_neg h0]; exact l1 i (by simp [hi])
  · have h0 : i ≠ 0 := fun e => pa (e ▸ hi)
    rw [Caps.get, Caps.get, if_neg h0, if_neg h0]
    exact (l1 i (by simp [hi])).trans (l2 i (by simp [hi])).symm

theorem overlaid_exec (ha : a.byNumber = true) (hb : b.byNumber = true) {o o' : Out} (h : o.Rel (Overlaid k a b) o') :
    (o.toExec (andThen a b)).Rel (Overlaid k a b) (o'.toExec (andThen a (b.shift k))) := by
  cases o <;> cases o' <;> first | exact h.elim | exact h | skip
  exact overlaid_fresh ha hb

/-- C57: what `match` of `a >> b` reports if both have groups and `b` has no back references: the match that is found if the groups of `b`
have numbers of their own, and as group `i` the one of `b`, if it captured, otherwise the one of `a`. -/
theorem C57_then_reports_match (ha : a.byNumber = true) (hb : b.byNumber = true) (hf : b.refers = false)
    (hk : ∀ i ∈ groupIds a.captures, i ≤ k) (n p : Nat) :
    (matchAt C n s f (andThen a b) p).Rel (Overlaid k a b) (matchAt C n s f (andThen a (b.shift k)) p) :=
  overlaid_exec ha hb (then_attempts ha hb hf hk (t := [.re .sEnd, .endMark, .accept]) (fun _ => rfl) rfl rfl n p)

/-- C57: the same for `starts_with`. -/
theorem C57_then_reports_starts_with (ha : a.byNumber = true) (hb : b.byNumber = true) (hf : b.refers = false)
    (hk : ∀ i ∈ groupIds a.captures, i ≤ k) (n p : Nat) :
    (startsWithAt C n s f (andThen a b) p).Rel (Overlaid k a b) (startsWithAt C n s f (andThen a (b.shift k)) p) :=
  overlaid_exec ha hb (then_attempts ha hb hf hk (t := [.endMark, .accept]) (fun _ => rfl) rfl rfl n p)

/-- C57: the same for `search`. -/
theorem C57_then_reports_search (ha : a.byNumber = true) (hb : b.byNumber = true) (hf : b.refers = false)
    (hk : ∀ i ∈ groupIds a.captures, i ≤ k) (n p : Nat) :
    (searchAt C n s f (andThen a b) p).Rel (Overlaid k a b) (searchAt C n s f (andThen a (b.shift k)) p) := by
  have hbare : (andThen a b).bare = (andThen a (b.shift k)).bare := by simp only [andThen, Re.bare, bareAll, bare_shift]
  have hanch : startsWithAnchor f (andThen a b) = startsWithAnchor f (andThen a (b.shift k)) := by
    rw [startsWithAnchor, startsWithAnchor, ← anchorRe_bare f false (andThen a b), ← anchorRe_bare f false (andThen a (b.shift k)), hbare]
  have hl : ∀ j i, (searchLoop C n s f (andThen a b) j i).Rel (Overlaid k a b) (searchLoop C n s f (andThen a (b.shift k)) j i) := by
    intro j
    induction j with
    | zero =>
      intro i
      have := then_attempts (C := C) (s := s) (f := f) ha hb hf hk (t := [.endMark, .accept]) (fun _ => rfl) rfl rfl n i
      unfold searchLoop attempt
      revert this
      generalize eval C n s false i f (initCaps (andThen a b)) _ = x
      generalize eval C n s false i f (initCaps (andThen a (b.shift k))) _ = x'
      intro this
      cases x <;> cases x' <;> first | exact this.elim | exact this | skip
      exact overlaid_fresh ha hb
    | succ j ih =>
      intro i
      have := then_attempts (C := C) (s := s) (f := f) ha hb hf hk (t := [.endMark, .accept]) (fun _ => rfl) rfl rfl n i
      unfold searchLoop attempt
      revert this
      generalize eval C n s false i f (initCaps (andThen a b)) _ = x
      generalize eval C n s false i f (initCaps (andThen a (b.shift k))) _ = x'
      intro this
      cases x <;> cases x' <;> first | exact this.elim | exact ih (i + 1) | exact this | skip
  unfold searchAt
  rw [hanch]
  exact hl _ _
end

/-! ### Cases -/

/-- `(a)b*` and `(a|c)+`. -/
def sampleThenA : Re := .seq [.cap 1 none [.cc (.chr 97)], .rep .greedy 0 0 [.cc (.chr 98)]]
def sampleThenB : Re := .rep .greedy 1 0 [.cap 1 none [.sel [.cc (.chr 97), .cc (.chr 99)]]]

example : Parse.build {} [40, 97, 41, 98, 42] = .pattern sampleThenA ∧ Parse.build {} [40, 97, 124, 99, 41, 43] = .pattern sampleThenB :=
  ⟨rfl, rfl⟩
example : sampleThenA.regular = true ∧ sampleThenB.regular = true ∧ (andThen sampleThenA sampleThenB).byNumber = true ∧
    (andThen sampleThenA (sampleThenB.shift 1)).byNumber = true := by decide
example : (andThen sampleThenA (sampleThenB.shift 1)).WellNumbered ∧ sampleThenA.WellNumbered ∧ sampleThenB.WellNumbered :=
  ⟨⟨by decide, by decide, by decide⟩, ⟨by decide, by decide, by decide⟩, ⟨by decide, by decide, by decide⟩⟩
example : Complete { greedyOpt := false } (andThen sampleThenA (sampleThenB.shift 1)) := C02_fragment rfl (by decide) (by decide)
example : sampleThenA.byNumber = true ∧ sampleThenB.byNumber = true ∧ sampleThenB.refers = false ∧
    ∀ i ∈ groupIds sampleThenA.captures, i ≤ 1 := by decide
example : ¬ (andThen sampleThenA sampleThenB).WellNumbered := fun h => absurd h.distinct (by decide)
example : (cMatch {} 60 [97, 98, 97, 99] {} (andThen sampleThenA sampleThenB)).success = true := by decide +kernel
-- group 1 is the second one, "c"
example : cMatch {} 60 [97, 98, 97, 99] {} (andThen sampleThenA sampleThenB) =
    .done { whole := ⟨some 0, some 4, true⟩, groups := [{ id := 1, slot := ⟨some 3, some 4, true⟩ }, { id := 1 }] } := by decide +kernel
-- `(a)` and `(b)?` on "a": group 1 is the first one
example : cMatch {} 60 [97] {} (andThen (.cap 1 none [.cc (.chr 97)]) (.rep .greedy 0 1 [.cap 1 none [.cc (.chr 98)]])) =
    .done { whole := ⟨some 0, some 1, true⟩, groups := [{ id := 1, slot := ⟨some 0, some 1, true⟩ }, { id := 1 }] } := by decide +kernel

end Ctre
