import Verif.Lemmas.Refine

/-
Invariant of all runs: positions stay inside the subject, captures are ordered, nothing outside the
subject is read.
-/
namespace Ctre

section loops
variable {I : Nat → Caps → Prop} {body tail : Nat → Caps → Out} {Q : Caps → Prop}

/-- Steps keep the invariant and are defined. -/
def StepSafe (I : Nat → Caps → Prop) (body : Nat → Caps → Out) : Prop :=
  ∀ p c, I p c → step body p c ≠ .stop .ub ∧ ∀ p' c', step body p c = .go p' c' → I p' c'

/-- Outcome that is defined and satisfies `Q` if successful. -/
def OutSafe (Q : Caps → Prop) (o : Out) : Prop := o ≠ .ub ∧ ∀ r, o = .ok r → Q r

theorem mandLoop_safe (hs : StepSafe I body) (a : Nat) : ∀ p c, I p c →
    mandLoop body a p c ≠ .stop .ub ∧ ∀ p' c', mandLoop body a p c = .go p' c' → I p' c' := by
  induction a with
  | zero => intro p c hi; simp only [mandLoop]; exact ⟨by simp, by rintro p' c' h; simp only [Loop.go.injEq] at h; rw [← h.1, ← h.2]; exact hi⟩
  | succ a ih =>
    intro p c hi
    unfold mandLoop
    cases hq : step body p c with
    | stop o =>
      refine ⟨?_, by simp⟩
      have := (hs p c hi).1
      rw [hq] at this
      simpa using this
    | go p' c' => exact ih _ _ ((hs p c hi).2 _ _ hq)

theorem possLoop_safe (hs : StepSafe I body) {a b : Nat} (m : Nat) : ∀ i p c, I p c →
    possLoop body a b m i p c ≠ .stop .ub ∧ ∀ p' c', possLoop body a b m i p c = .go p' c' → I p' c' := by
  induction m with
  | zero => intro i p c hi; simp [possLoop]
  | succ m ih =>
    intro i p c hi
    unfold possLoop
    split
    · cases hq : step body p c with
      | stop o =>
        cases o with
        | fail =>
          simp only
          split
          · simp
          · exact ⟨by simp, by rintro p' c' h; simp only [Loop.go.injEq] at h; rw [← h.1, ← h.2]; exact hi⟩
        | ub => exact absurd hq (hs p c hi).1
        | _ => simp
      | go p' c' => exact ih _ _ _ ((hs p c hi).2 _ _ hq)
    · exact ⟨by simp, by rintro p' c' h; simp only [Loop.go.injEq] at h; rw [← h.1, ← h.2]; exact hi⟩

theorem outSafe_stop {o : Out} (h1 : o ≠ .ub) (h2 : ∀ r, o ≠ .ok r) : OutSafe Q o :=
  ⟨h1, fun r h => absurd h (h2 r)⟩

theorem lazyLoop_safe (hs : StepSafe I body) (ht : ∀ p c, I p c → OutSafe Q (tail p c)) {b : Nat} (m : Nat) :
    ∀ i p c, I p c → OutSafe Q (lazyLoop body tail b m i p c) := by
  induction m with
  | zero => intro i p c hi; exact outSafe_stop (by simp [lazyLoop]) (by simp [lazyLoop])
  | succ m ih =>
    intro i p c hi
    unfold lazyLoop
    split
    · cases hq : step body p c with
      | stop o =>
        refine outSafe_stop ?_ ?_
        · rintro rfl; exact (hs p c hi).1 hq
        · rintro r rfl; exact step_ne_ok hq
      | go p' c' =>
        have hi' := (hs p c hi).2 _ _ hq
        simp only
        cases htl : tail p' c' with
        | fail => exact ih _ _ _ hi'
        | _ => have := ht p' c' hi'; rw [htl] at this; exact this
    · exact ht _ _ hi

theorem greedyRec_safe (hs : StepSafe I body) (ht : ∀ p c, I p c → OutSafe Q (tail p c)) {b : Nat} (m : Nat) :
    ∀ i p c, I p c → OutSafe Q (greedyRec body tail b m i p c) := by
  induction m with
  | zero => intro i p c hi; exact outSafe_stop (by simp [greedyRec]) (by simp [greedyRec])
  | succ m ih =>
    intro i p c hi
    unfold greedyRec
    split
    · cases hq : step body p c with
      | stop o =>
        cases o with
        | fail => exact ht _ _ hi
        | ub => exact absurd hq (hs p c hi).1
        | ok r => exact absurd hq step_ne_ok
        | _ => exact outSafe_stop (by simp) (by simp)
      | go p' c' =>
        have hi' := (hs p c hi).2 _ _ hq
        simp only
        cases htl : greedyRec body tail b m (i+1) p' c' with
        | fail => exact ht _ _ hi
        | _ => have := ih (i+1) p' c' hi'; rw [htl] at this; exact this
    · exact ht _ _ hi
end loops

theorem matchString_safe {ci : Bool} {s : List Ch} {cs : List Nat} : ∀ {cur : Nat}, cur ≤ s.length →
    matchString ci s cs cur ≠ .ub := by
  induction cs with
  | nil => intro cur _; simp [matchString]
  | cons c cs ih =>
    intro cur h
    unfold matchString
    split
    · simp
    · rw [List.getElem?_eq_getElem (by omega)]
      simp only
      split
      · exact ih (by omega)
      · simp

theorem matchRangeBack_safe {s : List Ch} (n : Nat) : ∀ {cur rc re : Nat}, cur + n = s.length →
    re ≤ s.length → (rc ≤ re ∨ rc ≤ cur) → matchRangeBack s n cur rc re ≠ .ub := by
  induction n with
  | zero =>
    intro cur rc re h1 h2 h3
    unfold matchRangeBack
    rw [if_pos (by omega)]
    split <;> simp
  | succ n ih =>
    intro cur rc re h1 h2 h3
    unfold matchRangeBack
    split
    · split <;> simp
    · rename_i hne
      rw [List.getElem?_eq_getElem (by omega : cur < s.length),
        List.getElem?_eq_getElem (by omega : rc < s.length)]
      simp only
      split
      · exact ih (by omega) h2 (by omega)
      · simp

theorem brefCmp_safe {s : List Ch} {cur : Nat} {sl : Option Slot} {q : Bool} (hcur : cur ≤ s.length)
    (h : ∀ x, sl = some x → x.matched = true →
      ∃ b e, x.b = some b ∧ x.e = some e ∧ e ≤ s.length ∧ (b ≤ e ∨ b ≤ cur)) :
    brefCmp s cur sl ≠ some (.ub, q) := by
  unfold brefCmp
  split
  · simp
  · rename_i x
    split
    · rename_i hm
      obtain ⟨b, e, h1, h2, h3, h4⟩ := h x rfl hm
      simp only [h1, h2, ne_eq, Option.some.injEq, Prod.mk.injEq, not_and]
      intro hu
      exact absurd hu (matchRangeBack_safe _ (by omega) h3 h4)
    · simp

theorem boundaryAt_safe {U : Uni} {ci : Bool} {s : List Ch} {cur : Nat} {c : CC} (h : cur ≤ s.length) :
    ∃ x y, boundaryAt U ci s cur c = some (x, y) := by
  unfold boundaryAt
  cases cur with
  | zero =>
    by_cases hl : s.length = 0
    · simp [hl]
    · simp [hl, List.getElem?_eq_getElem (by omega : 0 < s.length)]
  | succ p =>
    by_cases hl : s.length = p + 1
    · simp [hl]
    · simp [hl, List.getElem?_eq_getElem (by omega : p < s.length),
        List.getElem?_eq_getElem (by omega : p + 1 < s.length)]

theorem testAt_safe {U : Uni} {s : List Ch} {cur : Nat} {f : Flags} {r : Re} (h : cur ≤ s.length) :
    testAt U s cur f r ≠ .ub := by
  have hget : ∀ i, i < s.length → s[i]? ≠ none := fun i hi => by simp [hi]
  cases r with
  | boundary c =>
    obtain ⟨x, y, hxy⟩ := boundaryAt_safe (U := U) (ci := f.ci) (c := c) h
    simp only [testAt, hxy]; split <;> simp
  | notBoundary c =>
    obtain ⟨x, y, hxy⟩ := boundaryAt_safe (U := U) (ci := f.ci) (c := c) h
    simp only [testAt, hxy]; split <;> simp
  | sBegin => simp only [testAt]; split <;> simp
  | sEnd => simp only [testAt]; split <;> simp
  | sEndLine =>
    simp only [testAt]
    split
    · split
      · simp
      · rw [List.getElem?_eq_getElem (by omega)]; simp only; split <;> simp
    · split <;> simp
  | lEnd =>
    simp only [testAt]
    split
    · split
      · simp
      · rw [List.getElem?_eq_getElem (by omega)]; simp only; split <;> simp
    · split <;> simp
  | lBegin =>
    cases cur with
    | zero => simp [testAt]
    | succ p =>
      simp only [testAt]
      split
      · rw [List.getElem?_eq_getElem (by omega)]; simp only; split <;> simp
      · simp
  | _ => simp [testAt]

mutual
theorem Re.noSelf.noReopen {num : List Nat → Option Nat} : ∀ {r : Re} {O : List Nat}, r.noSelf num O = true →
    r.noReopen O = true
  | .sel l, O, h | .seq l, O, h | .rep _ _ _ l, O, h | .ahead _ l, O, h | .behind _ l, O, h | .atomic l, O, h => by
    simp only [Re.noSelf] at h; simp only [Re.noReopen]; exact noSelfList.noReopen h
  | .cap id _ l, O, h => by
    simp only [Re.noSelf, Bool.and_eq_true] at h; simp only [Re.noReopen, Bool.and_eq_true]
    exact ⟨h.1, noSelfList.noReopen h.2⟩
  | .cc _, _, _ | .any, _, _ | .str _, _, _ | .empty, _, _ | .bref _, _, _
  | .brefName _, _, _ | .boundary _, _, _ | .notBoundary _, _, _ | .sBegin, _, _
  | .sEnd, _, _ | .sEndLine, _, _ | .lBegin, _, _ | .lEnd, _, _ | .mode _, _, _
  | .reject _, _, _ => by simp [Re.noReopen]

theorem noSelfList.noReopen {num : List Nat → Option Nat} : ∀ {l : List Re} {O : List Nat}, noSelfList num O l = true →
    noReopenList O l = true
  | [], _, _ => by simp [noReopenList]
  | r :: l, O, h => by
    simp only [noSelfList, Bool.and_eq_true] at h; simp only [noReopenList, Bool.and_eq_true]
    exact ⟨Re.noSelf.noReopen h.1, noSelfList.noReopen h.2⟩
end

/-- Numbers of the groups that are closed by the stack. -/
def marks : Stack → List Nat
  | [] => []
  | .numMark id :: t => id :: marks t
  | _ :: t => marks t

/-- Every pattern on the stack leaves alone the groups `O` and those that are closed further down. -/
def StkOpen (O : List Nat) : Stack → Prop
  | [] => True
  | .re r :: t => r.noReopen (marks t ++ O) = true ∧ StkOpen O t
  | .numMark id :: t => id ≠ 0 ∧ id ∉ marks t ++ O ∧ StkOpen O t
  | _ :: t => StkOpen O t

theorem marks_items {l : List Re} {t : Stack} : marks (items l t) = marks t := by
  induction l with
  | nil => rfl
  | cons r l ih => exact ih

theorem StkOpen_items {O : List Nat} {l : List Re} {t : Stack} :
    StkOpen O (items l t) ↔ noReopenList (marks t ++ O) l = true ∧ StkOpen O t := by
  induction l with
  | nil => simp [items, noReopenList]
  | cons r l ih =>
    have : items (r :: l) t = .re r :: items l t := rfl
    rw [this]
    simp only [StkOpen, ih, marks_items, noReopenList, Bool.and_eq_true, and_assoc]

/-- The stack of `match`: the end of the subject is tested before the end is recorded. -/
def endsFull : Stack → Prop
  | [] => False
  | [.re .sEnd, .endMark, .accept] => True
  | _ :: t => endsFull t

theorem endsFull_cons {i : Item} {t : Stack} (h : endsFull t) : endsFull (i :: t) := by
  unfold endsFull
  split
  · contradiction
  · trivial
  · rename_i h1; simp only [List.cons.injEq] at h1; rw [← h1.2]; exact h

/-- Both ends known, ordered and inside the subject. -/
def GoodSlot (len : Nat) (o : Option Slot) : Prop :=
  ∃ b e, o = some ⟨some b, some e, true⟩ ∧ b ≤ e ∧ e ≤ len

/-- Condition on the state in which a run starts. -/
structure SafePre (s : List Ch) (lb : Bool) (cur : Nat) (c : Caps) (st : Stack) : Prop where
  curLe : cur ≤ s.length
  nodup : (groupIds c.groups).Nodup
  matched : c.whole.matched = false
  slots : lb = false → ∀ id sl, selectId id c.groups = some sl → sl.matched = true →
    ∃ b e, sl.b = some b ∧ sl.e = some e ∧ e ≤ s.length ∧ (b ≤ e ∨ b ≤ cur)
  marks : lb = false → ∀ id ∈ marks st, ∃ sl b, selectId id c.groups = some sl ∧ sl.b = some b ∧ b ≤ cur

/-- What a successful run leaves behind. -/
structure SafePost (s : List Ch) (O : List Nat) (cur : Nat) (c : Caps) (st : Stack) (c' : Caps) : Prop where
  matched : c'.whole.matched = true
  shape : Ctre.shape c'.groups = Ctre.shape c.groups
  start : .startMark ∉ st → c'.whole.b = c.whole.b
  endPos : endsPos st → ∃ e, c'.whole.e = some e ∧ cur ≤ e ∧ e ≤ s.length
  full : endsFull st → c'.whole.e = some s.length
  slots : ∀ id, selectId id c'.groups = selectId id c.groups ∨ GoodSlot s.length (selectId id c'.groups)
  closed : ∀ id ∈ Ctre.marks st, GoodSlot s.length (selectId id c'.groups)
  frame : ∀ id ∈ O, selectId id c'.groups = selectId id c.groups

def SafeAt (C : Cfg) (n : Nat) : Prop :=
  ∀ s lb cur f c st O, StkOpen O st → SafePre s lb cur c st →
    OutSafe (SafePost s O cur c st) (eval C n s lb cur f c st)

/-- Slots of `c'` relative to `c`: good or unchanged, `O` unchanged. -/
structure Since (len : Nat) (O : List Nat) (c c' : Caps) : Prop where
  b : c'.whole.b = c.whole.b
  shape : Ctre.shape c'.groups = Ctre.shape c.groups
  slots : ∀ id, selectId id c'.groups = selectId id c.groups ∨ GoodSlot len (selectId id c'.groups)
  frame : ∀ id ∈ O, selectId id c'.groups = selectId id c.groups

theorem Since.rfl' {len : Nat} {O : List Nat} {c : Caps} : Since len O c c := ⟨rfl, rfl, fun _ => .inl rfl, fun _ _ => rfl⟩

theorem Since.trans {len : Nat} {O : List Nat} {c c1 c2 : Caps} (h : Since len O c c1) (h' : Since len O c1 c2) :
    Since len O c c2 := by
  refine ⟨h'.b.trans h.b, h'.shape.trans h.shape, ?_, fun id hid => (h'.frame id hid).trans (h.frame id hid)⟩
  intro id
  rcases h'.slots id with h1 | h1
  · rw [h1]; exact h.slots id
  · exact .inr h1

/-- The precondition after progress by a part of the pattern that leaves the open groups alone. -/
theorem SafePre.since {s : List Ch} {lb : Bool} {cur p : Nat} {c c1 : Caps} {st t : Stack} {O : List Nat}
    (h : SafePre s lb cur c st) (hm : c1.whole.matched = false) (hs : Since s.length (Ctre.marks t ++ O) c c1)
    (hsub : ∀ id ∈ Ctre.marks t, id ∈ Ctre.marks st)
    (h1 : cur ≤ p) (h2 : p ≤ s.length) : SafePre s lb p c1 t := by
  refine ⟨h2, by rw [groupIds_shape, hs.shape, ← groupIds_shape]; exact h.nodup, hm, ?_, ?_⟩
  · intro hlb id sl hsl hmat
    rcases hs.slots id with h3 | ⟨b, e, h3, h4, h5⟩
    · rw [h3] at hsl
      obtain ⟨b, e, h4, h5, h6, h7⟩ := h.slots hlb id sl hsl hmat
      exact ⟨b, e, h4, h5, h6, by omega⟩
    · rw [h3] at hsl
      simp only [Option.some.injEq] at hsl
      subst hsl
      exact ⟨b, e, rfl, rfl, h5, .inl h4⟩
  · intro hlb id hid
    obtain ⟨sl, b, h3, h4, h5⟩ := h.marks hlb id (hsub id hid)
    exact ⟨sl, b, by rw [hs.frame id (by simp [hid])]; exact h3, h4, by omega⟩

theorem SafePost.cons {s : List Ch} {O : List Nat} {cur p : Nat} {c c1 : Caps} {st t : Stack} {r : Re} {c' : Caps}
    (h : SafePost s O p c1 t c') (hst : st = .re r :: t) (hs : Since s.length (Ctre.marks t ++ O) c c1)
    (hp : cur ≤ p)
    (hr : r ≠ .sEnd) : SafePost s O cur c st c' := by
  subst hst
  refine ⟨h.matched, h.shape.trans hs.shape, ?_, ?_, ?_, ?_, ?_, ?_⟩
  · intro hn; rw [h.start (by simpa using hn), hs.b]
  · intro he
    obtain ⟨e, h1, h2, h3⟩ := h.endPos (endsPos_of_cons_re he)
    exact ⟨e, h1, by omega, h3⟩
  · intro he
    refine h.full ?_
    unfold endsFull at he
    split at he
    · rename_i h1; simp at h1
    · rename_i h1; simp only [List.cons.injEq, Item.re.injEq] at h1; exact absurd h1.1 hr
    · rename_i h1; simp only [List.cons.injEq] at h1; rw [h1.2]; exact he
  · intro id
    rcases h.slots id with h1 | h1
    · rw [h1]; exact hs.slots id
    · exact .inr h1
  · exact h.closed
  · intro id hid
    rw [h.frame id hid, hs.frame id (by simp [hid])]

theorem stepSafe_of {C : Cfg} {n : Nat} (ih : SafeAt C n) {s : List Ch} {lb : Bool} {cur : Nat} {f : Flags}
    {c : Caps} {st t : Stack} {O : List Nat} {m : List Re}
    (hpre : SafePre s lb cur c st)
    (hm : noReopenList (marks t ++ O) m = true) :
    StepSafe (fun p c1 => cur ≤ p ∧ p ≤ s.length ∧ c1.whole.matched = false ∧
      Since s.length (marks t ++ O) c c1) (bodyOf C n s lb f m) := by
  rintro p c1 ⟨h1, h2, h3, h4⟩
  have hpre' : SafePre s lb p c1 (items m [.endCycle]) := by
    have := hpre.since (t := [.endCycle]) (O := marks t ++ O) h3 (by simpa [marks] using h4) (by simp [marks]) h1 h2
    exact ⟨this.curLe, this.nodup, this.matched, this.slots, by rw [marks_items]; exact this.marks⟩
  have hb := ih s lb p f.notEmpty c1 (items m [.endCycle]) (marks t ++ O)
    (by rw [StkOpen_items]; exact ⟨by simpa [marks] using hm, by simp [StkOpen]⟩) hpre'
  unfold step
  cases ho : eval C n s lb p f.notEmpty c1 (items m [.endCycle]) with
  | ok c2 =>
    have hp := hb.2 c2 ho
    obtain ⟨e, h5, h6, h7⟩ := hp.endPos (endsPos_items (by simp [endsPos]))
    simp only [bodyOf, ho, h5]
    refine ⟨by simp, ?_⟩
    rintro p' c' he
    simp only [Loop.go.injEq] at he
    obtain ⟨rfl, rfl⟩ := he
    refine ⟨by omega, h7, rfl, h4.trans ⟨?_, hp.shape, ?_, ?_⟩⟩
    · have := hp.start (by simp [items])
      simpa [Caps.unmatch] using this
    · exact hp.slots
    · exact hp.frame
  | ub => exact absurd ho hb.1
  | _ => simp [bodyOf, ho]

theorem safe_step {C : Cfg} {n : Nat} (ih : SafeAt C n) : SafeAt C (n+1) := by
  intro s lb cur f c st O hst hpre
  have hcur := hpre.curLe
  rcases st with _ | ⟨it, t⟩
  · exact outSafe_stop (by simp [eval_nil]) (by simp [eval_nil])
  have hself : ∀ {p : Nat}, cur ≤ p → p ≤ s.length → marks (it :: t) = marks t → SafePre s lb p c t := by
    intro p h1 h2 h3
    exact hpre.since (O := []) hpre.matched .rfl' (by intro id hid; rw [h3]; exact hid) h1 h2
  cases it with
  | accept =>
    rcases t with _ | ⟨x, t⟩
    · rw [eval_accept]
      refine ⟨by simp, ?_⟩
      rintro r h
      simp only [Out.ok.injEq] at h
      subst h
      exact ⟨rfl, rfl, fun _ => rfl, by simp [endsPos], by simp [endsFull], fun _ => .inl rfl, by simp [marks], fun _ _ => rfl⟩
    · exact outSafe_stop (by simp [eval_accept_cons]) (by simp [eval_accept_cons])
  | endAhead =>
    rcases t with _ | ⟨x, t⟩
    · rw [eval_endAhead]
      refine ⟨by simp, ?_⟩
      rintro r h
      simp only [Out.ok.injEq] at h
      subst h
      exact ⟨rfl, rfl, fun _ => rfl, by simp [endsPos], by simp [endsFull], fun _ => .inl rfl, by simp [marks], fun _ _ => rfl⟩
    · exact outSafe_stop (by simp [eval_endAhead_cons]) (by simp [eval_endAhead_cons])
  | endBehind =>
    rcases t with _ | ⟨x, t⟩
    · rw [eval_endBehind]
      refine ⟨by simp, ?_⟩
      rintro r h
      simp only [Out.ok.injEq] at h
      subst h
      exact ⟨rfl, rfl, fun _ => rfl, by simp [endsPos], by simp [endsFull], fun _ => .inl rfl, by simp [marks], fun _ _ => rfl⟩
    · exact outSafe_stop (by simp [eval_endBehind_cons]) (by simp [eval_endBehind_cons])
  | endCycle =>
    rcases t with _ | ⟨x, t⟩
    · rw [eval_endCycle]
      split
      · exact outSafe_stop (by simp) (by simp)
      · split
        · exact outSafe_stop (by simp) (by simp)
        · refine ⟨by simp, ?_⟩
          rintro r h
          simp only [Out.ok.injEq] at h
          subst h
          exact ⟨rfl, rfl, fun _ => rfl, fun _ => ⟨cur, rfl, Nat.le_refl _, hcur⟩, by simp [endsFull], fun _ => .inl rfl,
            by simp [marks], fun _ _ => rfl⟩
    · exact outSafe_stop (by simp [eval_endCycle_cons]) (by simp [eval_endCycle_cons])
  | startMark =>
    rw [eval_startMark]
    split
    · exact outSafe_stop (by simp) (by simp)
    · have h := ih s lb cur f (c.setStart cur) t O hst ⟨hcur, hpre.nodup, hpre.matched, hpre.slots, hpre.marks⟩
      refine ⟨h.1, fun r hr => ?_⟩
      have := h.2 r hr
      refine ⟨this.matched, this.shape, by simp, this.endPos, ?_, this.slots, this.closed, this.frame⟩
      intro he; exact this.full he
  | endMark =>
    rw [eval_endMark]
    split
    · exact outSafe_stop (by simp) (by simp)
    · have h := ih s lb cur f (c.setEnd cur) t O hst ⟨hcur, hpre.nodup, hpre.matched, hpre.slots, hpre.marks⟩
      refine ⟨h.1, fun r hr => ?_⟩
      have := h.2 r hr
      refine ⟨this.matched, this.shape, ?_, ?_, ?_, this.slots, this.closed, this.frame⟩
      · intro hn; exact this.start (by simpa using hn)
      · intro he
        unfold endsPos at he
        split at he
        · rename_i h1; simp at h1
        · rename_i h1; simp at h1
        · rename_i h1
          simp only [List.cons.injEq, true_and] at h1
          subst h1
          cases n with
          | zero => simp [eval_zero] at hr
          | succ n =>
            rw [eval_accept] at hr
            simp only [Out.ok.injEq] at hr
            subst hr
            exact ⟨cur, rfl, Nat.le_refl _, hcur⟩
        · rename_i h1
          simp only [List.cons.injEq] at h1
          obtain ⟨_, rfl⟩ := h1
          exact this.endPos he
      · intro he; exact this.full he
  | numMark id =>
    simp only [StkOpen] at hst
    rw [eval_numMark]
    split
    · exact outSafe_stop (by simp) (by simp)
    rename_i hlb
    have hlb : lb = false := by simpa using hlb
    split
    · exact outSafe_stop (by simp) (by simp)
    · rename_i c1 hc
      obtain ⟨h1, h2, h3⟩ := endCapture_spec hst.1 hc
      obtain ⟨sl, b, h4, h5, h6⟩ := hpre.marks hlb id (by simp [marks])
      have hsel : selectId id c1.groups = some ⟨some b, some cur, true⟩ := by
        rw [h3, selectId_modifyId, if_pos rfl, h4]; simp [h5]
      have hne : ∀ id', id' ≠ id → selectId id' c1.groups = selectId id' c.groups := by
        intro id' he; rw [h3, selectId_modifyId, if_neg he]
      have h := ih s lb cur f c1 t O hst.2.2 ?_
      · refine ⟨h.1, fun r hr => ?_⟩
        have := h.2 r hr
        have hid : GoodSlot s.length (selectId id r.groups) := by
          rcases this.slots id with h7 | h7
          · rw [h7, hsel]; exact ⟨b, cur, rfl, h6, hcur⟩
          · exact h7
        refine ⟨this.matched, this.shape.trans (by rw [h3, shape_modifyId]), ?_, ?_, ?_, ?_, ?_, ?_⟩
        · intro hn; rw [this.start (by simpa using hn), h2]
        · intro he; exact this.endPos he
        · intro he; exact this.full he
        · intro id'
          by_cases he : id' = id
          · subst he; exact .inr hid
          · rw [← hne id' he]; exact this.slots id'
        · intro id' hid'
          simp only [marks, List.mem_cons] at hid'
          rcases hid' with rfl | hid'
          · exact hid
          · exact this.closed id' hid'
        · intro id' hid'
          have he : id' ≠ id := by rintro rfl; exact hst.2.1 (by simp [hid'])
          rw [this.frame id' hid', hne id' he]
      · refine ⟨hcur, by rw [groupIds_shape, h3, shape_modifyId, ← groupIds_shape]; exact hpre.nodup, by rw [h2]; exact hpre.matched, ?_, ?_⟩
        · intro _ id' sl' hsl' hm'
          by_cases he : id' = id
          · subst he
            rw [hsel] at hsl'
            simp only [Option.some.injEq] at hsl'
            subst hsl'
            exact ⟨b, cur, rfl, rfl, hcur, .inl h6⟩
          · rw [hne id' he] at hsl'
            exact hpre.slots hlb id' sl' hsl' hm'
        · intro _ id' hid'
          have he : id' ≠ id := by rintro rfl; exact hst.2.1 (by simp [hid'])
          rw [hne id' he]
          exact hpre.marks hlb id' (by simp [marks, hid'])
  | re r =>
    simp only [StkOpen] at hst
    obtain ⟨hr, ht⟩ := hst
    -- a step that only moves
    have hmove : ∀ (p : Nat) (f' : Flags), cur ≤ p → p ≤ s.length → r ≠ .sEnd →
        OutSafe (SafePost s O cur c (.re r :: t)) (eval C n s lb p f' c t) := by
      intro p f' h1 h2 h3
      have h := ih s lb p f' c t O ht (hself h1 h2 rfl)
      exact ⟨h.1, fun r' hr' => (h.2 r' hr').cons rfl .rfl' h1 h3⟩
    -- replacing the head
    have hrepl : ∀ (r' : Re) (f' : Flags), r'.noReopen (marks t ++ O) = true → r ≠ .sEnd →
        OutSafe (SafePost s O cur c (.re r :: t)) (eval C n s lb cur f' c (.re r' :: t)) := by
      intro r' f' h1 h3
      have h := ih s lb cur f' c (.re r' :: t) O ⟨h1, ht⟩ ⟨hcur, hpre.nodup, hpre.matched, hpre.slots, hpre.marks⟩
      refine ⟨h.1, fun c' hc' => ?_⟩
      have := h.2 c' hc'
      refine ⟨this.matched, this.shape, fun hn => this.start (by simpa using hn), fun he => this.endPos he, ?_, this.slots,
        this.closed, this.frame⟩
      intro he
      refine this.full (endsFull_cons ?_)
      unfold endsFull at he
      split at he
      · rename_i h1; simp at h1
      · rename_i h1; simp only [List.cons.injEq, Item.re.injEq] at h1; exact absurd h1.1 h3
      · rename_i h1; simp only [List.cons.injEq] at h1; rw [h1.2]; exact he
    cases r with
    | cc cl =>
      rw [eval_cc]
      split
      · exact outSafe_stop (by simp) (by simp)
      · rw [List.getElem?_eq_getElem (by omega)]
        simp only
        split
        · exact hmove _ _ (by omega) (by omega) (by simp)
        · exact outSafe_stop (by simp) (by simp)
    | any =>
      rw [eval_any]
      split
      · exact outSafe_stop (by simp) (by simp)
      · split
        · rw [List.getElem?_eq_getElem (by omega)]
          simp only
          split
          · exact outSafe_stop (by simp) (by simp)
          · exact hmove _ _ (by omega) (by omega) (by simp)
        · exact hmove _ _ (by omega) (by omega) (by simp)
    | str cs =>
      rw [eval_str]
      split
      · rename_i h; exact absurd h (matchString_safe hcur)
      · exact outSafe_stop (by simp) (by simp)
      · rename_i p hp
        have := matchString_yes hp
        exact hmove _ _ (by omega) (this.2 hcur) (by simp)
    | sel l =>
      simp only [Re.noReopen] at hr
      cases l with
      | nil => rw [eval_sel_nil]; exact outSafe_stop (by simp) (by simp)
      | cons r opts =>
        simp only [noReopenList, Bool.and_eq_true] at hr
        rw [eval_sel_cons]
        have h1 := hrepl r f hr.1 (by simp)
        have h2 := hrepl (.sel opts) f (by simpa only [Re.noReopen] using hr.2) (by simp)
        cases ho : eval C n s lb cur f c (.re r :: t) with
        | fail => exact h2
        | _ => rw [ho] at h1; exact h1
    | seq l =>
      simp only [Re.noReopen] at hr
      rcases l with _ | ⟨r, _ | ⟨r', m⟩⟩
      · rw [eval_seq_nil]; exact outSafe_stop (by simp) (by simp)
      · rw [eval_seq_one]
        simp only [noReopenList, Bool.and_eq_true] at hr
        exact hrepl r f hr.1 (by simp)
      · rw [eval_seq_cons]
        rw [noReopenList, Bool.and_eq_true] at hr
        have h := ih s lb cur f c (.re r :: .re (.seq (r' :: m)) :: t) O
          ⟨hr.1, by simpa only [Re.noReopen] using hr.2, ht⟩ ⟨hcur, hpre.nodup, hpre.matched, hpre.slots, hpre.marks⟩
        refine ⟨h.1, fun c' hc' => ?_⟩
        have := h.2 c' hc'
        refine ⟨this.matched, this.shape, fun hn => this.start (by simpa using hn), fun he => this.endPos he, ?_, this.slots,
          this.closed, this.frame⟩
        intro he
        exact this.full (endsFull_cons (endsFull_cons he))
    | empty => rw [eval_empty]; exact hmove _ _ (Nat.le_refl _) hcur (by simp)
    | rep k a b m =>
      simp only [Re.noReopen] at hr
      have hS := stepSafe_of ih (f := f) (t := t) hpre hr
      have hI : cur ≤ cur ∧ cur ≤ s.length ∧ c.whole.matched = false ∧
          Since s.length (marks t ++ O) c c := ⟨Nat.le_refl _, hcur, hpre.matched, .rfl'⟩
      have htail : ∀ (f' : Flags) p c1, (cur ≤ p ∧ p ≤ s.length ∧ c1.whole.matched = false ∧
          Since s.length (marks t ++ O) c c1) →
          OutSafe (SafePost s O cur c (.re (.rep k a b m) :: t)) (eval C n s lb p f' c1 t) := by
        rintro f' p c1 ⟨h1, h2, h3, h4⟩
        have h := ih s lb p f' c1 t O ht (hpre.since h3 h4 (fun id hid => hid) h1 h2)
        exact ⟨h.1, fun r' hr' => (h.2 r' hr').cons rfl h4 h1 (by simp)⟩
      cases k with
      | lazy =>
        rw [eval_lazy]
        split
        · exact outSafe_stop (by simp) (by simp)
        split
        · exact outSafe_stop (by simp) (by simp)
        have hmand := mandLoop_safe hS a cur c hI
        split
        · rename_i o ho
          refine outSafe_stop ?_ ?_
          · rintro rfl; exact hmand.1 ho
          · rintro r rfl; exact mandLoop_ne_ok _ _ _ ho
        · rename_i p c1 hp
          have hI1 := hmand.2 _ _ hp
          have h1 := htail (f.consumed (decide (cur ≠ p))) p c1 hI1
          have h2 := lazyLoop_safe hS (fun p c1 hi => htail (f.consumed true) p c1 hi) (b := b) n a p c1 hI1
          cases ho : eval C n s lb p (f.consumed (decide (cur ≠ p))) c1 t with
          | fail => exact h2
          | _ => rw [ho] at h1; exact h1
      | poss =>
        rw [eval_poss]
        split
        · exact outSafe_stop (by simp) (by simp)
        split
        · exact outSafe_stop (by simp) (by simp)
        have hposs := possLoop_safe hS (a := a) (b := b) n 0 cur c hI
        split
        · rename_i o ho
          refine outSafe_stop ?_ ?_
          · rintro rfl; exact hposs.1 ho
          · rintro r rfl; exact possLoop_ne_ok _ _ _ _ ho
        · rename_i p c1 hp
          exact htail _ p c1 (hposs.2 _ _ hp)
      | greedy =>
        rw [eval_greedy]
        simp only [greedyRecRef_eq, ite_self]
        split
        · exact outSafe_stop (by simp) (by simp)
        split
        · exact outSafe_stop (by simp) (by simp)
        generalize (if C.greedyOpt = true then loopCollides m t else some true) = g
        rcases g with _ | _ | _
        · exact outSafe_stop (by simp) (by simp)
        · exact hrepl (.rep .poss a b m) f (by simpa only [Re.noReopen] using hr) (by simp)
        · simp only
          have hmand := mandLoop_safe hS a cur c hI
          split
          · rename_i o ho
            refine outSafe_stop ?_ ?_
            · rintro rfl; exact hmand.1 ho
            · rintro r rfl; exact mandLoop_ne_ok _ _ _ ho
          · rename_i p c1 hp
            exact greedyRec_safe hS (fun p c1 hi => htail (f.consumed true) p c1 hi) (b := b) n a p c1 (hmand.2 _ _ hp)
    | cap id name m =>
      simp only [Re.noReopen, Bool.and_eq_true, bne_iff_ne, ne_eq, Bool.not_eq_true',
        List.contains_eq_mem, decide_eq_false_iff_not] at hr
      rw [eval_cap]
      split
      · exact outSafe_stop (by simp) (by simp)
      rename_i hlb
      have hlb : lb = false := by simpa using hlb
      split
      · exact outSafe_stop (by simp) (by simp)
      · rename_i c1 hc
        obtain ⟨h1, h2, h3⟩ := startCapture_spec hr.1.1 hc
        rw [← selectId_isSome] at h1
        obtain ⟨sl, hsl⟩ := Option.isSome_iff_exists.1 h1
        have hsel : selectId id c1.groups = some { sl with b := some cur } := by
          rw [h3, selectId_modifyId, if_pos rfl, hsl]; rfl
        have hne : ∀ id', id' ≠ id → selectId id' c1.groups = selectId id' c.groups := by
          intro id' he; rw [h3, selectId_modifyId, if_neg he]
        have h := ih s lb cur f c1 (.re (.seq m) :: .numMark id :: t) O ?_ ?_
        · refine ⟨h.1, fun c' hc' => ?_⟩
          have := h.2 c' hc'
          refine ⟨this.matched, this.shape.trans (by rw [h3, shape_modifyId]), ?_, ?_, ?_, ?_, ?_, ?_⟩
          · intro hn; rw [this.start (by simpa using hn), h2]
          · intro he; exact this.endPos (endsPos_cons (endsPos_cons he))
          · intro he; exact this.full (endsFull_cons (endsFull_cons he))
          · intro id'
            by_cases he : id' = id
            · subst he; exact .inr (this.closed id' (by simp [marks]))
            · rw [← hne id' he]; exact this.slots id'
          · intro id' hid'; exact this.closed id' (by simp only [marks] at hid' ⊢; simp [hid'])
          · intro id' hid'
            have he : id' ≠ id := by rintro rfl; exact hr.1.2 (by simp [hid'])
            rw [this.frame id' hid', hne id' he]
        · simp only [StkOpen, Re.noReopen, marks, List.cons_append]
          exact ⟨hr.2, hr.1.1, hr.1.2, ht⟩
        · refine ⟨hcur, by rw [groupIds_shape, h3, shape_modifyId, ← groupIds_shape]; exact hpre.nodup, by rw [h2]; exact hpre.matched, ?_, ?_⟩
          · intro _ id' sl' hsl' hm'
            by_cases he : id' = id
            · subst he
              rw [hsel] at hsl'
              simp only [Option.some.injEq] at hsl'
              subst hsl'
              obtain ⟨b, e, h4, h5, h6, h7⟩ := hpre.slots hlb id' sl hsl hm'
              exact ⟨cur, e, rfl, h5, h6, .inr (Nat.le_refl _)⟩
            · rw [hne id' he] at hsl'
              exact hpre.slots hlb id' sl' hsl' hm'
          · intro _ id' hid'
            simp only [marks, List.mem_cons] at hid'
            rcases hid' with rfl | hid'
            · exact ⟨_, cur, hsel, rfl, Nat.le_refl _⟩
            · have he : id' ≠ id := by rintro rfl; exact hr.1.2 (by simp [hid'])
              rw [hne id' he]
              exact hpre.marks hlb id' hid'
    | bref id =>
      rw [eval_bref]
      split
      · exact outSafe_stop (by simp) (by simp)
      rename_i hlb
      have hlb : lb = false := by simpa using hlb
      split
      · exact outSafe_stop (by simp) (by simp)
      · rename_i q hq
        exact absurd hq (brefCmp_safe hcur (by
          intro sl hsl hm
          unfold Caps.get at hsl
          split at hsl
          · simp only [Option.some.injEq] at hsl; subst hsl; rw [hpre.matched] at hm; simp at hm
          · exact hpre.slots hlb id sl hsl hm))
      · exact outSafe_stop (by simp) (by simp)
      · rename_i p q hp
        have := brefCmp_yes hp hcur
        exact hmove _ _ this.1 this.2.1 (by simp)
    | brefName nm =>
      rw [eval_brefName]
      split
      · exact outSafe_stop (by simp) (by simp)
      rename_i hlb
      have hlb : lb = false := by simpa using hlb
      split
      · exact outSafe_stop (by simp) (by simp)
      · rename_i q hq
        exact absurd hq (brefCmp_safe hcur (by
          intro sl hsl hm
          simp only [Caps.getName] at hsl
          rw [selectName_eq hpre.nodup] at hsl
          cases hn : groupNumber c.groups nm with
          | none => simp [hn] at hsl
          | some id => rw [hn] at hsl; exact hpre.slots hlb id sl hsl hm))
      · exact outSafe_stop (by simp) (by simp)
      · rename_i p q hp
        have := brefCmp_yes hp hcur
        exact hmove _ _ this.1 this.2.1 (by simp)
    | ahead pos m =>
      simp only [Re.noReopen] at hr
      rw [eval_ahead]
      have hin := ih s lb cur f c [.re (.seq m), .endAhead] (marks t ++ O)
        (by simp only [StkOpen, Re.noReopen, marks, List.nil_append]; exact ⟨hr, trivial⟩)
        ⟨hcur, hpre.nodup, hpre.matched, hpre.slots, by simp [marks]⟩
      split
      · rename_i c1 hc
        have h1 := hin.2 c1 hc
        split
        · have hs : Since s.length (marks t ++ O) c c1.unmatch :=
            ⟨h1.start (by simp), h1.shape, h1.slots, h1.frame⟩
          have h := ih s lb cur f c1.unmatch t O ht (hpre.since rfl hs (fun _ h => h) (Nat.le_refl _) hcur)
          exact ⟨h.1, fun r' hr' => (h.2 r' hr').cons rfl hs (Nat.le_refl _) (by simp)⟩
        · exact outSafe_stop (by simp) (by simp)
      · split
        · exact outSafe_stop (by simp) (by simp)
        · exact hmove _ _ (Nat.le_refl _) hcur (by simp)
      · rename_i h1 h2
        exact outSafe_stop hin.1 h1
    | behind pos m =>
      simp only [Re.noReopen] at hr
      rw [eval_behind]
      have hin := ih s.reverse true (s.length - cur) f c [.re (.seq m), .endBehind] (marks t ++ O)
        (by simp only [StkOpen, Re.noReopen, marks, List.nil_append]; exact ⟨hr, trivial⟩)
        ⟨by simp, hpre.nodup, hpre.matched, by simp, by simp⟩
      split
      · rename_i c1 hc
        have h1 := hin.2 c1 hc
        split
        · have hs : Since s.length (marks t ++ O) c c1.unmatch :=
            ⟨h1.start (by simp), h1.shape, by have := h1.slots; rw [List.length_reverse] at this; exact this, h1.frame⟩
          have h := ih s lb cur f c1.unmatch t O ht (hpre.since rfl hs (fun _ h => h) (Nat.le_refl _) hcur)
          exact ⟨h.1, fun r' hr' => (h.2 r' hr').cons rfl hs (Nat.le_refl _) (by simp)⟩
        · exact outSafe_stop (by simp) (by simp)
      · split
        · exact outSafe_stop (by simp) (by simp)
        · exact hmove _ _ (Nat.le_refl _) hcur (by simp)
      · rename_i h1 h2
        exact outSafe_stop hin.1 h1
    | atomic m => rw [eval_atomic]; exact hrepl _ f (by simpa only [Re.noReopen] using hr) (by simp)
    | mode md => rw [eval_mode]; exact hmove _ _ (Nat.le_refl _) hcur (by simp)
    | reject => rw [eval_reject]; exact outSafe_stop (by simp) (by simp)
    | sEnd =>
      rw [eval_test (h := rfl)]
      split
      · rename_i h; exact absurd h (testAt_safe hcur)
      · exact outSafe_stop (by simp) (by simp)
      · rename_i hy
        have hl : cur = s.length := by simp [testAt] at hy; omega
        have h := ih s lb cur f c t O ht (hself (Nat.le_refl _) hcur rfl)
        refine ⟨h.1, fun r' hr' => ?_⟩
        have := h.2 r' hr'
        refine ⟨this.matched, this.shape, fun hn => this.start (by simpa using hn), fun he => this.endPos he, ?_, this.slots,
          this.closed, this.frame⟩
        intro he
        unfold endsFull at he
        split at he
        · rename_i h1; simp at h1
        · rename_i h1
          simp only [List.cons.injEq, true_and] at h1
          subst h1
          obtain ⟨e, h2, h3, h4⟩ := this.endPos (by simp [endsPos])
          rw [h2]; congr 1; omega
        · rename_i h1; simp only [List.cons.injEq] at h1; exact this.full (by rw [h1.2]; exact he)
    | boundary _ | notBoundary _ | sBegin | sEndLine | lBegin | lEnd =>
      rw [eval_test (h := rfl)]
      split
      · rename_i h; exact absurd h (testAt_safe hcur)
      · exact outSafe_stop (by simp) (by simp)
      · exact hmove _ _ (Nat.le_refl _) hcur (by simp)

theorem safe (C : Cfg) : ∀ n, SafeAt C n := by
  intro n
  induction n with
  | zero => intro s lb cur f c st O _ _; exact outSafe_stop (by simp [eval_zero]) (by simp [eval_zero])
  | succ n ih => exact safe_step ih

end Ctre
