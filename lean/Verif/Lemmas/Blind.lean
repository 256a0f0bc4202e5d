import Verif.Spec.Blind
import Verif.Lemmas.Recase
/-
Subjects that the leaves of a tree do not tell apart.
-/
namespace Ctre
open Parse Surface

/-- The class contains both characters or neither. -/
def CC.Blind (U : Uni) (v v' : Ch) (c : CC) : Prop := ∀ ci, c.matchChar U ci v = c.matchChar U ci v'

/-- The leaf does not tell the characters apart. -/
def LeafBlind (U : Uni) (v v' : Ch) : Re → Prop
  | .cc c | .boundary c | .notBoundary c => c.Blind U v v'
  | .any | .lBegin | .lEnd | .sEndLine => v = 10 ↔ v' = 10
  | _ => True

def Re.isRef : Re → Bool
  | .bref _ | .brefName _ => true
  | _ => false

structure Twin (U : Uni) (L : List Re) (s s' : List Ch) : Prop where
  length : s.length = s'.length
  alike : ∀ (i : Nat) (v v' : Ch), s[i]? = some v → s'[i]? = some v' → ∀ z ∈ L, LeafBlind U v v' z
  equal : (∃ z ∈ L, z.isRef = true) → ∀ i j : Nat, i < s.length → j < s.length → (s[i]? = s[j]? ↔ s'[i]? = s'[j]?)

variable {U : Uni} {L : List Re} {s s' : List Ch}

theorem Twin.get (h : Twin U L s s') (i : Nat) :
    (s[i]? = none ∧ s'[i]? = none) ∨ ∃ v v', s[i]? = some v ∧ s'[i]? = some v' ∧ ∀ z ∈ L, LeafBlind U v v' z := by
  have hl := h.length
  rcases Nat.lt_or_ge i s.length with hi | hi
  · right
    have e : s[i]? = some s[i] := List.getElem?_eq_getElem hi
    have e' : s'[i]? = some (s'[i]'(hl ▸ hi)) := List.getElem?_eq_getElem (hl ▸ hi)
    exact ⟨_, _, e, e', h.alike i _ _ e e'⟩
  · left
    exact ⟨List.getElem?_eq_none hi, List.getElem?_eq_none (hl ▸ hi)⟩

theorem Twin.reverse (h : Twin U L s s') : Twin U L s.reverse s'.reverse := by
  have hl := h.length
  refine ⟨by simpa using hl, fun i v v' e e' => ?_, fun hr i j hi hj => ?_⟩
  · have hi : i < s.length := by
      have := List.getElem?_eq_some_iff.1 e
      obtain ⟨hi, _⟩ := this
      simpa using hi
    rw [List.getElem?_reverse hi] at e
    rw [List.getElem?_reverse (hl ▸ hi), ← hl] at e'
    exact h.alike _ _ _ e e'
  · rw [List.length_reverse] at hi hj
    rw [List.getElem?_reverse hi, List.getElem?_reverse hj, List.getElem?_reverse (hl ▸ hi), List.getElem?_reverse (hl ▸ hj), ← hl]
    exact h.equal hr _ _ (by omega) (by omega)

theorem matchString_twin (hs : Twin U L s s') (ci : Bool) : ∀ (cs : List Nat) (cur : Nat),
    (∀ c ∈ cs, Re.cc (.chr c) ∈ L) → matchString ci s cs cur = matchString ci s' cs cur := by
  intro cs
  induction cs with
  | nil => intro cur _; rfl
  | cons c cs ih =>
    intro cur h
    unfold matchString
    rw [hs.length, ih _ fun d hd => h d (by simp [hd])]
    rcases hs.get cur with ⟨e, e'⟩ | ⟨v, v', e, e', hv⟩
    · rw [e, e']
    · have h1 : (CC.chr c).Blind U v v' := hv _ (h c (by simp))
      have := h1 ci
      simp only [CC.matchChar] at this
      simp only [e, e', this]

theorem boundaryAt_twin {c : CC} (hs : Twin U L s s') (h : ∀ v v', (∀ z ∈ L, LeafBlind U v v' z) → c.Blind U v v') (ci : Bool) (cur : Nat) :
    boundaryAt U ci s cur c = boundaryAt U ci s' cur c := by
  have key : ∀ i : Nat, (s[i]?).map (c.matchChar U ci) = (s'[i]?).map (c.matchChar U ci) := by
    intro i
    rcases hs.get i with ⟨e, e'⟩ | ⟨v, v', e, e', hv⟩
    · rw [e, e']
    · rw [e, e', Option.map_some, Option.map_some, h v v' hv ci]
  unfold boundaryAt
  simp only [hs.length, key]

theorem testAt_twin {r : Re} {f : Flags} (hs : Twin U L s s') (h : r ∈ L) (cur : Nat) : testAt U s cur f r = testAt U s' cur f r := by
  cases r with
  | boundary c => simp only [testAt, boundaryAt_twin hs fun v v' hv => hv _ h]
  | notBoundary c => simp only [testAt, boundaryAt_twin hs fun v v' hv => hv _ h]
  | sEnd => simp only [testAt, hs.length]
  | sEndLine | lEnd =>
    simp only [testAt, hs.length]
    rcases hs.get cur with ⟨e, e'⟩ | ⟨v, v', e, e', hv⟩
    · rw [e, e']
    · have h1 : v = 10 ↔ v' = 10 := hv _ h
      simp only [e, e', h1]
  | lBegin =>
    cases cur with
    | zero => simp only [testAt]
    | succ p =>
      simp only [testAt]
      rcases hs.get p with ⟨e, e'⟩ | ⟨v, v', e, e', hv⟩
      · rw [e, e']
      · have h1 : v = 10 ↔ v' = 10 := hv _ h
        simp only [e, e', h1]
  | _ => simp only [testAt]

theorem matchRangeBack_twin (hs : Twin U L s s') (hr : ∃ z ∈ L, z.isRef = true) : ∀ (n cur rc re : Nat),
    matchRangeBack s n cur rc re = matchRangeBack s' n cur rc re := by
  intro n
  induction n with
  | zero =>
    intro cur rc re
    unfold matchRangeBack
    rw [hs.length]
    split
    · rfl
    · rcases hs.get cur with ⟨e, e'⟩ | ⟨v, v', e, e', _⟩ <;> rcases hs.get rc with ⟨d, d'⟩ | ⟨w, w', d, d', _⟩ <;> simp only [e, e', d, d']
      have := hs.equal hr cur rc (List.getElem?_eq_some_iff.1 e).1 (List.getElem?_eq_some_iff.1 d).1
      simp only [e, e', d, d', Option.some.injEq] at this
      simp only [this]
  | succ n ih =>
    intro cur rc re
    unfold matchRangeBack
    rw [hs.length]
    split
    · rfl
    · rcases hs.get cur with ⟨e, e'⟩ | ⟨v, v', e, e', _⟩ <;> rcases hs.get rc with ⟨d, d'⟩ | ⟨w, w', d, d', _⟩ <;> simp only [e, e', d, d']
      have := hs.equal hr cur rc (List.getElem?_eq_some_iff.1 e).1 (List.getElem?_eq_some_iff.1 d).1
      simp only [e, e', d, d', Option.some.injEq] at this
      simp only [this, ih]

theorem brefCmp_twin (hs : Twin U L s s') (hr : ∃ z ∈ L, z.isRef = true) (cur : Nat) (sl : Option Slot) :
    brefCmp s cur sl = brefCmp s' cur sl := by
  unfold brefCmp
  simp only [hs.length, matchRangeBack_twin hs hr]

def StkIn (L : List Re) (st : Stack) : Prop := ∀ r, Item.re r ∈ st → ∀ z ∈ r.leaves, z ∈ L

theorem stkIn_cons {i : Item} {t : Stack} :
    StkIn L (i :: t) ↔ (∀ r, i = .re r → ∀ z ∈ r.leaves, z ∈ L) ∧ StkIn L t := by
  unfold StkIn
  constructor
  · intro h; exact ⟨fun r hr => h r (by simp [hr]), fun r hr => h r (by simp [hr])⟩
  · intro h r hr
    rcases List.mem_cons.1 hr with hr | hr
    · exact h.1 r hr.symm
    · exact h.2 r hr

theorem stkIn_re {r : Re} {t : Stack} : StkIn L (.re r :: t) ↔ (∀ z ∈ r.leaves, z ∈ L) ∧ StkIn L t := by
  rw [stkIn_cons]; simp

theorem stkIn_mark {i : Item} {t : Stack} (hx : ∀ r, i ≠ .re r) (h : StkIn L t) : StkIn L (i :: t) := by
  rw [stkIn_cons]; exact ⟨fun r hr => absurd hr (hx r), h⟩

theorem stkIn_items {l : List Re} {t : Stack} (h : ∀ z ∈ leavesAll l, z ∈ L) (ht : StkIn L t) :
    StkIn L (items l t) := by
  induction l with
  | nil => exact ht
  | cons r l ih =>
    simp only [leavesAll, List.mem_append] at h
    have : items (r :: l) t = .re r :: items l t := rfl
    rw [this, stkIn_re]
    exact ⟨fun z hz => h z (.inl hz), ih fun z hz => h z (.inr hz)⟩

/-- Evaluation does not tell such subjects apart. -/
theorem eval_twin (C : Cfg) : ∀ n (s s' : List Ch) lb cur f c st, Twin C.uni L s s' → StkIn L st →
    eval C n s lb cur f c st = eval C n s' lb cur f c st := by
  intro n
  induction n with
  | zero => intros; rfl
  | succ n ih =>
    intro s s' lb cur f c st hs hst
    rcases st with _ | ⟨it, t⟩
    · rfl
    · have ht := (stkIn_cons.1 hst).2
      have iht : ∀ p f c, eval C n s lb p f c t = eval C n s' lb p f c t :=
        fun p f c => ih s s' lb p f c t hs ht
      cases it with
      | accept | endAhead | endBehind => cases t <;> rfl
      | endCycle =>
        cases t with
        | nil => rfl
        | cons _ _ => rfl
      | startMark => simp only [eval_startMark, iht]
      | endMark => simp only [eval_endMark, iht]
      | numMark id => simp only [eval_numMark, iht]
      | re r =>
        have hr := (stkIn_re.1 hst).1
        have hbody : ∀ m, (∀ z ∈ leavesAll m, z ∈ L) →
            (fun p c' => eval C n s lb p f.notEmpty c' (items m [.endCycle])) =
            (fun p c' => eval C n s' lb p f.notEmpty c' (items m [.endCycle])) := by
          intro m hm
          funext p c'
          exact ih s s' lb p _ _ _ hs (stkIn_items hm (stkIn_mark (by simp) (by simp [StkIn])))
        have htail : (fun p c' => eval C n s lb p (f.consumed true) c' t) =
            (fun p c' => eval C n s' lb p (f.consumed true) c' t) := by
          funext p c'
          exact iht _ _ _
        cases r with
        | cc cl =>
          simp only [eval_cc, hs.length]
          rcases hs.get cur with ⟨e, e'⟩ | ⟨v, v', e, e', h⟩
          · rw [e, e']
          · have h1 : cl.Blind C.uni v v' := h (.cc cl) (hr _ (by simp [Re.leaves]))
            simp only [e, e', h1 f.ci, iht]
        | any =>
          simp only [eval_any, hs.length]
          rcases hs.get cur with ⟨e, e'⟩ | ⟨v, v', e, e', h⟩
          · simp only [e, e', iht]
          · have h1 : v = 10 ↔ v' = 10 := h .any (hr _ (by simp [Re.leaves]))
            simp only [e, e', h1, iht]
        | str cs =>
          simp only [eval_str]
          rw [matchString_twin hs f.ci cs cur fun c hc => hr _ (by simp only [Re.leaves, List.mem_map]; exact ⟨c, hc, rfl⟩)]
          simp only [iht]
        | sel l =>
          cases l with
          | nil => rfl
          | cons r opts =>
            simp only [Re.leaves, leavesAll, List.mem_append] at hr
            simp only [eval_sel_cons]
            rw [ih s s' lb cur f c _ hs (stkIn_re.2 ⟨fun z hz => hr z (.inl hz), ht⟩),
              ih s s' lb cur f c (.re (.sel opts) :: t) hs (stkIn_re.2 ⟨fun z hz => hr z (.inr hz), ht⟩)]
        | seq l =>
          rcases l with _ | ⟨r, _ | ⟨r', m⟩⟩
          · rfl
          · simp only [Re.leaves, leavesAll, List.append_nil] at hr
            exact ih _ _ _ _ _ _ _ hs (stkIn_re.2 ⟨hr, ht⟩)
          · simp only [Re.leaves, leavesAll, List.mem_append] at hr
            refine ih _ _ _ _ _ _ _ hs (stkIn_re.2 ⟨fun z hz => hr z (.inl hz), stkIn_re.2 ⟨fun z hz => ?_, ht⟩⟩)
            simp only [Re.leaves, leavesAll, List.mem_append] at hz
            exact hr z (.inr hz)
        | empty => exact iht _ _ _
        | rep k a b m =>
          cases k with
          | lazy => simp only [eval_lazy, hs.length, hbody m hr, htail, iht]
          | poss => simp only [eval_poss, hs.length, hbody m hr, iht]
          | greedy =>
            simp only [eval_greedy, hs.length, greedyRecRef_eq, ite_self, hbody m hr, htail]
            rw [ih s s' lb cur f c (.re (.rep .poss a b m) :: t) hs (stkIn_re.2 ⟨hr, ht⟩)]
        | cap id name m =>
          simp only [eval_cap]
          split
          · rfl
          · split
            · rfl
            · exact ih _ _ _ _ _ _ _ hs (stkIn_re.2 ⟨hr, stkIn_mark (by simp) ht⟩)
        | bref id =>
          simp only [eval_bref, iht, brefCmp_twin hs ⟨_, hr (.bref id) (by simp [Re.leaves]), rfl⟩]
        | brefName id =>
          simp only [eval_brefName, iht, brefCmp_twin hs ⟨_, hr (.brefName id) (by simp [Re.leaves]), rfl⟩]
        | ahead pos m =>
          simp only [eval_ahead, iht]
          rw [ih s s' lb cur f c [.re (.seq m), .endAhead] hs
            (stkIn_re.2 ⟨hr, stkIn_mark (by simp) (by simp [StkIn])⟩)]
        | behind pos m =>
          simp only [eval_behind, iht, hs.length]
          rw [ih s.reverse s'.reverse true (s'.length - cur) f c [.re (.seq m), .endBehind] hs.reverse
            (stkIn_re.2 ⟨hr, stkIn_mark (by simp) (by simp [StkIn])⟩)]
        | atomic m =>
          rw [eval_atomic, eval_atomic]
          exact ih _ _ _ _ _ _ _ hs (stkIn_re.2 ⟨hr, ht⟩)
        | mode md =>
          rw [eval_mode, eval_mode]
          exact iht _ _ _
        | reject => rfl
        | boundary _ | notBoundary _ | sBegin | sEnd | sEndLine | lBegin | lEnd =>
          rw [eval_test (h := rfl), eval_test (h := rfl), testAt_twin hs (hr _ (by simp [Re.leaves])), iht]


/-- Nor do the calls. -/
theorem calls_twin (C : Cfg) (n : Nat) {f : Flags} {r : Re} (hs : Twin C.uni r.leaves s s') (p : Nat) :
    matchAt C n s f r p = matchAt C n s' f r p ∧ startsWithAt C n s f r p = startsWithAt C n s' f r p ∧
      searchAt C n s f r p = searchAt C n s' f r p := by
  have hs' : Twin C.uni (.sEnd :: r.leaves) s s' := by
    refine ⟨hs.length, fun i v v' e e' z hz => ?_, fun ⟨z, hz, hr⟩ => hs.equal ?_⟩
    · rcases List.mem_cons.1 hz with rfl | hz
      · trivial
      · exact hs.alike i v v' e e' z hz
    · rcases List.mem_cons.1 hz with rfl | hz
      · cases hr
      · exact ⟨z, hz, hr⟩
  have hst : ∀ t : Stack, StkIn (.sEnd :: r.leaves) t → StkIn (.sEnd :: r.leaves) (.startMark :: .re r :: t) := fun t ht =>
    stkIn_mark (by simp) (stkIn_re.2 ⟨fun z hz => List.mem_cons_of_mem _ hz, ht⟩)
  have he : StkIn (.sEnd :: r.leaves) [.endMark, .accept] := by simp [StkIn]
  have hatt : ∀ it, attempt C n s f r it = attempt C n s' f r it := fun it => eval_twin C n s s' false it f _ _ hs' (hst _ he)
  refine ⟨?_, ?_, ?_⟩
  · unfold matchAt attemptFull
    rw [eval_twin C n s s' false p f _ _ hs' (hst _ (stkIn_re.2 ⟨by simp [Re.leaves], he⟩))]
  · unfold startsWithAt
    rw [hatt]
  · have loop : ∀ k it, searchLoop C n s f r k it = searchLoop C n s' f r k it := by
      intro k
      induction k with
      | zero => intro it; unfold searchLoop; rw [hatt]
      | succ k ih => intro it; unfold searchLoop; rw [hatt, ih]
    unfold searchAt
    rw [loop, hs.length]

/-! ### Texts -/

theorem set_blind {v v' : Ch} {neg : Bool} {l : List SetItem} (hf : ∀ i ∈ l, i.Faithful)
    (h : ∀ ci, (∃ i ∈ l, i.has U ci v) ↔ (∃ i ∈ l, i.has U ci v')) : (setTree neg l).Blind U v v' := by
  intro ci
  rw [Bool.eq_iff_iff, setTree_match hf, setTree_match hf, h ci]

mutual
theorem atom_blind {v v' : Ch} : ∀ (a : Atom), a.Faithful → a.Blind U v v' → ∀ z ∈ (atomTree a).leaves, LeafBlind U v v' z
  | .ch c, hf, hx => by
    simp only [atomTree, Re.leaves, List.mem_singleton, forall_eq, LeafBlind]
    rw [charTree_eq hf]
    exact hx
  | .cls c, _, hx => by
    simp only [atomTree, Re.leaves, List.mem_singleton, forall_eq, LeafBlind]
    intro ci
    rw [Bool.eq_iff_iff, clsTree_match, clsTree_match]
    exact hx ci
  | .set neg l, hf, hx => by
    simp only [atomTree, Re.leaves, List.mem_singleton, forall_eq, LeafBlind]
    exact set_blind hf hx
  | .wordBoundary, _, hx => by
    simp only [atomTree, Re.leaves, List.mem_singleton, forall_eq, LeafBlind]
    exact hx
  | .notWordBoundary, _, hx => by
    simp only [atomTree, Re.leaves, List.mem_singleton, forall_eq, LeafBlind]
    intro ci
    have := hx ci
    simp only [CC.matchChar, CC.matchAny, wordChars] at this ⊢
    simp only [this]
  | .dot, _, hx | .bol, _, hx | .eol, _, hx | .subjectEndLine, _, hx => by
    simp only [atomTree, Re.leaves, List.mem_singleton, forall_eq, LeafBlind]
    exact hx
  | .unknown _ _, _, _ | .subjectBegin, _, _ | .subjectEnd, _, _ | .mode _, _, _
  | .ref _, _, _ | .refNumber _, _, _ | .refRelative _ _, _, _ | .refName _, _, _ => by
    simp [atomTree, Re.leaves, LeafBlind]
  | .cap _ b, hf, hx | .named _ _ b, hf, hx | .ahead _ b, hf, hx | .atomic b, hf, hx => by
    simp only [atomTree, Re.leaves, leaves_unpack]
    exact body_blind b hf hx
  | .behind _ b, hf, hx => by
    simp only [atomTree, Re.leaves]
    exact fun z hz => body_blind b hf.1 hx z (leaves_rotated _ z hz)
  | .group b, hf, hx => by
    simp only [atomTree]
    exact body_blind b hf hx

theorem cat_blind {v v' : Ch} : ∀ (c : Cat), c.Faithful → c.Blind U v v' → ∀ z ∈ (catTree c).leaves, LeafBlind U v v' z
  | .one a q, hf, hx => by
    simp only [catTree]
    exact fun z hz => atom_blind a hf.1 hx z (leaves_quant z hz)
  | .cons a q l, hf, hx => by
    simp only [catTree]
    intro z hz
    rcases leaves_sequence z hz with h | h
    · exact atom_blind a hf.1 hx.1 z (leaves_quant z h)
    · exact cat_blind l hf.2.2.1 hx.2 z h

theorem alt_blind {v v' : Ch} : ∀ (l : Alt), l.Faithful → l.Blind U v v' → ∀ z ∈ (altTree l).leaves, LeafBlind U v v' z
  | .empty, _, _ => by simp [altTree, Re.leaves]
  | .one c, hf, hx => by simp only [altTree]; exact cat_blind c hf hx
  | .bar c l, hf, hx => by
    simp only [altTree]
    intro z hz
    rcases leaves_alternate z hz with h | h
    · exact cat_blind c hf.1 hx.1 z h
    · exact alt_blind l hf.2 hx.2 z h

theorem body_blind {v v' : Ch} : ∀ (b : Body), b.Faithful → b.Blind U v v' → ∀ z ∈ (bodyTree b).leaves, LeafBlind U v v' z
  | .alt l, hf, hx => by simp only [bodyTree]; exact alt_blind l hf hx
  | .lead l, hf, hx => by
    simp only [bodyTree]
    intro z hz
    rcases leaves_alternate z hz with h | h
    · simp [Re.leaves] at h
    · exact alt_blind l hf hx z h
end

mutual
theorem atom_refers : ∀ (a : Atom), a.refers = false → ∀ z ∈ (atomTree a).leaves, z.isRef = false
  | .ch _, _ | .cls _, _ | .set _ _, _ | .wordBoundary, _ | .notWordBoundary, _ | .dot, _ | .bol, _ | .eol, _ | .subjectEndLine, _
  | .unknown _ _, _ | .subjectBegin, _ | .subjectEnd, _ | .mode _, _ => by
    simp [atomTree, Re.leaves, Re.isRef]
  | .ref _, hx | .refNumber _, hx | .refRelative _ _, hx | .refName _, hx => by simp [Atom.refers] at hx
  | .cap _ b, hx | .named _ _ b, hx | .ahead _ b, hx | .atomic b, hx => by
    simp only [atomTree, Re.leaves, leaves_unpack]
    exact body_refers b hx
  | .behind _ b, hx => by
    simp only [atomTree, Re.leaves]
    exact fun z hz => body_refers b hx z (leaves_rotated _ z hz)
  | .group b, hx => by
    simp only [atomTree]
    exact body_refers b hx

theorem cat_refers : ∀ (c : Cat), c.refers = false → ∀ z ∈ (catTree c).leaves, z.isRef = false
  | .one a q, hx => by
    simp only [catTree]
    exact fun z hz => atom_refers a hx z (leaves_quant z hz)
  | .cons a q l, hx => by
    simp only [Cat.refers, Bool.or_eq_false_iff] at hx
    simp only [catTree]
    intro z hz
    rcases leaves_sequence z hz with h | h
    · exact atom_refers a hx.1 z (leaves_quant z h)
    · exact cat_refers l hx.2 z h

theorem alt_refers : ∀ (l : Alt), l.refers = false → ∀ z ∈ (altTree l).leaves, z.isRef = false
  | .empty, _ => by simp [altTree, Re.leaves]
  | .one c, hx => by simp only [altTree]; exact cat_refers c hx
  | .bar c l, hx => by
    simp only [Alt.refers, Bool.or_eq_false_iff] at hx
    simp only [altTree]
    intro z hz
    rcases leaves_alternate z hz with h | h
    · exact cat_refers c hx.1 z h
    · exact alt_refers l hx.2 z h

theorem body_refers : ∀ (b : Body), b.refers = false → ∀ z ∈ (bodyTree b).leaves, z.isRef = false
  | .alt l, hx => by simp only [bodyTree]; exact alt_refers l hx
  | .lead l, hx => by
    simp only [bodyTree]
    intro z hz
    rcases leaves_alternate z hz with h | h
    · simp [Re.leaves] at h
    · exact alt_refers l hx z h
end

theorem twins_tree {b : Body} (hfa : b.Faithful) (h : b.Twins U s s') : Twin U (bodyTree b).leaves s s' := by
  refine ⟨h.length, fun i v v' e e' => body_blind b hfa (h.alike i v v' e e'), fun ⟨z, hz, hr⟩ => h.equal ?_⟩
  cases hb : b.refers with
  | true => rfl
  | false => rw [body_refers b hb z hz] at hr; cases hr

/-! ### Characters beyond those that occur in a text -/

mutual
/-- Only characters below `k` are mentioned. -/
def CC.under (k : Nat) : CC → Bool
  | .chr c => decide (c < k)
  | .range a b => decide (a < k) && decide (b < k)
  | .enum cs => cs.all fun c => decide (c < k)
  | .set l => CC.underAll k l
  | .negSet l => CC.underAll k l
  | .negate l => CC.underAll k l
  | .prop _ => false

def CC.underAll (k : Nat) : List CC → Bool
  | [] => true
  | c :: l => c.under k && CC.underAll k l
end

theorem alpha_small {c : Nat} (h : isAlpha c = true) : Nat.xor c 32 < 128 := by
  rcases Bool.or_eq_true_iff.1 h with h | h
  · rw [xor_lower h]; simp only [isLower, Bool.and_eq_true, decide_eq_true_eq] at h; omega
  · rw [xor_upper h]; simp only [isUpper, Bool.and_eq_true, decide_eq_true_eq] at h; omega

theorem toU32_beyond {v : Int} (h : 0 ≤ v) (h' : v < 4294967296) : ((toU32 v : Nat) : Int) = v := by
  unfold toU32
  rw [Int.emod_eq_of_lt h h']
  omega

theorem eqConst_beyond {v : Int} {c : Nat} (h : (c : Int) < v) (h' : v < 4294967296) : eqConst v c = false := by
  unfold eqConst
  have := toU32_beyond (v := v) (by omega) h'
  split
  · simp only [beq_eq_false_iff_ne, ne_eq]; intro e; rw [e] at h; exact absurd h (Int.lt_irrefl _)
  · simp only [beq_eq_false_iff_ne, ne_eq]; omega

theorem leConst_beyond {v : Int} {c : Nat} (h : (c : Int) < v) (h' : v < 4294967296) : leConst v c = false := by
  unfold leConst
  have := toU32_beyond (v := v) (by omega) h'
  split
  · simp only [decide_eq_false_iff_not]; intro e; exact absurd (Int.lt_of_lt_of_le h e) (Int.lt_irrefl _)
  · simp only [decide_eq_false_iff_not]; omega

theorem matchCharacter_beyond {k c : Nat} {v : Int} (hk : 128 ≤ k) (h : (k : Int) ≤ v) (h' : v < 4294967296) (hc : c < k) (ci : Bool) :
    matchCharacter ci v c = false := by
  unfold matchCharacter
  rw [eqConst_beyond (v := v) (c := c) (by omega) h']
  cases ha : isAlpha c with
  | false => rfl
  | true =>
    have := alpha_small ha
    rw [eqConst_beyond (v := v) (by omega) h']
    cases ci <;> rfl

theorem matchRange_beyond {k a b : Nat} {v : Int} (hk : 128 ≤ k) (h : (k : Int) ≤ v) (h' : v < 4294967296) (hb : b < k) (ci : Bool) :
    matchRange ci v a b = false := by
  unfold matchRange
  rw [leConst_beyond (v := v) (c := b) (by omega) h', Bool.and_false, Bool.or_false]
  by_cases ha : isAlpha b = true
  · have := alpha_small ha
    rw [leConst_beyond (v := v) (by omega) h', Bool.and_false]
  · simp only [isAlpha, Bool.or_eq_true, not_or, Bool.not_eq_true] at ha
    simp only [ha.1, ha.2, Bool.and_false, Bool.or_false, Bool.false_and]

mutual
theorem under_match {k : Nat} {v v' : Int} (hk : 128 ≤ k) (h : (k : Int) ≤ v) (h' : v < 4294967296) (g : (k : Int) ≤ v') (g' : v' < 4294967296)
    (ci : Bool) : ∀ (c : CC), c.under k = true → c.matchChar U ci v = c.matchChar U ci v'
  | .chr c, hc => by
    simp only [CC.under, decide_eq_true_eq] at hc
    simp only [CC.matchChar, matchCharacter_beyond hk h h' hc, matchCharacter_beyond hk g g' hc]
  | .range a b, hc => by
    simp only [CC.under, Bool.and_eq_true, decide_eq_true_eq] at hc
    simp only [CC.matchChar, matchRange_beyond hk h h' hc.2, matchRange_beyond hk g g' hc.2]
  | .enum cs, hc => by
    simp only [CC.under, List.all_eq_true, decide_eq_true_eq] at hc
    simp only [CC.matchChar]
    rw [Bool.eq_iff_iff, List.any_eq_true, List.any_eq_true]
    refine exists_congr fun c => and_congr_right fun hm => ?_
    rw [matchCharacter_beyond hk h h' (hc c hm), matchCharacter_beyond hk g g' (hc c hm)]
  | .set l, hc | .negSet l, hc | .negate l, hc => by
    simp only [CC.matchChar, underAll_match hk h h' g g' ci l hc]
  | .prop _, hc => by cases hc

theorem underAll_match {k : Nat} {v v' : Int} (hk : 128 ≤ k) (h : (k : Int) ≤ v) (h' : v < 4294967296) (g : (k : Int) ≤ v')
    (g' : v' < 4294967296) (ci : Bool) : ∀ (l : List CC), CC.underAll k l = true → CC.matchAny U ci v l = CC.matchAny U ci v' l
  | [], _ => rfl
  | c :: l, hc => by
    simp only [CC.underAll, Bool.and_eq_true] at hc
    simp only [CC.matchAny, under_match hk h h' g g' ci c hc.1, underAll_match hk h h' g g' ci l hc.2]
end

theorem under_mono {k : Nat} (hk : 128 ≤ k) {c : CC} (h : c.under 128 = true) : c.under k = true := by
  have one : ∀ c : CC, c.under 128 = true → c.under k = true := fun c h => CC.rec (motive_1 := fun c => c.under 128 = true → c.under k = true)
    (motive_2 := fun l => CC.underAll 128 l = true → CC.underAll k l = true)
    (fun c h => by simp only [CC.under, decide_eq_true_eq] at h ⊢; omega)
    (fun a b h => by simp only [CC.under, Bool.and_eq_true, decide_eq_true_eq] at h ⊢; omega)
    (fun cs h => by
      simp only [CC.under, List.all_eq_true, decide_eq_true_eq] at h ⊢
      intro c hc; have := h c hc; omega)
    (fun l ih h => ih h) (fun l ih h => ih h) (fun l ih h => ih h) (fun p h => by cases h) (fun _ => rfl)
    (fun c l i1 i2 h => by
      simp only [CC.underAll, Bool.and_eq_true] at h ⊢
      exact ⟨i1 h.1, i2 h.2⟩) c h
  exact one c h

section
variable {k : Nat} {v v' : Int}

theorem letter_beneath (hk : 128 ≤ k) {l : Nat} (h : (Cls.letter l).beneath k = true) : (letterClass l).under k = true := by
  simp only [Cls.beneath] at h
  unfold letterClass
  by_cases h1 : l = 104 ∨ l = 72 ∨ l = 118 ∨ l = 86
  · rw [if_pos h1, decide_eq_true_eq] at h
    repeat' split
    all_goals first
      | (simp only [horizontalSpaceChars, verticalSpaceChars, CC.under, List.all_eq_true, decide_eq_true_eq, List.mem_cons, List.not_mem_nil, or_false]
         intro c hc; omega)
      | omega
  · repeat' split
    all_goals first
      | (exact under_mono hk rfl)
      | omega

theorem cls_beneath (hk : 128 ≤ k) (h : (k : Int) ≤ v) (h' : v < 4294967296) (g : (k : Int) ≤ v') (g' : v' < 4294967296) {c : Cls}
    (hc : c.beneath k = true) (ci : Bool) : c.has U ci v ↔ c.has U ci v' := by
  cases c with
  | letter l =>
    simp only [Cls.has]
    rw [under_match hk h h' g g' ci _ (letter_beneath hk hc)]
  | prop => cases hc

theorem item_beneath (hk : 128 ≤ k) (h : (k : Int) ≤ v) (h' : v < 4294967296) (g : (k : Int) ≤ v') (g' : v' < 4294967296) {i : SetItem}
    (hc : i.beneath k = true) (ci : Bool) : i.has U ci v ↔ i.has U ci v' := by
  cases i with
  | one c =>
    simp only [SetItem.has]
    rw [under_match (U := U) hk h h' g g' ci (.chr c.code) hc]
  | range a b =>
    simp only [SetItem.has]
    rw [under_match (U := U) hk h h' g g' ci (.range a.code b.code) hc]
  | cls c => exact cls_beneath hk h h' g g' hc ci
  | posix neg n =>
    simp only [SetItem.has]
    rw [under_match (U := U) hk h h' g g' ci n.cls (under_mono hk (by cases n <;> rfl))]

theorem newline_beyond (hk : 128 ≤ k) (h : (k : Int) ≤ v) (g : (k : Int) ≤ v') : v = 10 ↔ v' = 10 := by omega

mutual
theorem atom_beneath (hk : 128 ≤ k) (h : (k : Int) ≤ v) (h' : v < 4294967296) (g : (k : Int) ≤ v') (g' : v' < 4294967296) :
    ∀ (a : Atom), a.beneath k = true → a.Blind U v v'
  | .ch c, hc => fun ci => under_match hk h h' g g' ci (.chr c.code) hc
  | .cls c, hc => fun ci => cls_beneath hk h h' g g' hc ci
  | .set neg l, hc => fun ci => by
    simp only [Atom.beneath, List.all_eq_true] at hc
    exact exists_congr fun i => and_congr_right fun hi => item_beneath hk h h' g g' (hc i hi) ci
  | .dot, _ | .bol, _ | .eol, _ | .subjectEndLine, _ => by
    simp only [Atom.Blind]
    exact newline_beyond hk h g
  | .wordBoundary, _ | .notWordBoundary, _ => fun ci => under_match hk h h' g g' ci wordChars (under_mono hk rfl)
  | .unknown _ _, _ | .subjectBegin, _ | .subjectEnd, _ | .mode _, _
  | .ref _, _ | .refNumber _, _ | .refRelative _ _, _ | .refName _, _ => by simp [Atom.Blind]
  | .cap _ b, hc | .named _ _ b, hc | .ahead _ b, hc | .atomic b, hc | .behind _ b, hc | .group b, hc => by
    simp only [Atom.Blind]
    exact body_beneath hk h h' g g' b hc

theorem cat_beneath (hk : 128 ≤ k) (h : (k : Int) ≤ v) (h' : v < 4294967296) (g : (k : Int) ≤ v') (g' : v' < 4294967296) :
    ∀ (c : Cat), c.beneath k = true → c.Blind U v v'
  | .one a q, hc => by simp only [Cat.Blind]; exact atom_beneath hk h h' g g' a hc
  | .cons a q l, hc => by
    simp only [Cat.beneath, Bool.and_eq_true] at hc
    exact ⟨atom_beneath hk h h' g g' a hc.1, cat_beneath hk h h' g g' l hc.2⟩

theorem alt_beneath (hk : 128 ≤ k) (h : (k : Int) ≤ v) (h' : v < 4294967296) (g : (k : Int) ≤ v') (g' : v' < 4294967296) :
    ∀ (l : Alt), l.beneath k = true → l.Blind U v v'
  | .empty, _ => by simp only [Alt.Blind]
  | .one c, hc => by simp only [Alt.Blind]; exact cat_beneath hk h h' g g' c hc
  | .bar c l, hc => by
    simp only [Alt.beneath, Bool.and_eq_true] at hc
    exact ⟨cat_beneath hk h h' g g' c hc.1, alt_beneath hk h h' g g' l hc.2⟩

theorem body_beneath (hk : 128 ≤ k) (h : (k : Int) ≤ v) (h' : v < 4294967296) (g : (k : Int) ≤ v') (g' : v' < 4294967296) :
    ∀ (b : Body), b.beneath k = true → b.Blind U v v'
  | .alt l, hc | .lead l, hc => by simp only [Body.Blind]; exact alt_beneath hk h h' g g' l hc
end
end

end Ctre
