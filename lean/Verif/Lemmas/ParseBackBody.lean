import Verif.Lemmas.ParseBack
import Verif.Lemmas.SurfaceSem
import Verif.Spec.Accepted

/-
What an accepted text looks like: atoms, concatenations and alternatives.
-/
namespace Ctre.Parse
open Surface

theorem unusual_append {t : List Nat} (u : List Nat) (h : Unusual t) : Unusual (u ++ t) := by
  rcases h with ⟨a, b, x, y, h1, h2, rfl⟩ | ⟨a, b, rfl⟩
  · exact .inl ⟨u ++ a, b, x, y, h1, h2, by simp⟩
  · exact .inr ⟨u ++ a, b, by simp⟩

theorem unusual_cons {t : List Nat} (v : Nat) (h : Unusual t) : Unusual (v :: t) := unusual_append [v] h

/-! ### Reversal is not defined for trees with modes -/

theorem rot_combine_back {k : RepKind} {a b c d : Nat} {l : List Re} (h : Rot (combineRepeat k a b c d l)) : ∀ r ∈ l, Rot r := by
  unfold combineRepeat at h
  split at h
  · exact rot_rep.1 h
  · exact rot_rep.1 h
  · split at h
    · have := rot_seq.1 h
      simp only [List.mem_cons, forall_eq_or_imp] at this
      exact this.2
    · repeat' split at h
      all_goals exact rot_rep.1 h

theorem rot_makeSequence_back {b a : Re} (h : Rot (makeSequence b a)) : Rot b ∧ Rot a := by
  unfold makeSequence at h
  split at h
  · exact ⟨rot_cc, rot_cc⟩
  · exact ⟨rot_str, rot_cc⟩
  · simp only [rot_seq, List.mem_cons, forall_eq_or_imp] at h ⊢; exact ⟨⟨rot_cc, h.2⟩, rot_cc⟩
  · simp only [rot_seq, List.mem_cons, forall_eq_or_imp] at h ⊢; exact ⟨⟨rot_str, h.2⟩, rot_cc⟩
  · split at h
    · rename_i hk
      rw [← Re.sameList_eq hk.2]
      exact ⟨rot_rep.2 (rot_combine_back h), rot_rep.2 (rot_combine_back h)⟩
    · simp only [rot_seq, List.mem_cons, forall_eq_or_imp] at h; exact ⟨h.2.1, h.1⟩
  · split at h
    · rename_i hk
      simp only [rot_seq, List.mem_cons, forall_eq_or_imp] at h ⊢
      rw [← Re.sameList_eq hk.2]
      exact ⟨⟨rot_rep.2 (rot_combine_back h.1), h.2⟩, rot_rep.2 (rot_combine_back h.1)⟩
    · simp only [rot_seq, List.mem_cons, forall_eq_or_imp] at h ⊢; exact ⟨h.2, h.1⟩
  · simp only [rot_seq, List.mem_cons, forall_eq_or_imp] at h ⊢; exact ⟨h.2, h.1⟩
  · simp only [rot_seq, List.mem_cons, forall_eq_or_imp] at h; exact ⟨h.2.1, h.1⟩

theorem rot_makeAlternate_back {b a : Re} (h : Rot (makeAlternate b a)) : Rot b ∧ Rot a := by
  unfold makeAlternate at h
  split at h
  · simp only [rot_sel, List.mem_cons, forall_eq_or_imp] at h ⊢; exact ⟨h.2, h.1⟩
  · simp only [rot_sel, List.mem_cons, forall_eq_or_imp] at h; exact ⟨h.2.1, h.1⟩

theorem rot_unpack_back {r : Re} (h : ∀ x ∈ unpack r, Rot x) : Rot r := by
  unfold unpack at h
  split at h
  · exact rot_seq.2 h
  · simpa using h

theorem rot_makeOptional_back {r : Re} (h : Rot (makeOptional r)) : Rot r := by
  unfold makeOptional at h
  split at h
  · exact rot_seq.2 (rot_rep.1 h)
  · exact h
  · exact h
  · simpa using rot_rep.1 h

theorem rot_kind_back {k : RepKind} {r : Re} (h : Rot (kindTree k r)) : Rot r := by
  unfold kindTree at h
  split at h
  · exact rot_rep.2 (rot_rep.1 h)
  · exact rot_rep.2 (rot_rep.1 h)
  · exact h

theorem rot_quant_back {q : Quant} {r : Re} (h : Rot (quantTree q r)) : Rot r := by
  cases q
  · exact h
  · exact rot_makeOptional_back (rot_kind_back h)
  all_goals first
    | exact rot_unpack_back (rot_rep.1 (rot_kind_back h))
    | exact rot_unpack_back (rot_rep.1 h)

mutual
theorem rot_atom_back : ∀ (a : Atom), Rot (atomTree a) → a.hasMode = false
  | .cap _ b, h => by simp only [atomTree] at h; exact rot_body_back b (rot_unpack_back (rot_cap.1 h))
  | .named _ _ b, h => by simp only [atomTree] at h; exact rot_body_back b (rot_unpack_back (rot_cap.1 h))
  | .group b, h => by simp only [atomTree] at h; exact rot_body_back b h
  | .atomic b, h => by simp only [atomTree] at h; exact rot_body_back b (rot_unpack_back (rot_atomic.1 h))
  | .mode _, h => by simp [atomTree, Rot, Re.rotate] at h
  | .unknown _ _, h => by simp [atomTree, Rot, Re.rotate] at h
  | .ch _, _ | .cls _, _ | .set _ _, _ | .dot, _ | .bol, _ | .eol, _ | .subjectBegin, _ | .subjectEnd, _
  | .subjectEndLine, _ | .wordBoundary, _ | .notWordBoundary, _ | .ref _, _ | .refNumber _, _ | .refRelative _ _, _
  | .refName _, _ | .ahead _ _, _ | .behind _ _, _ => rfl

theorem rot_cat_back : ∀ (c : Cat), Rot (catTree c) → c.hasMode = false
  | .one a q, h => by simp only [catTree] at h; exact rot_atom_back a (rot_quant_back h)
  | .cons a q l, h => by
    simp only [catTree] at h
    simp only [Cat.hasMode, Bool.or_eq_false_iff]
    exact ⟨rot_atom_back a (rot_quant_back (rot_makeSequence_back h).2), rot_cat_back l (rot_makeSequence_back h).1⟩

theorem rot_alt_back : ∀ (l : Alt), Rot (altTree l) → l.hasMode = false
  | .empty, _ => rfl
  | .one c, h => by simp only [altTree] at h; exact rot_cat_back c h
  | .bar c l, h => by
    simp only [altTree] at h
    simp only [Alt.hasMode, Bool.or_eq_false_iff]
    exact ⟨rot_cat_back c (rot_makeAlternate_back h).2, rot_alt_back l (rot_makeAlternate_back h).1⟩

theorem rot_body_back : ∀ (b : Body), Rot (bodyTree b) → b.hasMode = false
  | .alt l, h => by simp only [bodyTree] at h; exact rot_alt_back l h
  | .lead l, h => by simp only [bodyTree] at h; exact rot_alt_back l (rot_makeAlternate_back h).1
end

/-! ### The stack after a piece -/

/-- Usually the tree of the piece is on top of the stack.  A `\g{name}` at the beginning of a named group takes the
unfinished name away instead. -/
def Rel (leads : Bool) (stk : List PItem) (tree r : Re) (stk' : List PItem) : Prop :=
  (stk' = stk ∧ r = tree ∧ Clean leads stk) ∨ (leads = true ∧ ∃ s, stk = .name s :: stk')

theorem Rel.clean {stk stk' : List PItem} {tree r : Re} {leads : Bool} (h : Rel leads stk tree r stk') (hs : Clean true stk) :
    stk' = stk ∧ r = tree := by
  rcases h with ⟨h1, h2, _⟩ | ⟨_, s, rfl⟩
  · exact ⟨h1, h2⟩
  · simp [Clean] at hs

variable {P : PropTable}

def AtomBack (P : PropTable) (n : Nat) : Prop := ∀ ⦃i : List Nat⦄ ⦃st : List Sym⦄ ⦃stk : List PItem⦄ ⦃k v : Nat⦄,
  (v :: i).length ≤ n → Clean false stk → v ∉ noItem → Acc P (v :: i) (itemHead v ++ st) ⟨stk, k⟩ →
  Unusual (v :: i) ∨ ∃ a rest r stk', Atom.WF P.find k a ∧ v :: i = a.print ++ rest ∧ Rel a.leadsName stk (atomTree a) r stk' ∧
    Acc P rest st ⟨.re r :: stk', k + a.groups⟩

def CatBack (P : PropTable) (n : Nat) : Prop := ∀ ⦃i : List Nat⦄ ⦃st : List Sym⦄ ⦃stk : List PItem⦄ ⦃k v : Nat⦄ ⦃x : NT⦄ ⦃tl : List Sym⦄,
  (v :: i).length ≤ n → entryTail x = some tl → Clean false stk → v ∉ noItem → Acc P (v :: i) (.nt x :: st) ⟨stk, k⟩ →
  Unusual (v :: i) ∨ ∃ c rest r stk', Cat.WF P.find k c ∧ v :: i = c.print ++ rest ∧ Rel c.leadsName stk (catTree c) r stk' ∧
    Acc P rest (tl ++ st) ⟨.re r :: stk', k + c.groups⟩ ∧ atEnd rest

def AltBack (P : PropTable) (n : Nat) : Prop := ∀ ⦃i : List Nat⦄ ⦃st : List Sym⦄ ⦃stk : List PItem⦄ ⦃k v : Nat⦄ ⦃x : NT⦄ ⦃tl : List Sym⦄,
  (v :: i).length ≤ n → entryTail x = some (.nt .content2 :: tl) → Clean false stk → v ∉ noItem →
  Acc P (v :: i) (.nt x :: st) ⟨stk, k⟩ →
  Unusual (v :: i) ∨ ∃ l rest r stk', Alt.WF P.find k l ∧ v :: i = l.print ++ rest ∧ Rel l.leadsName stk (altTree l) r stk' ∧
    Acc P rest (tl ++ st) ⟨.re r :: stk', k + l.groups⟩

def BodyBack (P : PropTable) (n : Nat) : Prop := ∀ ⦃i : List Nat⦄ ⦃st : List Sym⦄ ⦃stk : List PItem⦄ ⦃k : Nat⦄,
  i.length ≤ n → Clean false stk → Acc P i (.nt .contentInCapture :: st) ⟨stk, k⟩ →
  Unusual i ∨ ∃ b rest r stk', Body.WF P.find k b ∧ i = b.print ++ rest ∧ Rel b.leadsName stk (bodyTree b) r stk' ∧
    Acc P rest st ⟨.re r :: stk', k + b.groups⟩

/-- The rule for the first character is not `reject`. -/
theorem Acc.rule_ne {i : List Nat} {st : List Sym} {c : Ctx} {x : NT} (h : Acc P i (.nt x :: st) c) : rule x i.head? ≠ .reject := by
  obtain ⟨p, r, h1, h2, h3⟩ := h.rules
  rw [rule_of_mem h1 h2]
  rintro rfl
  rcases h3 with ⟨_, h, _⟩ | ⟨h, _⟩ <;> cases h

theorem mem_noItem {v : Nat} : v ∈ noItem ↔ v = 41 ∨ v = 42 ∨ v = 43 ∨ v = 63 ∨ v = 123 ∨ v = 124 ∨ v = 125 := by
  simp [noItem]

theorem altBack_of {n : Nat} (hc : CatBack P (n + 1)) (ha : AltBack P n) : AltBack P (n + 1) := by
  intro i st stk k v x tl hn hx hs hv h
  rcases hc hn hx hs hv h with h | ⟨c, rest, r, stk', hw, e, hrel, h1, hend⟩
  · exact .inl h
  have h2 : Acc P rest (.nt .content2 :: (tl ++ st)) ⟨.re r :: stk', k + c.groups⟩ := h1
  rcases hend with rfl | h41 | h124
  · exact .inr ⟨.one c, [], r, stk', hw, e, by simpa only [Alt.leadsName, altTree] using hrel, h2.eps rfl⟩
  · exact .inr ⟨.one c, rest, r, stk', hw, e, by simpa only [Alt.leadsName, altTree] using hrel, h2.eps (by rw [h41]; rfl)⟩
  · obtain ⟨rest', rfl⟩ := head_some h124
    have h3 : Acc P rest' (.nt .a :: (tl ++ st)) ⟨.re r :: stk', k + c.groups⟩ :=
      Run.any.acc (h2.push (l := [.any, .nt .a]) rfl)
    have hrel' : ∀ l : Alt, Rel (Alt.bar c l).leadsName stk (altTree (.bar c l)) (makeAlternate (altTree l) r) stk' := by
      intro l
      simp only [Alt.leadsName, altTree]
      rcases hrel with ⟨e1, rfl, e3⟩ | hn
      · exact .inl ⟨e1, rfl, e3⟩
      · exact .inr hn
    have hempty : (rest' = [] ∨ rest'.head? = some 41) →
        ∃ l rest r stk', Alt.WF P.find k l ∧ v :: i = l.print ++ rest ∧ Rel l.leadsName stk (altTree l) r stk' ∧
        Acc P rest (tl ++ st) ⟨.re r :: stk', k + l.groups⟩ := by
      intro hr
      have h4 := h3.push (l := [.act .pushEmpty, .act .makeAlternate]) (by
        rcases hr with rfl | hr
        · rfl
        · rw [hr]; rfl)
      refine ⟨.bar c .empty, rest', _, stk', ⟨hw, trivial⟩, by rw [e]; simp [Alt.print], hrel' .empty, ?_⟩
      exact (Run.act fun _ => rfl).acc ((Run.act fun _ => rfl).acc h4)
    cases rest' with
    | nil => exact .inr (hempty (.inl rfl))
    | cons w u =>
      by_cases hw' : w ∈ noItem
      · by_cases h41 : w = 41
        · exact .inr (hempty (.inr (by rw [h41]; rfl)))
        · refine (h3.rule_ne ?_).elim
          rcases mem_noItem.1 hw' with rfl | rfl | rfl | rfl | rfl | rfl | rfl
          · exact (h41 rfl).elim
          all_goals rfl
      · have hlen : (w :: u).length ≤ n := by
          have hl := congrArg List.length e
          simp only [List.length_cons, List.length_append] at hl hn ⊢
          have : 0 < c.print.length := by
            obtain ⟨_, _, hp, _⟩ := cat_begins hw
            rw [hp]; simp
          omega
        rcases ha hlen rfl (by simp [Clean]) hw' h3 with h | ⟨l, rest, r2, stk2, hw2, e2, hrel2, h4⟩
        · left
          rw [e]
          exact unusual_append _ (unusual_cons _ h)
        · right
          obtain ⟨rfl, rfl⟩ := hrel2.clean (by simp [Clean])
          refine ⟨.bar c l, rest, _, stk', ⟨hw, hw2⟩, by rw [e, e2]; simp [Alt.print], hrel' l, ?_⟩
          simp only [Alt.groups, ← Nat.add_assoc]
          exact (Run.act fun _ => rfl).acc h4

theorem catBack_of {n : Nat} (hat : AtomBack P (n + 1)) (hc : CatBack P n) : CatBack P (n + 1) := by
  intro i st stk k v x tl hn hx hs hv h
  have h0 := h.push (entry_rule hx hv)
  simp only [List.append_assoc, List.cons_append, List.nil_append] at h0
  rcases hat hn hs hv h0 with h | ⟨a, rest, r, stk', hw, e, hrel, h1⟩
  · exact .inl h
  obtain ⟨q, rest', hq, rfl, hopt, h2⟩ := quant_back h1
  by_cases hpos : q = .opt .poss ∧ a.lazyOnly = true
  · left
    obtain ⟨rfl, hlazy⟩ := hpos
    cases a <;> simp only [Atom.lazyOnly, Bool.false_eq_true] at hlazy
    rename_i b
    refine .inr ⟨[40, 63, 58] ++ b.print, rest', ?_⟩
    rw [e]
    simp [Atom.print, Quant.print, printKind]
  have hq' : q = .opt .poss → a.lazyOnly = false := by
    intro hq
    cases hl : a.lazyOnly with
    | false => rfl
    | true => exact (hpos ⟨hq, hl⟩).elim
  have hrel1 : ∀ (f : Re → Re), Rel a.leadsName stk (f (quantTree q (atomTree a))) (f (quantTree q r)) stk' := by
    intro f
    rcases hrel with ⟨e1, rfl, e3⟩ | hn
    · exact .inl ⟨e1, rfl, e3⟩
    · exact .inr hn
  have hone : atEnd rest' → ∃ c rest r stk', Cat.WF P.find k c ∧ v :: i = c.print ++ rest ∧ Rel c.leadsName stk (catTree c) r stk' ∧
      Acc P rest (tl ++ st) ⟨.re r :: stk', k + c.groups⟩ ∧ atEnd rest := by
    intro hr
    exact ⟨.one a q, rest', _, stk', ⟨hw, hq, hq'⟩, by rw [e]; simp [Cat.print], hrel1 id, h2.eps (string2_eps hr), hr⟩
  cases rest' with
  | nil => exact .inr (hone (.inl rfl))
  | cons w u =>
    by_cases hw' : w ∈ noItem
    · rcases mem_noItem.1 hw' with rfl | rfl | rfl | rfl | rfl | rfl | rfl
      · exact .inr (hone (.inr (.inl rfl)))
      · exact (h2.rule_ne rfl).elim
      · exact (h2.rule_ne rfl).elim
      · exact (h2.rule_ne rfl).elim
      · exact (h2.rule_ne rfl).elim
      · exact .inr (hone (.inr (.inr rfl)))
      · exact (h2.rule_ne rfl).elim
    · have hlen : (w :: u).length ≤ n := by
        have hl := congrArg List.length e
        simp only [List.length_cons, List.length_append] at hl hn ⊢
        have : 0 < a.print.length := by
          obtain ⟨_, _, hp, _⟩ := atom_begins hw
          rw [hp]; simp
        omega
      rcases hc hlen rfl (by simp [Clean]) hw' h2 with h | ⟨l, rest, r2, stk2, hw2, e2, hrel2, h4, hend⟩
      · left
        rw [e]
        exact unusual_append _ (unusual_append _ h)
      · right
        obtain ⟨rfl, rfl⟩ := hrel2.clean (by simp [Clean])
        refine ⟨.cons a q l, rest, _, stk', ⟨hw, hq, hq', hw2⟩, by rw [e, e2]; simp [Cat.print], hrel1 (makeSequence (catTree l)), ?_, hend⟩
        simp only [Cat.groups, ← Nat.add_assoc]
        exact (Run.act fun _ => rfl).acc h4

/-- After a `|` at the beginning of a group, and other places where the alternatives may be empty. -/
theorem lead_of {n : Nat} (ha : AltBack P n) {i : List Nat} {st : List Sym} {stk : List PItem} {k : Nat} {x : NT}
    (hx : x = .contentOrEmpty ∨ x = .optContent) (hn : i.length ≤ n) (h : Acc P i (.nt x :: st) ⟨.re .empty :: stk, k⟩) :
    Unusual i ∨ ∃ l rest, Alt.WF P.find k l ∧ i = l.print ++ rest ∧ Acc P rest st ⟨.re (altTree l) :: .re .empty :: stk, k + l.groups⟩ := by
  have hempty : rule x i.head? = .push [.act .pushEmpty] → ∃ l rest, Alt.WF P.find k l ∧ i = l.print ++ rest ∧
      Acc P rest st ⟨.re (altTree l) :: .re .empty :: stk, k + l.groups⟩ := by
    intro hr
    exact ⟨.empty, i, trivial, rfl, (Run.act fun _ => rfl).acc (h.push hr)⟩
  cases i with
  | nil =>
    rcases hx with rfl | rfl
    · exact (h.rule_ne rfl).elim
    · exact .inr (hempty rfl)
  | cons w u =>
    by_cases hw' : w ∈ noItem
    · rcases hx with rfl | rfl <;> rcases mem_noItem.1 hw' with rfl | rfl | rfl | rfl | rfl | rfl | rfl <;>
        first
          | exact .inr (hempty rfl)
          | exact (h.rule_ne rfl).elim
    · have : entryTail x = some [.nt .content2] := by rcases hx with rfl | rfl <;> rfl
      rcases ha hn this (by simp [Clean]) hw' h with h | ⟨l, rest, r2, stk2, hw2, e2, hrel2, h4⟩
      · exact .inl h
      · obtain ⟨rfl, rfl⟩ := hrel2.clean (by simp [Clean])
        exact .inr ⟨l, rest, hw2, e2, h4⟩

theorem bodyBack_of {n : Nat} (ha : AltBack P n) : BodyBack P n := by
  intro i st stk k hn hs h
  cases i with
  | nil => exact (h.rule_ne rfl).elim
  | cons w u =>
    by_cases hw' : w ∈ noItem
    · rcases mem_noItem.1 hw' with rfl | rfl | rfl | rfl | rfl | rfl | rfl
      · exact .inr ⟨.alt .empty, 41 :: u, _, stk, trivial, rfl, .inl ⟨rfl, rfl, hs⟩, (Run.act fun _ => rfl).acc (h.push rfl)⟩
      · exact (h.rule_ne rfl).elim
      · exact (h.rule_ne rfl).elim
      · exact (h.rule_ne rfl).elim
      · exact (h.rule_ne rfl).elim
      · have h1 := (Run.act fun _ => rfl).acc (Run.any.acc (h.push (l := [.any, .act .pushEmpty, .nt .contentOrEmpty, .act .makeAlternate]) rfl))
        rcases lead_of ha (.inl rfl) (by simp at hn; omega) h1 with h | ⟨l, rest, hw, rfl, h2⟩
        · exact .inl (unusual_cons _ h)
        · exact .inr ⟨.lead l, rest, _, stk, hw, rfl, .inl ⟨rfl, rfl, hs⟩, (Run.act fun _ => rfl).acc h2⟩
      · exact (h.rule_ne rfl).elim
    · rcases ha hn rfl hs hw' h with h | ⟨l, rest, r2, stk2, hw2, e2, hrel2, h4⟩
      · exact .inl h
      · exact .inr ⟨.alt l, rest, r2, stk2, hw2, e2, by simpa only [Body.leadsName, bodyTree] using hrel2, h4⟩

/-! ### Atoms -/

/-- The conclusion for atoms. -/
def AtomAt (P : PropTable) (t : List Nat) (st : List Sym) (stk : List PItem) (k : Nat) : Prop :=
  Unusual t ∨ ∃ a rest r stk', Atom.WF P.find k a ∧ t = a.print ++ rest ∧ Rel a.leadsName stk (atomTree a) r stk' ∧
    Acc P rest st ⟨.re r :: stk', k + a.groups⟩

theorem atomAt_of {v k : Nat} {i rest : List Nat} {st : List Sym} {stk : List PItem} (a : Atom) (hw : Atom.WF P.find k a)
    (hs : Clean a.leadsName stk) (e : v :: i = a.print ++ rest) (h : Acc P (v :: i) (itemHead v ++ st) ⟨stk, k⟩) :
    AtomAt P (v :: i) st stk k := by
  obtain ⟨w, u, hp, hr⟩ := atom_run a (rest := rest) (st := st) (stk := stk) hw hs
  refine .inr ⟨a, rest, _, stk, hw, e, .inl ⟨rfl, rfl, hs⟩, hr.acc ?_⟩
  rw [hp] at e
  simp only [List.cons_append, List.cons.injEq] at e
  obtain ⟨rfl, rfl⟩ := e
  exact h

theorem clean_name {stk : List PItem} (hs : Clean false stk) (h : ¬ Clean true stk) : ∃ s stk', stk = .name s :: stk' := by
  cases stk with
  | nil => simp [Clean] at h
  | cons x l =>
    cases x <;> simp [Clean] at h hs
    exact ⟨_, _, rfl⟩

theorem ref_back {i : List Nat} {k : Nat} {st : List Sym} {stk : List PItem} (hs : Clean false stk)
    (h0 : Acc P (92 :: 103 :: i) (itemHead 92 ++ st) ⟨stk, k⟩) (h : Acc P i (.term 123 :: .nt .m :: st) ⟨stk, k⟩) :
    AtomAt P (92 :: 103 :: i) st stk k := by
  obtain ⟨i, rfl, h'⟩ := h.term
  obtain ⟨p, r, h1, h2, h3⟩ := h'.rules
  simp only [Parse.rules, rules_m, List.mem_cons, List.not_mem_nil, or_false, Prod.mk.injEq] at h1
  rcases h1 with ⟨rfl, rfl⟩ | ⟨rfl, rfl⟩ | ⟨rfl, rfl⟩
  all_goals
    simp only [Rhs.push.injEq, reduceCtorEq, false_and, or_false] at h3
    obtain ⟨l, rfl, h3⟩ := h3
  · obtain ⟨d, i, c1, rfl, h4, h5⟩ := Acc.anyAct h3
    have hd : isDec d := mem_chars14.1 h2
    obtain ⟨ds, rest, rfl, hds, hr⟩ := number2_back h5
    have hc : c1 = ⟨.num (d - 48) :: stk, k⟩ := by
      simp only [applyTerm, Ctx.push, ARes.ok.injEq] at h4
      exact h4.symm
    subst hc
    have h6 := (number2_run hr hds).acc h5
    obtain ⟨rest, rfl, h7⟩ := h6.term
    obtain ⟨w, c2, h8, h9⟩ := h7.act
    have hlt : decimal (d :: ds) % 2 ^ 64 ≤ k := by
      rw [decimal_cons_mod hd] at h8
      simp only [applyTerm] at h8
      split at h8
      · cases h8
      · simp only [szMod] at *; omega
    refine atomAt_of (.refNumber (d :: ds)) ⟨⟨by simp, List.forall_mem_cons.2 ⟨hd, hds⟩⟩, hlt⟩ hs (rest := rest) ?_ h0
    simp [Atom.print]
  · obtain ⟨i, rfl⟩ := head_some (accepts_term h2)
    have h4 := Run.any.acc h3
    obtain ⟨ds, rest, rfl, hds, hr⟩ := number_back h4
    have h6 := (number_run hr hds).acc h4
    obtain ⟨rest, rfl, h7⟩ := h6.term
    obtain ⟨w, c2, h8, h9⟩ := h7.act
    have hlt : decimal ds % 2 ^ 64 ≤ k := by
      simp only [applyTerm] at h8
      split at h8
      · cases h8
      · simp only [szMod] at *; omega
    refine atomAt_of (.refRelative ds (k + 1 - decimal ds % 2 ^ 64)) ⟨hds, hlt, rfl⟩ hs (rest := rest) ?_ h0
    simp [Atom.print]
  · obtain ⟨d, i, c1, rfl, h4, h5⟩ := Acc.anyAct h3
    have hd : isNameStart d := mem_chars7.1 h2
    obtain ⟨ds, rest, rfl, hds, hr⟩ := blockName2_back h5
    have hw : Atom.WF P.find k (.refName (d :: ds)) := ⟨d, ds, rfl, hd, hds⟩
    by_cases hc : Clean true stk
    · rw [pushName_clean hc] at h4
      simp only [ARes.ok.injEq] at h4
      subst h4
      have h6 := (blockName2_run hr hds).acc h5
      obtain ⟨rest, rfl, h7⟩ := h6.term
      refine atomAt_of (.refName (d :: ds)) hw hc (rest := rest) ?_ h0
      simp [Atom.print]
    · obtain ⟨s, stk', rfl⟩ := clean_name hs hc
      simp only [applyTerm, Ctx.setStack, ARes.ok.injEq] at h4
      subst h4
      have h6 := (blockName2_run hr hds).acc h5
      obtain ⟨rest, rfl, h7⟩ := h6.term
      refine .inr ⟨.refName (d :: ds), rest, .brefName (s ++ [d] ++ ds), stk', hw, by simp [Atom.print], .inr ⟨rfl, s, rfl⟩, ?_⟩
      exact (Run.act fun _ => rfl).acc h7

theorem mode_back {x : Nat} {i : List Nat} {c : Ctx} {st : List Sym} (h : Acc P i (.nt .modeSwitch2 :: st) c) :
    i.head? = some 41 ∨ ∃ y i', y ∈ modeLetters ∧ i = y :: i' := by
  obtain ⟨p, r, h1, h2, h3⟩ := h.rules
  simp only [Parse.rules, rules_modeSwitch2, List.mem_cons, List.not_mem_nil, or_false, Prod.mk.injEq] at h1
  rcases h1 with ⟨rfl, rfl⟩ | ⟨rfl, rfl⟩ | ⟨rfl, rfl⟩ | ⟨rfl, rfl⟩ | ⟨rfl, rfl⟩
  all_goals obtain ⟨i, rfl⟩ := head_some (accepts_term h2)
  · exact .inr ⟨105, i, by simp [modeLetters], rfl⟩
  · exact .inr ⟨99, i, by simp [modeLetters], rfl⟩
  · exact .inr ⟨109, i, by simp [modeLetters], rfl⟩
  · exact .inr ⟨115, i, by simp [modeLetters], rfl⟩
  · exact .inl rfl

/-- `(?i)` and the others. -/
theorem modeAt {i : List Nat} {k : Nat} {st : List Sym} {stk : List PItem} {c : Ctx} (m : Mode) (hs : Clean false stk)
    (h0 : Acc P (40 :: 63 :: modeLetter m :: i) (itemHead 40 ++ st) ⟨stk, k⟩) (h : Acc P i (.nt .modeSwitch2 :: st) c) :
    AtomAt P (40 :: 63 :: modeLetter m :: i) st stk k := by
  rcases mode_back (x := 0) h with h | ⟨y, i, hy, rfl⟩
  · obtain ⟨i, rfl⟩ := head_some h
    exact atomAt_of (.mode m) trivial hs (rest := i) rfl h0
  · exact .inl (.inl ⟨[], i, modeLetter m, y, by cases m <;> simp [modeLetter, modeLetters], hy, rfl⟩)

theorem block_back {n : Nat} (ha : AltBack P n) {i : List Nat} {k : Nat} {st : List Sym} {stk : List PItem} (hn : i.length ≤ n)
    (hs : Clean false stk) (h0 : Acc P (40 :: i) (itemHead 40 ++ st) ⟨stk, k⟩)
    (h : Acc P i (.nt .block :: st) ⟨.capId (k + 1) :: stk, k + 1⟩) : AtomAt P (40 :: i) st stk k := by
  have hb : BodyBack P n := bodyBack_of ha
  cases i with
  | nil => exact (h.rule_ne rfl).elim
  | cons w u =>
    have hu : u.length + 1 ≤ n := by simpa using hn
    by_cases hw' : w ∈ noItem
    · rcases mem_noItem.1 hw' with rfl | rfl | rfl | rfl | rfl | rfl | rfl
      · exact atomAt_of (.cap (k + 1) (.alt .empty)) ⟨rfl, trivial⟩ hs (rest := u) rfl h0
      · exact (h.rule_ne rfl).elim
      · exact (h.rule_ne rfl).elim
      · -- (?
        have h1 := Run.any.acc (h.push (l := [.any, .nt .d]) rfl)
        obtain ⟨p, r, h2, h3, h4⟩ := Acc.rules (x := .d) (st := st) h1
        simp only [Parse.rules, rules_d, List.mem_cons, List.not_mem_nil, or_false, Prod.mk.injEq] at h2
        rcases h2 with ⟨rfl, rfl⟩ | ⟨rfl, rfl⟩ | ⟨rfl, rfl⟩ | ⟨rfl, rfl⟩ | ⟨rfl, rfl⟩ | ⟨rfl, rfl⟩ | ⟨rfl, rfl⟩ | ⟨rfl, rfl⟩ | ⟨rfl, rfl⟩
        all_goals
          simp only [Rhs.push.injEq, reduceCtorEq, false_and, or_false] at h4
          obtain ⟨l, rfl, h4⟩ := h4
          obtain ⟨u, rfl⟩ := head_some (accepts_term h3)
          have hu' : u.length ≤ n := by simp at hu; omega
        · obtain ⟨_, _, _, e, _, h5⟩ := Acc.anyAct h4
          cases e
          exact modeAt .caseInsensitive hs h0 h5
        · obtain ⟨_, _, _, e, _, h5⟩ := Acc.anyAct h4
          cases e
          exact modeAt .caseSensitive hs h0 h5
        · obtain ⟨_, _, _, e, _, h5⟩ := Acc.anyAct h4
          cases e
          exact modeAt .multiline hs h0 h5
        · obtain ⟨_, _, _, e, _, h5⟩ := Acc.anyAct h4
          cases e
          exact modeAt .singleline hs h0 h5
        · -- (?<
          have h5 := Run.any.acc h4
          obtain ⟨p, r, h6, h7, h8⟩ := Acc.rules (x := .o) (st := st) h5
          simp only [Parse.rules, rules_o, List.mem_cons, List.not_mem_nil, or_false, Prod.mk.injEq] at h6
          rcases h6 with ⟨rfl, rfl⟩ | ⟨rfl, rfl⟩ | ⟨rfl, rfl⟩
          all_goals
            simp only [Rhs.push.injEq, reduceCtorEq, false_and, or_false] at h8
            obtain ⟨l, rfl, h8⟩ := h8
          · have h9 := Acc.rules (x := .blockName) (st := .term 62 :: .nt .contentInCapture :: .act .makeCaptureWithName :: .term 41 :: st) h8
            obtain ⟨p, r, h10, h11, h12⟩ := h9
            simp only [Parse.rules, rules_blockName, List.mem_cons, List.not_mem_nil, or_false, Prod.mk.injEq] at h10
            obtain ⟨rfl, rfl⟩ := h10
            simp only [Rhs.push.injEq, reduceCtorEq, false_and, or_false] at h12
            obtain ⟨l, rfl, h12⟩ := h12
            obtain ⟨d, u, c1, rfl, h13, h14⟩ := Acc.anyAct h12
            have hd : isNameStart d := mem_chars7.1 h11
            rw [pushName_clean (by simp [Clean])] at h13
            simp only [ARes.ok.injEq] at h13
            subst h13
            obtain ⟨ds, rest, rfl, hds, hr⟩ := blockName2_back h14
            have h15 := (blockName2_run hr hds).acc h14
            obtain ⟨rest, rfl, h16⟩ := h15.term
            rcases hb (by simp at hu' ⊢; omega) (by simp [Clean]) h16 with hx | ⟨b, rest, r, stk', hbw, rfl, hrel, h17⟩
            · left
              have := unusual_append (40 :: 63 :: 60 :: d :: (ds ++ [62])) hx
              simpa using this
            · obtain ⟨_, c2, h18, h19⟩ := h17.act
              have hlead : b.leadsName = false := by
                rcases hrel with ⟨_, _, hcl⟩ | ⟨_, s, e⟩
                · cases hl : b.leadsName with
                  | false => rfl
                  | true => rw [hl] at hcl; simp [Clean] at hcl
                · simp only [List.cons.injEq] at e
                  obtain ⟨_, rfl⟩ := e
                  simp [applyTerm] at h18
              obtain ⟨rest, rfl, h20⟩ := h19.term
              refine atomAt_of (.named (k + 1) (d :: ds) b) ⟨rfl, hbw, ⟨d, ds, rfl, hd, hds⟩, hlead⟩ hs (rest := rest) ?_ h0
              simp [Atom.print]
          all_goals
            obtain ⟨u, rfl⟩ := head_some (accepts_term h7)
            have h9 := (Run.act fun _ => rfl).acc ((Run.act fun _ => rfl).acc (Run.any.acc h8))
            rcases hb (by simp at hu'; omega) (by simp [Clean]) h9 with hx | ⟨b, rest, r, stk', hbw, rfl, hrel, h10⟩
            · exact .inl (unusual_cons _ (unusual_cons _ (unusual_cons _ (unusual_cons _ hx))))
            obtain ⟨rfl, rfl⟩ := hrel.clean (by simp [Clean])
            obtain ⟨_, c2, h11, h12⟩ := h10.act
            have hrot : Rot (bodyTree b) := by
              apply rot_unpack_back
              rw [← rotateList_iff]
              intro e
              simp [applyTerm, e] at h11
            obtain ⟨rest, rfl, h13⟩ := h12.term
          · refine atomAt_of (.behind false b) ⟨hbw, rot_body_back b hrot⟩ hs (rest := rest) ?_ h0
            simp [Atom.print]
          · refine atomAt_of (.behind true b) ⟨hbw, rot_body_back b hrot⟩ hs (rest := rest) ?_ h0
            simp [Atom.print]
        · have h5 := (Run.act (c' := ⟨stk, k⟩) fun _ => rfl).acc (Run.any.acc h4)
          rcases hb hu' hs h5 with hx | ⟨b, rest, r, stk', hbw, rfl, hrel, h6⟩
          · exact .inl (unusual_cons _ (unusual_cons _ (unusual_cons _ hx)))
          obtain ⟨rest, rfl, h7⟩ := h6.term
          refine .inr ⟨.group b, rest, r, stk', hbw, by simp [Atom.print], ?_, h7⟩
          simpa only [Atom.leadsName, atomTree] using hrel
        · have h5 := (Run.act fun _ => rfl).acc ((Run.act fun _ => rfl).acc (Run.any.acc h4))
          rcases hb hu' (by simp [Clean]) h5 with hx | ⟨b, rest, r, stk', hbw, rfl, hrel, h6⟩
          · exact .inl (unusual_cons _ (unusual_cons _ (unusual_cons _ hx)))
          obtain ⟨rfl, rfl⟩ := hrel.clean (by simp [Clean])
          obtain ⟨rest, rfl, _⟩ := Acc.term ((Run.act fun _ => rfl).acc h6)
          refine atomAt_of (.atomic b) hbw hs (rest := rest) ?_ h0
          simp [Atom.print]
        · have h5 := (Run.act fun _ => rfl).acc ((Run.act fun _ => rfl).acc (Run.any.acc h4))
          rcases hb hu' (by simp [Clean]) h5 with hx | ⟨b, rest, r, stk', hbw, rfl, hrel, h6⟩
          · exact .inl (unusual_cons _ (unusual_cons _ (unusual_cons _ hx)))
          obtain ⟨rfl, rfl⟩ := hrel.clean (by simp [Clean])
          obtain ⟨rest, rfl, _⟩ := Acc.term ((Run.act fun _ => rfl).acc h6)
          refine atomAt_of (.ahead false b) hbw hs (rest := rest) ?_ h0
          simp [Atom.print]
        · have h5 := (Run.act fun _ => rfl).acc ((Run.act fun _ => rfl).acc (Run.any.acc h4))
          rcases hb hu' (by simp [Clean]) h5 with hx | ⟨b, rest, r, stk', hbw, rfl, hrel, h6⟩
          · exact .inl (unusual_cons _ (unusual_cons _ (unusual_cons _ hx)))
          obtain ⟨rfl, rfl⟩ := hrel.clean (by simp [Clean])
          obtain ⟨rest, rfl, _⟩ := Acc.term ((Run.act fun _ => rfl).acc h6)
          refine atomAt_of (.ahead true b) hbw hs (rest := rest) ?_ h0
          simp [Atom.print]
      · exact (h.rule_ne rfl).elim
      · have h1 := (Run.act fun _ => rfl).acc (Run.any.acc (h.push (l := [.any, .act .pushEmpty, .nt .contentOrEmpty, .act .makeAlternate, .act .makeCapture, .term 41]) rfl))
        rcases lead_of ha (.inl rfl) (by omega) h1 with h | ⟨l, rest, hw, rfl, h2⟩
        · exact .inl (unusual_cons _ (unusual_cons _ h))
        · obtain ⟨rest, rfl, _⟩ := Acc.term ((Run.act fun _ => rfl).acc ((Run.act fun _ => rfl).acc h2))
          refine atomAt_of (.cap (k + 1) (.lead l)) ⟨rfl, hw⟩ hs (rest := rest) ?_ h0
          simp [Atom.print, Body.print]
      · exact (h.rule_ne rfl).elim
    · rcases ha hn rfl (by simp [Clean]) hw' h with h | ⟨l, rest, r2, stk2, hw2, e2, hrel2, h4⟩
      · exact .inl (unusual_cons _ h)
      · obtain ⟨rfl, rfl⟩ := hrel2.clean (by simp [Clean])
        obtain ⟨rest, rfl, _⟩ := Acc.term ((Run.act fun _ => rfl).acc h4)
        refine atomAt_of (.cap (k + 1) (.alt l)) ⟨rfl, hw2⟩ hs (rest := rest) ?_ h0
        rw [e2]
        simp [Atom.print, Body.print]

theorem atomBack_of {n : Nat} (ha : AltBack P n) : AtomBack P (n + 1) := by
  intro i st stk k v hn hs hv h
  change AtomAt P (v :: i) st stk k
  by_cases h1 : v = 92
  · subst h1
    have h2 := Run.any.acc h
    rcases esc_back (x := .backslash) hs rfl h2 with ⟨c, rest, h3, h4, h5⟩ | ⟨_, c, rest, h4, h5⟩ | ⟨_, h3⟩ | ⟨_, name, w, rest, h4, h5, h6, h7, _⟩
    · exact atomAt_of (.ch c) (h4 _) hs (rest := rest) h5 h
    · exact atomAt_of (.cls c) h4 hs (rest := rest) h5 h
    · cases h3 with
      | ref d i e1 e2 h3 =>
        obtain ⟨_, c1, h4, _⟩ := h3.act
        have : d - 48 ≤ k := by
          simp only [applyTerm] at h4
          split at h4
          · cases h4
          · omega
        exact atomAt_of (.ref d) ⟨e1, e2, this⟩ hs (rest := i) rfl h
      | g i h3 => exact ref_back hs h h3
      | assert v i h3 =>
        simp only [List.mem_cons, List.not_mem_nil, or_false] at h3
        rcases h3 with rfl | rfl | rfl | rfl | rfl
        · exact atomAt_of .subjectBegin trivial hs (rest := i) rfl h
        · exact atomAt_of .subjectEnd trivial hs (rest := i) rfl h
        · exact atomAt_of .subjectEndLine trivial hs (rest := i) rfl h
        · exact atomAt_of .notWordBoundary trivial hs (rest := i) rfl h
        · exact atomAt_of .wordBoundary trivial hs (rest := i) rfl h
    · exact atomAt_of (.unknown name w) ⟨h4, h5, h6⟩ hs (rest := rest) h7 h
  by_cases h2 : v = 91
  · subst h2
    obtain ⟨neg, l, rest, h3, rfl⟩ := set_back (st := st) hs (Run.any.acc h)
    refine atomAt_of (.set neg l) h3 hs (rest := rest) ?_ h
    simp [Atom.print]
  by_cases h3 : v = 40
  · subst h3
    have h4 := (Run.act fun _ => rfl).acc (Run.any.acc h)
    exact block_back ha (by simpa using hn) hs h h4
  by_cases h4 : v = 94
  · subst h4
    exact atomAt_of .bol trivial hs (rest := i) rfl h
  by_cases h5 : v = 36
  · subst h5
    exact atomAt_of .eol trivial hs (rest := i) rfl h
  by_cases h6 : v = 46
  · subst h6
    exact atomAt_of .dot trivial hs (rest := i) rfl h
  refine atomAt_of (.ch (.plain v)) ?_ hs (rest := i) rfl h
  simp only [mem_noItem, not_or] at hv
  simp only [Atom.WF, Char1.WF, special, List.mem_cons, List.not_mem_nil, or_false, not_or]
  omega

theorem altMono {m n : Nat} (hm : m ≤ n) (h : AltBack P n) : AltBack P m :=
  fun _ _ _ _ _ _ _ hl => h (Nat.le_trans hl hm)

theorem alt_back (n : Nat) : AltBack P n := by
  induction n with
  | zero =>
    intro i st stk k v x tl hn
    simp at hn
  | succ n ih =>
    have hc : ∀ m, m ≤ n → CatBack P m := by
      intro m
      induction m with
      | zero =>
        intro _ i st stk k v x tl hn
        simp at hn
      | succ m ih' => exact fun hm => catBack_of (atomBack_of (altMono (by omega) ih)) (ih' (by omega))
    exact altBack_of (catBack_of (atomBack_of ih) (hc n (Nat.le_refl _))) ih

/-! ### Whole texts -/

theorem Acc.nil {i : List Nat} {c : Ctx} (h : Acc P i [] c) : i = [] := by
  obtain ⟨v, n, d, hd⟩ := h
  cases n with
  | zero => simp [decide] at hd
  | succ n =>
    cases i with
    | nil => rfl
    | cons w i => simp [decide] at hd

theorem top_back {v : Nat} {u : List Nat} (h : Acc P (v :: u) [.nt .s] {}) :
    Unusual (v :: u) ∨ ∃ b : Body, b.WF P.find 0 ∧ b.print = v :: u := by
  by_cases hv : v ∈ noItem
  · rcases mem_noItem.1 hv with rfl | rfl | rfl | rfl | rfl | rfl | rfl
    · exact (h.rule_ne rfl).elim
    · exact (h.rule_ne rfl).elim
    · exact (h.rule_ne rfl).elim
    · exact (h.rule_ne rfl).elim
    · exact (h.rule_ne rfl).elim
    · have h1 := (Run.act fun _ => rfl).acc (Run.any.acc (h.push (l := [.any, .act .pushEmpty, .nt .optContent, .act .makeAlternate]) rfl))
      rcases lead_of (alt_back u.length) (.inr rfl) (Nat.le_refl _) h1 with h | ⟨l, rest, hw, rfl, h2⟩
      · exact .inl (unusual_cons _ h)
      · have := Acc.nil ((Run.act fun _ => rfl).acc h2)
        subst this
        exact .inr ⟨.lead l, hw, by simp [Body.print]⟩
    · exact (h.rule_ne rfl).elim
  · rcases alt_back _ (Nat.le_refl _) rfl (by simp [Clean]) hv h with h | ⟨l, rest, r, stk', hw, e, _, h2⟩
    · exact .inl h
    · have := Acc.nil h2
      subst this
      exact .inr ⟨.alt l, hw, by rw [e]; simp [Body.print]⟩

/-- Every accepted text is the text of a well-formed tree, except for `(?` with two letters and `)?+`. -/
theorem parse_back {t : List Nat} {c : Ctx} (h : parse P t = .accept c) : Unusual t ∨ ∃ b : Body, b.WF P.find 0 ∧ b.print = t := by
  cases t with
  | nil => exact .inr ⟨.alt .empty, trivial, rfl⟩
  | cons v u =>
    refine top_back ⟨0, parseFuel (v :: u).length, c, ?_⟩
    rw [← h]
    unfold parse
    have h1 : rule .s (some v) = .reject ∨ ∃ l, rule .s (some v) = .push (.any :: l) := by
      by_cases hv : v ∈ noItem
      · rcases mem_noItem.1 hv with rfl | rfl | rfl | rfl | rfl | rfl | rfl
        · exact .inl rfl
        · exact .inl rfl
        · exact .inl rfl
        · exact .inl rfl
        · exact .inl rfl
        · exact .inr ⟨_, rfl⟩
        · exact .inl rfl
      · right
        have := entry_rule (x := .s) rfl hv
        unfold itemHead at this
        repeat' split at this
        all_goals exact ⟨_, this⟩
    have h2 : ∃ m, parseFuel (v :: u).length = m + 2 := ⟨32 * (v :: u).length + 30, by simp only [parseFuel]⟩
    obtain ⟨m, hm⟩ := h2
    rw [hm]
    rcases h1 with h1 | ⟨l, h1⟩
    · simp only [decide, List.head?_cons, h1]
    · simp only [decide, List.head?_cons, h1, List.cons_append]

theorem build_back {t : List Nat} {r : Re} (h : build P t = .pattern r) :
    Unusual t ∨ ∃ b : Body, b.WF P.find 0 ∧ b.print = t ∧ r = bodyTree b := by
  have h1 : ∃ c, parse P t = .accept c := by
    unfold build at h
    split at h
    · exact ⟨_, ‹_›⟩
    all_goals cases h
  obtain ⟨c, h1⟩ := h1
  rcases parse_back h1 with h2 | ⟨b, hw, rfl⟩
  · exact .inl h2
  · refine .inr ⟨b, hw, rfl, ?_⟩
    rw [build_print hw] at h
    simpa using h.symm

end Ctre.Parse
