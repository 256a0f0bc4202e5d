import Verif.Spec.TextLanguage
import Verif.Lemmas.SurfaceFit
import Verif.Lemmas.SurfaceFirm
import Verif.Spec.Steady
/-
Regular pattern texts: the conditions of C34, C46 and C75 follow from conditions on the text.
-/
namespace Ctre
open Parse Surface

/-! ### Text -/

namespace Surface

mutual
theorem Atom.consumes_moves : (a : Atom) → a.consumes = true → a.moves = true ∧ a.honest = true
  | .ch _, _ | .cls _, _ | .set _ _, _ | .dot, _ | .unknown _ _, _ => ⟨rfl, rfl⟩
  | .cap _ b, h | .named _ _ b, h | .group b, h => Body.consumes_moves b h
  | .atomic b, h => ⟨(Body.consumes_moves b h).2, rfl⟩
  | .bol, h | .eol, h | .subjectBegin, h | .subjectEnd, h | .subjectEndLine, h | .wordBoundary, h | .notWordBoundary, h | .ref _, h
  | .refNumber _, h | .refRelative _ _, h | .refName _, h | .ahead _ _, h | .behind _ _, h | .mode _, h => by cases h

theorem Cat.consumes_moves : (c : Cat) → c.consumes = true → c.moves = true
  | .one a q, h => by
    simp only [Cat.consumes, Bool.and_eq_true, decide_eq_true_eq] at h
    have := Atom.consumes_moves a h.2
    cases q <;> simp_all [Cat.moves, itemMoves]
  | .cons a q l, h => by
    simp only [Cat.consumes, Bool.or_eq_true, Bool.and_eq_true, decide_eq_true_eq] at h
    rcases h with h | h
    · have := Atom.consumes_moves a h.2
      cases q <;> simp_all [Cat.moves, itemMoves]
    · simp [Cat.moves, Cat.consumes_moves l h]

theorem Alt.consumes_moves : (l : Alt) → l.consumes = true → l.moves = true ∧ l.honest = true
  | .empty, h => by cases h
  | .one c, h => by
    have := Cat.consumes_moves c h
    simp [Alt.moves, Alt.honest, this]
  | .bar c l, h => by
    simp only [Alt.consumes, Bool.and_eq_true] at h
    have h1 := Cat.consumes_moves c h.1
    have h2 := Alt.consumes_moves l h.2
    simp [Alt.moves, Alt.honest, h1, h2]

theorem Body.consumes_moves : (b : Body) → b.consumes = true → b.moves = true ∧ b.honest = true
  | .alt l, h => Alt.consumes_moves l h
  | .lead _, h => by cases h
end

theorem itemFirm_consumes {q : Quant} {c s : Bool} (h : itemFirm q c s = true) : q = .none ∨ c = true := by
  simp only [itemFirm, Bool.or_eq_true, Bool.and_eq_true, decide_eq_true_eq] at h
  exact h.imp id (·.1)

mutual
theorem Atom.lazyOptional_consumes : (a : Atom) → a.lazyOptional = true → a.consumes = false
  | .group b, h => Body.lazyOptional_consumes b h
  | .ch _, h | .cls _, h | .set _ _, h | .dot, h | .unknown _ _, h | .cap _ _, h | .named _ _ _, h | .atomic _, h
  | .bol, h | .eol, h | .subjectBegin, h | .subjectEnd, h | .subjectEndLine, h | .wordBoundary, h | .notWordBoundary, h | .ref _, h
  | .refNumber _, h | .refRelative _ _, h | .refName _, h | .ahead _ _, h | .behind _ _, h | .mode _, h => by cases h

theorem Cat.lazyOptional_consumes : (c : Cat) → c.lazyOptional = true → c.consumes = false
  | .one a .none, h => by simp [Cat.consumes, Atom.lazyOptional_consumes a h]
  | .one a (.opt _), _ => by simp [Cat.consumes, Quant.low]
  | .one _ (.between ds es k), h => by
    simp only [Cat.lazyOptional, Bool.and_eq_true, decide_eq_true_eq] at h
    simp [Cat.consumes, Quant.low, h.1.1]
  | .one _ (.star _), h | .one _ (.plus _), h | .one _ (.exactly _), h | .one _ (.atLeast _ _), h | .cons _ _ _, h => by cases h

theorem Alt.lazyOptional_consumes : (l : Alt) → l.lazyOptional = true → l.consumes = false
  | .one c, h => Cat.lazyOptional_consumes c h
  | .empty, _ => rfl
  | .bar _ _, h => by cases h

theorem Body.lazyOptional_consumes : (b : Body) → b.lazyOptional = true → b.consumes = false
  | .alt l, h => Alt.lazyOptional_consumes l h
  | .lead _, _ => rfl
end

theorem overLazy_of_firm {q : Quant} {a : Atom} {s : Bool} (h : itemFirm q a.consumes s = true) : q.overLazy a = false := by
  rcases itemFirm_consumes h with rfl | h
  · rfl
  · have : a.lazyOptional = false := by
      cases h' : a.lazyOptional with
      | false => rfl
      | true => rw [Atom.lazyOptional_consumes a h'] at h; cases h
    unfold Quant.overLazy
    split <;> simp [this]

mutual
theorem Atom.firm_orderly : (a : Atom) → a.firm = true → a.inOrder = true ∧ a.attentive = true
  | .cap _ b, h | .named _ _ b, h | .group b, h | .ahead _ b, h => Body.firm_orderly b h
  | .behind _ b, h => ⟨(Body.firm_orderly b h).1, rfl⟩
  | .atomic b, h => by
    simp only [Atom.firm, Bool.and_eq_true] at h
    have h1 := Body.firm_orderly b h.2
    have h2 := Body.consumes_moves b h.1
    exact ⟨h1.1, by simp [Atom.attentive, h1.2, h2.2]⟩
  | .ch _, _ | .cls _, _ | .set _ _, _ | .dot, _ | .unknown _ _, _ | .bol, _ | .eol, _ | .subjectBegin, _ | .subjectEnd, _
  | .subjectEndLine, _ | .wordBoundary, _ | .notWordBoundary, _ | .ref _, _ | .refNumber _, _ | .refRelative _ _, _ | .refName _, _
  | .mode _, _ => ⟨rfl, rfl⟩

theorem Cat.firm_orderly : (c : Cat) → c.firm = true → c.inOrder = true ∧ c.attentive = true
  | .one a q, h => by
    simp only [Cat.firm, Bool.and_eq_true] at h
    have h1 := Atom.firm_orderly a h.2
    have h2 := overLazy_of_firm h.1
    have h3 : q = .none ∨ a.honest = true := (itemFirm_consumes h.1).imp id fun h => (Atom.consumes_moves a h).2
    simp only [Cat.inOrder, Cat.attentive, h1, h2, Bool.and_true, Bool.or_eq_true, decide_eq_true_eq]
    exact ⟨rfl, h3⟩
  | .cons a q l, h => by
    simp only [Cat.firm, Bool.and_eq_true] at h
    have h1 := Atom.firm_orderly a h.1.2
    have h2 := overLazy_of_firm h.1.1
    have h3 : q = .none ∨ a.honest = true := (itemFirm_consumes h.1.1).imp id fun h => (Atom.consumes_moves a h).2
    have h4 := Cat.firm_orderly l h.2
    simp only [Cat.inOrder, Cat.attentive, h1, h2, h4, Bool.and_true, Bool.or_eq_true, decide_eq_true_eq]
    exact ⟨rfl, h3⟩

theorem Alt.firm_orderly : (l : Alt) → l.firm = true → l.inOrder = true ∧ l.attentive = true
  | .empty, _ => ⟨rfl, rfl⟩
  | .one c, h => Cat.firm_orderly c h
  | .bar c l, h => by
    simp only [Alt.firm, Bool.and_eq_true] at h
    have h1 := Cat.firm_orderly c h.1
    have h2 := Alt.firm_orderly l h.2
    simp [Alt.inOrder, Alt.attentive, h1, h2]

theorem Body.firm_orderly : (b : Body) → b.firm = true → b.inOrder = true ∧ b.attentive = true
  | .alt l, h | .lead l, h => Alt.firm_orderly l h
end

variable {gs : List (Nat × Option (List Nat))}

mutual
theorem Atom.regular_known : (a : Atom) → a.regular = true → (∀ x ∈ a.visible, x ∈ gs) → a.known gs = true
  | .ch _, _, _ | .cls _, _, _ | .set _ _, _, _ | .dot, _, _ | .unknown _ _, _, _ => rfl
  | .cap id b, h, hv => by
    simp only [Atom.visible, List.mem_cons] at hv
    have h1 := Body.regular_known b h fun x hx => hv x (.inr hx)
    have h2 : (gs.map Prod.fst).contains id = true := by
      rw [List.contains_iff_mem]; exact List.mem_map.2 ⟨_, hv _ (.inl rfl), rfl⟩
    simp only [Atom.known, h1, h2, Bool.and_self]
  | .named id n b, h, hv => by
    simp only [Atom.visible, List.mem_cons] at hv
    have h1 := Body.regular_known b h fun x hx => hv x (.inr hx)
    have h2 : (gs.map Prod.fst).contains id = true := by
      rw [List.contains_iff_mem]; exact List.mem_map.2 ⟨_, hv _ (.inl rfl), rfl⟩
    simp only [Atom.known, h1, h2, Bool.and_self]
  | .group b, h, hv => Body.regular_known b h hv
  | .bol, h, _ | .eol, h, _ | .subjectBegin, h, _ | .subjectEnd, h, _ | .subjectEndLine, h, _ | .wordBoundary, h, _
  | .notWordBoundary, h, _ | .ref _, h, _ | .refNumber _, h, _ | .refRelative _ _, h, _ | .refName _, h, _ | .ahead _ _, h, _
  | .behind _ _, h, _ | .atomic _, h, _ | .mode _, h, _ => by cases h

theorem Cat.regular_known : (c : Cat) → c.regular = true → (∀ x ∈ c.visible, x ∈ gs) → c.known gs = true
  | .one a _, h, hv => Atom.regular_known a h hv
  | .cons a _ l, h, hv => by
    simp only [Cat.regular, Bool.and_eq_true] at h
    simp only [Cat.visible, List.mem_append] at hv
    simp [Cat.known, Atom.regular_known a h.1 fun x hx => hv x (.inl hx), Cat.regular_known l h.2 fun x hx => hv x (.inr hx)]

theorem Alt.regular_known : (l : Alt) → l.regular = true → (∀ x ∈ l.visible, x ∈ gs) → l.known gs = true
  | .empty, _, _ => rfl
  | .one c, h, hv => Cat.regular_known c h hv
  | .bar c l, h, hv => by
    simp only [Alt.regular, Bool.and_eq_true] at h
    simp only [Alt.visible, List.mem_append] at hv
    simp [Alt.known, Cat.regular_known c h.1 fun x hx => hv x (.inl hx), Alt.regular_known l h.2 fun x hx => hv x (.inr hx)]

theorem Body.regular_known : (b : Body) → b.regular = true → (∀ x ∈ b.visible, x ∈ gs) → b.known gs = true
  | .alt l, h, hv | .lead l, h, hv => Alt.regular_known l h hv
end

end Surface

/-! ### Trees -/

mutual
/-- Trees without assertions whose repetitions consume something; classes and characters can be handled by the analysis of first
characters. -/
def Re.easy : Re → Bool
  | .cc c => c.sane && c.scans
  | .any | .empty => true
  | .str cs => cs.all fun c => decide (c < 2147483648)
  | .sel l | .seq l | .cap _ _ l => easyAll l
  | .rep _ _ _ l => movesAny l && easyAll l
  | _ => false

def easyAll : List Re → Bool
  | [] => true
  | r :: l => r.easy && easyAll l
end

mutual
theorem easy_calm : ∀ {r : Re}, r.easy = true → r.tests = false ∧ r.scans = true
  | .cc c, h => by
    simp only [Re.easy, Bool.and_eq_true] at h
    exact ⟨rfl, h.2⟩
  | .any, _ | .empty, _ | .str _, _ => ⟨rfl, rfl⟩
  | .sel l, h | .seq l, h | .cap _ _ l, h => easyAll_calm (l := l) h
  | .rep _ _ _ l, h => by
    simp only [Re.easy, Bool.and_eq_true] at h
    exact ⟨rfl, (easyAll_calm h.2).2⟩
  | .mode _, h | .bref _, h | .brefName _, h | .ahead _ _, h | .behind _ _, h | .boundary _, h | .notBoundary _, h | .sBegin, h
  | .sEnd, h | .sEndLine, h | .lBegin, h | .lEnd, h | .reject _, h | .atomic _, h => by cases h

theorem easyAll_calm : ∀ {l : List Re}, easyAll l = true → testsAny l = false ∧ scansAll l = true
  | [], _ => ⟨rfl, rfl⟩
  | r :: l, h => by
    simp only [easyAll, Bool.and_eq_true] at h
    simp [testsAny, scansAll, easy_calm h.1, easyAll_calm h.2]
end

mutual
theorem easy_steady (ml : Bool) : ∀ {r : Re} (M : Bool), r.easy = true → r.steady ml M false = true
  | .cc c, M, h => by
    simp only [Re.easy, Bool.and_eq_true] at h
    exact h.1
  | .any, _, _ | .empty, _, _ => rfl
  | .str _, _, h => h
  | .sel l, M, h => easyEach_steady ml (l := l) M h
  | .seq l, M, h | .cap _ _ l, M, h => easyAll_steady ml (l := l) M h
  | .rep _ _ _ l, M, h => by
    simp only [Re.easy, Bool.and_eq_true] at h
    simp [Re.steady, h.1, easyAll_steady ml false h.2]
  | .mode _, _, h | .bref _, _, h | .brefName _, _, h | .ahead _ _, _, h | .behind _ _, _, h | .boundary _, _, h | .notBoundary _, _, h
  | .sBegin, _, h | .sEnd, _, h | .sEndLine, _, h | .lBegin, _, h | .lEnd, _, h | .reject _, _, h | .atomic _, _, h => by cases h

theorem easyAll_steady (ml : Bool) : ∀ {l : List Re} (M : Bool), easyAll l = true → steadyAll ml M false l = true
  | [], _, _ => rfl
  | r :: l, M, h => by
    simp only [easyAll, Bool.and_eq_true] at h
    simp [steadyAll, (easyAll_calm h.2).1, easy_steady ml _ h.1, easyAll_steady ml M h.2]

theorem easyEach_steady (ml : Bool) : ∀ {l : List Re} (M : Bool), easyAll l = true → steadyEach ml M false l = true
  | [], _, _ => rfl
  | r :: l, M, h => by
    simp only [easyAll, Bool.and_eq_true] at h
    simp [steadyEach, easy_steady ml M h.1, easyEach_steady ml M h.2]
end

mutual
theorem easy_scannable : ∀ {r : Re}, r.easy = true → r.scannable true = true
  | .cc _, _ | .any, _ | .empty, _ | .str _, _ => rfl
  | .sel l, h => easyEach_scannable (l := l) h
  | .seq l, h | .cap _ _ l, h => easyAll_scannable (l := l) h
  | .rep _ _ _ l, h => by
    simp only [Re.easy, Bool.and_eq_true] at h
    simp [Re.scannable, (easyAll_calm h.2).2, easyAll_scannable h.2]
  | .mode _, h | .bref _, h | .brefName _, h | .ahead _ _, h | .behind _ _, h | .boundary _, h | .notBoundary _, h
  | .sBegin, h | .sEnd, h | .sEndLine, h | .lBegin, h | .lEnd, h | .reject _, h | .atomic _, h => by cases h

theorem easyAll_scannable : ∀ {l : List Re}, easyAll l = true → scannableAll true l = true
  | [], _ => rfl
  | r :: l, h => by
    simp only [easyAll, Bool.and_eq_true] at h
    simp [scannableAll, (easyAll_calm h.2).2, easy_scannable h.1, easyAll_scannable h.2]

theorem easyEach_scannable : ∀ {l : List Re}, easyAll l = true → scannableEach true l = true
  | [], _ => rfl
  | r :: l, h => by
    simp only [easyAll, Bool.and_eq_true] at h
    simp [scannableEach, easy_scannable h.1, easyEach_scannable h.2]
end

theorem easy_unpack (r : Re) : easyAll (unpack r) = r.easy := by
  unfold unpack
  split
  · simp [Re.easy]
  · simp [easyAll]

theorem moves_unpack {r : Re} (h : r.moves = true) : movesAny (unpack r) = true := by
  unfold unpack
  split
  · simpa [Re.moves] using h
  · simp [movesAny, h]

theorem easy_combine {k : RepKind} (hk : k ≠ .poss) {a b c d : Nat} {l : List Re} :
    (combineRepeat k a b c d l).easy = (movesAny l && easyAll l) := by
  cases k with
  | poss => exact (hk rfl).elim
  | _ => simp only [combineRepeat, Re.easy]

theorem easy_sequence {b a : Re} (hp : ¬ (isPoss a ∧ leadPoss b)) (h1 : a.easy = true) (h2 : b.easy = true) :
    (makeSequence b a).easy = true := by
  unfold makeSequence
  split
  · simp_all [Re.easy, CC.sane]
  · simp_all [Re.easy, CC.sane]
  · simp_all [Re.easy, easyAll, CC.sane]
  · simp_all [Re.easy, easyAll, CC.sane]
  · split
    · rename_i hk
      obtain ⟨rfl, hl⟩ := hk
      have hl := Re.sameList_eq hl
      subst hl
      rw [easy_combine]
      · simpa only [Re.easy] using h1
      · rintro rfl; exact hp ⟨⟨_, _, _, rfl⟩, ⟨_, _, rfl⟩⟩
    · simp_all [Re.easy, easyAll]
  · split
    · rename_i hk
      obtain ⟨rfl, hl⟩ := hk
      have hl := Re.sameList_eq hl
      subst hl
      simp only [Re.easy, easyAll, Bool.and_eq_true] at h2 ⊢
      refine ⟨?_, h2.2⟩
      rw [easy_combine]
      · simpa only [Re.easy] using h1
      · rintro rfl; exact hp ⟨⟨_, _, _, rfl⟩, ⟨_, _, rfl⟩⟩
    · simp_all [Re.easy, easyAll]
  · simp_all [Re.easy, easyAll]
  · simp_all [Re.easy, easyAll]

theorem easy_alternate {b a : Re} (h1 : a.easy = true) (h2 : b.easy = true) : (makeAlternate b a).easy = true := by
  unfold makeAlternate
  split <;> simp_all [Re.easy, easyAll]

theorem easy_quant {q : Quant} {r : Re} (h : r.easy = true) (hh : q = .none ∨ r.moves = true) : (quantTree q r).easy = true := by
  have hkind : ∀ (k : RepKind) (r : Re), r.easy = true → (kindTree k r).easy = true := by
    intro k r h
    unfold kindTree; split <;> simp_all only [Re.easy]
  rcases hh with rfl | hh
  · simpa only [quantTree] using h
  · have hrep : ∀ (k : RepKind) (a b : Nat), (Re.rep k a b (unpack r)).easy = true := by
      intro k a b
      rw [Re.easy, moves_unpack hh, easy_unpack, h]; rfl
    cases q with
    | none => simpa only [quantTree] using h
    | opt k =>
      simp only [quantTree]
      refine hkind _ _ ?_
      have := hrep .greedy 0 1
      unfold makeOptional
      split
      · simpa only [unpack] using this
      · exact h
      · exact h
      · rename_i h1 h2 h3
        have e : unpack r = [r] := by
          unfold unpack; split
          · exact (h1 _ rfl).elim
          · rfl
        rwa [e] at this
    | star k => simp only [quantTree]; exact hkind _ _ (hrep _ _ _)
    | plus k => simp only [quantTree]; exact hkind _ _ (hrep _ _ _)
    | exactly ds => simp only [quantTree]; exact hrep _ _ _
    | atLeast ds k => simp only [quantTree]; exact hkind _ _ (hrep _ _ _)
    | between ds es k => simp only [quantTree]; exact hkind _ _ (hrep _ _ _)

/-! ### Sets -/

theorem letterClass_fine (l : Nat) : (letterClass l).sane = true ∧ (letterClass l).listable = true ∧ (letterClass l).member = true := by
  unfold letterClass
  repeat' split
  all_goals decide

theorem posix_fine (n : Posix) : n.cls.sane = true ∧ n.cls.listable = true ∧ n.cls.member = true := by
  cases n <;> decide

theorem cls_easy (c : Cls) : (Re.cc (clsTree c)).easy = true := by
  cases c with
  | letter l =>
    have := letterClass_fine l
    simp only [clsTree]
    split <;> simp [Re.easy, CC.sane, saneCCs, CC.scans, CC.member, memberAll, listableAll, this]
  | prop neg p n v =>
    cases neg <;> simp [clsTree, Re.easy, CC.sane, saneCCs, CC.scans, CC.member, CC.listable, listableAll]

/-- A member of a set which may be negative. -/
def CC.fine (neg : Bool) (c : CC) : Bool := c.sane && (if neg then c.listable else c.member)

theorem item_fine {neg : Bool} {i : SetItem} (hf : i.Faithful) (h : i.small neg = true) : (itemTree i).fine neg = true := by
  cases i with
  | one c =>
    simp only [SetItem.Faithful] at hf
    simp only [SetItem.small, Char1.small, decide_eq_true_eq] at h
    cases neg <;> simp [itemTree, CC.fine, CC.sane, CC.listable, CC.member, charTree_eq hf, h]
  | range a b =>
    simp only [SetItem.Faithful] at hf
    simp only [SetItem.small, Char1.small, Bool.and_eq_true, decide_eq_true_eq] at h
    cases neg <;> simp [itemTree, CC.fine, CC.sane, CC.listable, CC.member, charTree_eq hf.1, charTree_eq hf.2, h]
  | cls c =>
    cases c with
    | letter l =>
      have := letterClass_fine l
      simp only [SetItem.small, Bool.or_eq_true, Bool.not_eq_true', decide_eq_true_eq] at h
      simp only [itemTree, clsTree]
      cases neg with
      | false => split <;> simp [CC.fine, CC.sane, saneCCs, CC.member, memberAll, listableAll, this]
      | true =>
        have h : 97 ≤ l := by simpa using h
        simp [h, CC.fine, CC.sane, saneCCs, CC.listable, listableAll, this]
    | prop n p a b =>
      simp only [SetItem.small, Bool.not_eq_true'] at h
      subst h
      cases neg <;> simp [itemTree, clsTree, CC.fine, CC.sane, CC.listable, CC.member]
  | posix n m =>
    have := posix_fine m
    simp only [SetItem.small, Bool.not_eq_true'] at h
    subst h
    cases neg <;> simp [itemTree, CC.fine, this]

theorem pushBack_fine {neg : Bool} {x : CC} {l : List CC} (hx : x.fine neg = true) (hl : l.all (CC.fine neg) = true) :
    (pushBackIntoSet x l).all (CC.fine neg) = true := by
  unfold pushBackIntoSet
  split
  · exact hl
  · simp [hl, hx, List.all_append]

theorem items_fine {neg : Bool} {l : List SetItem} (hf : ∀ i ∈ l, i.Faithful) (h : l.all (SetItem.small neg) = true) :
    (itemsTree l).all (CC.fine neg) = true := by
  cases l with
  | nil => rfl
  | cons i l =>
    have hall : ∀ (l : List SetItem) (acc : List CC), (∀ i ∈ l, i.Faithful) → l.all (SetItem.small neg) = true →
        acc.all (CC.fine neg) = true → (l.foldl (fun acc j => pushBackIntoSet (itemTree j) acc) acc).all (CC.fine neg) = true := by
      intro l
      induction l with
      | nil => intro acc _ _ h; exact h
      | cons j l ih =>
        intro acc hf hs hacc
        simp only [List.all_cons, Bool.and_eq_true] at hs
        exact ih _ (fun i hi => hf i (by simp [hi])) hs.2 (pushBack_fine (item_fine (hf j (by simp)) hs.1) hacc)
    simp only [List.all_cons, Bool.and_eq_true] at h
    exact hall l _ (fun i hi => hf i (by simp [hi])) h.2 (by simp [item_fine (hf i (by simp)) h.1])

theorem fine_all {neg : Bool} : ∀ {l : List CC}, l.all (CC.fine neg) = true →
    saneCCs l = true ∧ (if neg then listableAll l else memberAll l) = true
  | [], _ => by cases neg <;> exact ⟨rfl, rfl⟩
  | c :: l, h => by
    simp only [List.all_cons, Bool.and_eq_true] at h
    have h1 := fine_all h.2
    cases neg <;> simp_all [CC.fine, saneCCs, listableAll, memberAll]

theorem set_easy {neg : Bool} {l : List SetItem} (hf : ∀ i ∈ l, i.Faithful) (h : l.all (SetItem.small neg) = true) :
    (Re.cc (setTree neg l)).easy = true := by
  have := fine_all (items_fine hf h)
  cases neg <;> simp_all [setTree, Re.easy, CC.sane, CC.scans, CC.member]

/-! ### Texts and trees -/

mutual
theorem atom_easy : ∀ (a : Atom), a.Faithful → a.size < szMod → a.regular = true → a.firm = true → a.small = true → (atomTree a).easy = true
  | .ch c, h, _, _, _, hm => by
    simp only [Atom.Faithful] at h
    simp only [Atom.small, Char1.small, decide_eq_true_eq] at hm
    simp [atomTree, Re.easy, CC.sane, CC.scans, CC.member, charTree_eq h, hm]
  | .cls c, _, _, _, _, _ => cls_easy c
  | .set neg l, h, _, _, _, hm => set_easy h hm
  | .dot, _, _, _, _, _ => rfl
  | .cap _ b, h, hs, hr, hf, hm | .named _ _ b, h, hs, hr, hf, hm => by
    simp only [Atom.Faithful, Atom.size, Atom.regular, Atom.firm, Atom.small] at h hs hr hf hm
    rw [atomTree, Re.easy, easy_unpack]; exact body_easy b h hs hr hf hm
  | .group b, h, hs, hr, hf, hm => by
    simp only [Atom.Faithful, Atom.size, Atom.regular, Atom.firm, Atom.small] at h hs hr hf hm
    rw [atomTree]; exact body_easy b h hs hr hf hm
  | .unknown _ _, _, _, _, _, h => by cases h
  | .bol, _, _, h, _, _ | .eol, _, _, h, _, _ | .subjectBegin, _, _, h, _, _ | .subjectEnd, _, _, h, _, _ | .subjectEndLine, _, _, h, _, _
  | .wordBoundary, _, _, h, _, _ | .notWordBoundary, _, _, h, _, _ | .ref _, _, _, h, _, _ | .refNumber _, _, _, h, _, _
  | .refRelative _ _, _, _, h, _, _ | .refName _, _, _, h, _, _ | .ahead _ _, _, _, h, _, _ | .behind _ _, _, _, h, _, _
  | .atomic _, _, _, h, _, _ | .mode _, _, _, h, _, _ => by cases h

theorem cat_easy : ∀ (c : Cat), c.Faithful → c.size < szMod → c.regular = true → c.firm = true → c.small = true → (catTree c).easy = true
  | .one a q, h, hs, hr, hf, hm => by
    simp only [Cat.Faithful, Cat.size, Cat.regular, Cat.firm, Cat.small, Bool.and_eq_true] at h hs hr hf hm
    simp only [catTree]
    exact easy_quant (atom_easy a h.1 (by omega) hr hf.2 hm) ((itemFirm_consumes hf.1).imp id fun e =>
      (atom_fits a h.1 (by omega)).1 (Atom.consumes_moves a e).1)
  | .cons a q l, h, hs, hr, hf, hm => by
    simp only [Cat.Faithful, Cat.size, Cat.regular, Cat.firm, Cat.small, Bool.and_eq_true] at h hs hr hf hm
    have h1 := lead_item (lead_atom a h.1 (by omega)) h.2.1
    have h2 := lead_cat l h.2.2.1 (by omega)
    simp only [catTree]
    refine easy_sequence (fun hp => h.2.2.2 ⟨h1.2.1 hp.1, h2.2.1 hp.2⟩) ?_ (cat_easy l h.2.2.1 (by omega) hr.2 hf.2 hm.2)
    exact easy_quant (atom_easy a h.1 (by omega) hr.1 hf.1.2 hm.1) ((itemFirm_consumes hf.1.1).imp id fun e =>
      (atom_fits a h.1 (by omega)).1 (Atom.consumes_moves a e).1)

theorem alt_easy : ∀ (l : Alt), l.Faithful → l.size < szMod → l.regular = true → l.firm = true → l.small = true → (altTree l).easy = true
  | .empty, _, _, _, _, _ => rfl
  | .one c, h, hs, hr, hf, hm => by
    simp only [Alt.Faithful, Alt.size, Alt.regular, Alt.firm, Alt.small] at h hs hr hf hm
    simp only [altTree]; exact cat_easy c h hs hr hf hm
  | .bar c l, h, hs, hr, hf, hm => by
    simp only [Alt.Faithful, Alt.size, Alt.regular, Alt.firm, Alt.small, Bool.and_eq_true] at h hs hr hf hm
    simp only [altTree]
    exact easy_alternate (cat_easy c h.1 (by omega) hr.1 hf.1 hm.1) (alt_easy l h.2 (by omega) hr.2 hf.2 hm.2)

theorem body_easy : ∀ (b : Body), b.Faithful → b.size < szMod → b.regular = true → b.firm = true → b.small = true → (bodyTree b).easy = true
  | .alt l, h, hs, hr, hf, hm => by
    simp only [Body.Faithful, Body.size, Body.regular, Body.firm, Body.small] at h hs hr hf hm
    simp only [bodyTree]; exact alt_easy l h hs hr hf hm
  | .lead l, h, hs, hr, hf, hm => by
    simp only [Body.Faithful, Body.size, Body.regular, Body.firm, Body.small] at h hs hr hf hm
    simp only [bodyTree]
    exact easy_alternate (by simp [Re.easy]) (alt_easy l h hs hr hf hm)
end

end Ctre
