import Verif.Lemmas.Swap
import Verif.Lemmas.Chars
import Verif.Spec.Caseless

/-
Case-insensitive matching does not see the case of ASCII letters.
-/
namespace Ctre

/-- Equal, or the two cases of an ASCII letter. -/
theorem lowerCase_eq {v v' : Int} (h : lowerCase v = lowerCase v') :
    v = v' ∨ (65 ≤ v ∧ v ≤ 90 ∧ v' = v + 32) ∨ (65 ≤ v' ∧ v' ≤ 90 ∧ v = v' + 32) := by
  unfold lowerCase at h
  split at h <;> split at h <;> omega

theorem xor_lower {c : Nat} (h : isLower c = true) : Nat.xor c 32 = c - 32 := by
  simp only [isLower, Bool.and_eq_true, decide_eq_true_eq] at h
  have : ∀ i : Fin 128, 97 ≤ i.val → i.val ≤ 122 → Nat.xor i.val 32 = i.val - 32 := by decide
  exact this ⟨c, by omega⟩ h.1 h.2

theorem xor_upper {c : Nat} (h : isUpper c = true) : Nat.xor c 32 = c + 32 := by
  simp only [isUpper, Bool.and_eq_true, decide_eq_true_eq] at h
  have : ∀ i : Fin 128, 65 ≤ i.val → i.val ≤ 90 → Nat.xor i.val 32 = i.val + 32 := by decide
  exact this ⟨c, by omega⟩ h.1 h.2

/-- Comparison of a letter with any constant. -/
theorem eqConst_ascii {v : Int} {c : Nat} (h0 : 0 ≤ v) (h : v < 4294967296) : eqConst v c = true ↔ v = (c : Int) := by
  have hu : toU32 v = v.toNat := by simp only [toU32]; omega
  by_cases hc : c ≤ 127
  · exact eqConst_small hc
  · simp only [eqConst, hc, if_false, hu, beq_iff_eq]; omega

theorem matchCharacter_letter {v w : Int} (h1 : 65 ≤ v) (h2 : v ≤ 90) (hw : w = v + 32) (c : Nat) :
    matchCharacter true v c = matchCharacter true w c := by
  subst hw
  rw [Bool.eq_iff_iff]
  simp only [matchCharacter, Bool.or_eq_true, Bool.and_eq_true, and_true,
    eqConst_ascii (v := v) (by omega) (by omega), eqConst_ascii (v := v + 32) (by omega) (by omega)]
  cases hl : isLower c with
  | true =>
    have : isAlpha c = true := by simp [isAlpha, hl]
    simp only [this, xor_lower hl, true_and]
    simp only [isLower, Bool.and_eq_true, decide_eq_true_eq] at hl
    omega
  | false =>
    cases hu : isUpper c with
    | true =>
      have : isAlpha c = true := by simp [isAlpha, hu]
      simp only [this, xor_upper hu, true_and]
      simp only [isUpper, Bool.and_eq_true, decide_eq_true_eq] at hu
      omega
    | false =>
      have : isAlpha c = false := by simp [isAlpha, hu, hl]
      simp only [this, Bool.false_eq_true, false_and, false_or]
      simp only [isUpper, isLower, Bool.and_eq_false_iff, decide_eq_false_iff_not] at hu hl
      omega

theorem matchRange_fold {v w : Int} (h1 : 65 ≤ v) (h2 : v ≤ 90) (hw : w = v + 32) {a b : Nat}
    (h : (CC.range a b).caseless = true) : matchRange true v a b = matchRange true w a b := by
  subst hw
  rw [Bool.eq_iff_iff]
  simp only [matchRange, Bool.or_eq_true, Bool.and_eq_true, and_true,
    geConst_nonneg (v := v) (by omega) (by omega), geConst_nonneg (v := v + 32) (by omega) (by omega),
    leConst_nonneg (v := v) (by omega) (by omega), leConst_nonneg (v := v + 32) (by omega) (by omega)]
  simp only [CC.caseless, Bool.or_eq_true, Bool.and_eq_true] at h
  by_cases hl : isLower a = true ∧ isLower b = true
  · simp only [hl, and_self, true_or, true_and, xor_lower hl.1, xor_lower hl.2]
    simp only [isLower, Bool.and_eq_true, decide_eq_true_eq] at hl
    omega
  · by_cases hu : isUpper a = true ∧ isUpper b = true
    · simp only [hu, and_self, or_true, true_and, xor_upper hu.1, xor_upper hu.2]
      simp only [isUpper, Bool.and_eq_true, decide_eq_true_eq] at hu
      omega
    · simp only [hl, hu, false_or, or_self, false_and] at h ⊢
      simp only [rangeHasBothCases, List.all_eq_true, List.mem_range] at h
      have := h (v - 65).toNat (by omega)
      rw [beq_iff_eq, Bool.eq_iff_iff] at this
      simp only [Bool.and_eq_true, decide_eq_true_eq] at this
      omega

mutual
theorem CC.fold {U : Uni} {v w : Int} (h1 : 65 ≤ v) (h2 : v ≤ 90) (hw : w = v + 32) : ∀ {cl : CC}, cl.caseless = true →
    cl.matchChar U true v = cl.matchChar U true w
  | .chr c, _ => matchCharacter_letter h1 h2 hw c
  | .range a b, h => matchRange_fold h1 h2 hw h
  | .enum cs, _ => by
    simp only [CC.matchChar]
    induction cs with
    | nil => rfl
    | cons c cs ih => simp only [List.any_cons, matchCharacter_letter h1 h2 hw c, ih rfl]
  | .set l, h => by simp only [CC.matchChar]; exact CC.foldAny h1 h2 hw h
  | .negSet l, h => by simp only [CC.matchChar]; rw [CC.foldAny h1 h2 hw h]
  | .negate l, h => by simp only [CC.matchChar]; rw [CC.foldAny h1 h2 hw h]
  | .prop _, h => by simp [CC.caseless] at h

theorem CC.foldAny {U : Uni} {v w : Int} (h1 : 65 ≤ v) (h2 : v ≤ 90) (hw : w = v + 32) : ∀ {l : List CC},
    caselessCCs l = true → CC.matchAny U true v l = CC.matchAny U true w l
  | [], _ => rfl
  | c :: l, h => by
    simp only [caselessCCs, Bool.and_eq_true] at h
    simp only [CC.matchAny, CC.fold h1 h2 hw h.1, CC.foldAny h1 h2 hw h.2]
end

/-- Closure of the character matchers under change of case. -/
theorem CC.matchChar_fold {U : Uni} {v w : Int} (h : lowerCase v = lowerCase w) {cl : CC} (hc : cl.caseless = true) :
    cl.matchChar U true v = cl.matchChar U true w := by
  rcases lowerCase_eq h with rfl | ⟨h1, h2, h3⟩ | ⟨h1, h2, h3⟩
  · rfl
  · exact CC.fold h1 h2 h3 hc
  · exact (CC.fold h1 h2 h3 hc).symm

theorem SameLetters.length {s s' : List Ch} (h : SameLetters s s') : s.length = s'.length := by
  have := congrArg List.length h
  simpa using this

theorem SameLetters.reverse {s s' : List Ch} (h : SameLetters s s') : SameLetters s.reverse s'.reverse := by
  unfold SameLetters at *
  rw [List.map_reverse, List.map_reverse, h]

theorem SameLetters.get {s s' : List Ch} (h : SameLetters s s') (i : Nat) :
    (s[i]? = none ∧ s'[i]? = none) ∨ ∃ v w : Int, s[i]? = some v ∧ s'[i]? = some w ∧ lowerCase v = lowerCase w := by
  have h1 : (s.map lowerCase)[i]? = (s'.map lowerCase)[i]? := by rw [show s.map lowerCase = s'.map lowerCase from h]
  simp only [List.getElem?_map] at h1
  cases h2 : s[i]? with
  | none =>
    cases h3 : s'[i]? with
    | none => exact .inl ⟨rfl, rfl⟩
    | some w => simp [h2, h3] at h1
  | some v =>
    cases h3 : s'[i]? with
    | none => simp [h2, h3] at h1
    | some w =>
      simp only [h2, h3, Option.map_some, Option.some.injEq] at h1
      exact .inr ⟨v, w, rfl, rfl, h1⟩

theorem lowerCase_newline {v w : Int} (h : lowerCase v = lowerCase w) : v = 10 ↔ w = 10 := by
  rcases lowerCase_eq h with rfl | h | h
  · exact Iff.rfl
  · omega
  · omega

theorem matchString_fold {s s' : List Ch} (h : SameLetters s s') : ∀ (cs : List Nat) (cur : Nat),
    matchString true s cs cur = matchString true s' cs cur := by
  intro cs
  induction cs with
  | nil => intro cur; rfl
  | cons c cs ih =>
    intro cur
    unfold matchString
    rw [h.length]
    split
    · rfl
    · rcases h.get cur with ⟨h1, h2⟩ | ⟨v, w, h1, h2, h3⟩
      · rw [h1, h2]
      · rw [h1, h2]
        have := CC.matchChar_fold (U := fun _ _ => false) h3 (cl := .chr c) rfl
        simp only [CC.matchChar] at this
        simp only [this, ih]

theorem boundaryAt_fold {U : Uni} {s s' : List Ch} (h : SameLetters s s') {cl : CC} (hc : cl.caseless = true) (cur : Nat) :
    boundaryAt U true s cur cl = boundaryAt U true s' cur cl := by
  have key : ∀ i : Nat, (s[i]?).map (cl.matchChar U true) = (s'[i]?).map (cl.matchChar U true) := by
    intro i
    rcases h.get i with ⟨h1, h2⟩ | ⟨v, w, h1, h2, h3⟩
    · rw [h1, h2]
    · rw [h1, h2]
      simp only [Option.map_some]
      rw [CC.matchChar_fold h3 hc]
  unfold boundaryAt
  simp only [h.length, key]

theorem testAt_fold {U : Uni} {s s' : List Ch} (h : SameLetters s s') {r : Re} (hr : r.caseless = true) {f : Flags}
    (hf : f.ci = true) (cur : Nat) : testAt U s cur f r = testAt U s' cur f r := by
  cases r with
  | boundary c => simp only [testAt, hf, boundaryAt_fold h hr]
  | notBoundary c => simp only [testAt, hf, boundaryAt_fold h hr]
  | sEnd => simp only [testAt, h.length]
  | sEndLine =>
    simp only [testAt, h.length]
    rcases h.get cur with ⟨h1, h2⟩ | ⟨v, w, h1, h2, h3⟩
    · rw [h1, h2]
    · rw [h1, h2]; simp only [lowerCase_newline h3]
  | lEnd =>
    simp only [testAt, h.length]
    rcases h.get cur with ⟨h1, h2⟩ | ⟨v, w, h1, h2, h3⟩
    · rw [h1, h2]
    · rw [h1, h2]; simp only [lowerCase_newline h3]
  | lBegin =>
    cases cur with
    | zero => rfl
    | succ p =>
      simp only [testAt]
      rcases h.get p with ⟨h1, h2⟩ | ⟨v, w, h1, h2, h3⟩
      · rw [h1, h2]
      · rw [h1, h2]; simp only [lowerCase_newline h3]
  | _ => simp only [testAt]

def StkCaseless (st : Stack) : Prop := ∀ r, Item.re r ∈ st → r.caseless = true

theorem stkCaseless_cons {x : Item} {t : Stack} :
    StkCaseless (x :: t) ↔ (∀ r, x = .re r → r.caseless = true) ∧ StkCaseless t := by
  unfold StkCaseless
  constructor
  · intro h; exact ⟨fun r hr => h r (by simp [hr]), fun r hr => h r (by simp [hr])⟩
  · intro h r hr
    rcases List.mem_cons.1 hr with hr | hr
    · exact h.1 r hr.symm
    · exact h.2 r hr

theorem stkCaseless_re {r : Re} {t : Stack} : StkCaseless (.re r :: t) ↔ r.caseless = true ∧ StkCaseless t := by
  rw [stkCaseless_cons]; simp

theorem stkCaseless_mark {x : Item} {t : Stack} (hx : ∀ r, x ≠ .re r) (h : StkCaseless t) : StkCaseless (x :: t) := by
  rw [stkCaseless_cons]; exact ⟨fun r hr => absurd hr (hx r), h⟩

theorem stkCaseless_items {l : List Re} {t : Stack} (h : caselessList l = true) (ht : StkCaseless t) :
    StkCaseless (items l t) := by
  induction l with
  | nil => exact ht
  | cons r l ih =>
    simp only [caselessList, Bool.and_eq_true] at h
    have : items (r :: l) t = .re r :: items l t := rfl
    rw [this, stkCaseless_re]
    exact ⟨h.1, ih h.2⟩

theorem add_ci {f : Flags} {m : Mode} (hf : f.ci = true) (hm : m ≠ .caseSensitive) : (f.add m).ci = true := by
  cases m <;> simp_all [Flags.add]

theorem consumed_ci {f : Flags} {b : Bool} (hf : f.ci = true) : (f.consumed b).ci = true := by
  cases b <;> simpa [Flags.consumed] using hf

/-- Evaluation in case-insensitive mode gives the same outcome on subjects that differ in case. -/
theorem eval_caseless (C : Cfg) : ∀ n (s s' : List Ch) lb cur f c st, SameLetters s s' → f.ci = true → StkCaseless st →
    eval C n s lb cur f c st = eval C n s' lb cur f c st := by
  intro n
  induction n with
  | zero => intros; rfl
  | succ n ih =>
    intro s s' lb cur f c st h hf hst
    rcases st with _ | ⟨it, t⟩
    · rfl
    · have ht := (stkCaseless_cons.1 hst).2
      have iht : ∀ p f c, f.ci = true → eval C n s lb p f c t = eval C n s' lb p f c t :=
        fun p f c hf => ih s s' lb p f c t h hf ht
      cases it with
      | accept | endCycle | endAhead | endBehind => cases t <;> rfl
      | startMark => simp only [eval_startMark, iht _ _ _ hf]
      | endMark => simp only [eval_endMark, iht _ _ _ hf]
      | numMark id => simp only [eval_numMark, iht _ _ _ hf]
      | re r =>
        have hr := (stkCaseless_re.1 hst).1
        have hbody : ∀ m, caselessList m = true →
            (fun p c' => eval C n s lb p f.notEmpty c' (items m [.endCycle])) =
            (fun p c' => eval C n s' lb p f.notEmpty c' (items m [.endCycle])) := by
          intro m hm
          funext p c'
          exact ih s s' lb p _ _ _ h hf (stkCaseless_items hm (stkCaseless_mark (by simp) (by simp [StkCaseless])))
        have htail : (fun p c' => eval C n s lb p (f.consumed true) c' t) =
            (fun p c' => eval C n s' lb p (f.consumed true) c' t) := by
          funext p c'
          exact iht _ _ _ (consumed_ci hf)
        cases r with
        | cc cl =>
          simp only [eval_cc, h.length, hf]
          rcases h.get cur with ⟨h1, h2⟩ | ⟨v, w, h1, h2, h3⟩
          · rw [h1, h2]
          · rw [h1, h2]
            simp only [CC.matchChar_fold h3 hr, iht _ _ _ (consumed_ci hf)]
        | any =>
          simp only [eval_any, h.length]
          rcases h.get cur with ⟨h1, h2⟩ | ⟨v, w, h1, h2, h3⟩
          · rw [h1, h2]; simp only [iht _ _ _ (consumed_ci hf)]
          · rw [h1, h2]
            simp only [lowerCase_newline h3, iht _ _ _ (consumed_ci hf)]
        | str cs =>
          simp only [eval_str, hf, matchString_fold h, iht _ _ _ (consumed_ci hf)]
        | sel l =>
          cases l with
          | nil => rfl
          | cons r opts =>
            simp only [Re.caseless, caselessList, Bool.and_eq_true] at hr
            simp only [eval_sel_cons]
            rw [ih s s' lb cur f c _ h hf (stkCaseless_re.2 ⟨hr.1, ht⟩),
              ih s s' lb cur f c (.re (.sel opts) :: t) h hf (stkCaseless_re.2 ⟨hr.2, ht⟩)]
        | seq l =>
          rcases l with _ | ⟨r, _ | ⟨r', m⟩⟩
          · rfl
          · simp only [Re.caseless, caselessList, Bool.and_eq_true] at hr
            exact ih _ _ _ _ _ _ _ h hf (stkCaseless_re.2 ⟨hr.1, ht⟩)
          · simp only [Re.caseless, caselessList, Bool.and_eq_true] at hr
            refine ih _ _ _ _ _ _ _ h hf (stkCaseless_re.2 ⟨hr.1, stkCaseless_re.2 ⟨?_, ht⟩⟩)
            simp only [Re.caseless, caselessList, Bool.and_eq_true]
            exact hr.2
        | empty => exact iht _ _ _ hf
        | rep k a b m =>
          cases k with
          | lazy =>
            simp only [eval_lazy, hbody m hr, iht _ _ _ (consumed_ci hf)]
          | poss =>
            simp only [eval_poss, hbody m hr, iht _ _ _ (consumed_ci hf)]
          | greedy =>
            simp only [eval_greedy, greedyRecRef_eq, ite_self, hbody m hr, htail]
            rw [ih s s' lb cur f c (.re (.rep .poss a b m) :: t) h hf (stkCaseless_re.2 ⟨hr, ht⟩)]
        | cap id name m =>
          simp only [eval_cap]
          split
          · rfl
          · split
            · rfl
            · exact ih _ _ _ _ _ _ _ h hf (stkCaseless_re.2 ⟨hr, stkCaseless_mark (by simp) ht⟩)
        | bref id => simp [Re.caseless] at hr
        | brefName id => simp [Re.caseless] at hr
        | ahead pos m =>
          simp only [eval_ahead, iht _ _ _ hf]
          rw [ih s s' lb cur f c [.re (.seq m), .endAhead] h hf
            (stkCaseless_re.2 ⟨hr, stkCaseless_mark (by simp) (by simp [StkCaseless])⟩)]
        | behind pos m =>
          simp only [eval_behind, iht _ _ _ hf, h.length]
          rw [ih s.reverse s'.reverse true (s'.length - cur) f c [.re (.seq m), .endBehind] h.reverse hf
            (stkCaseless_re.2 ⟨hr, stkCaseless_mark (by simp) (by simp [StkCaseless])⟩)]
        | atomic m =>
          rw [eval_atomic, eval_atomic]
          exact ih _ _ _ _ _ _ _ h hf (stkCaseless_re.2 ⟨hr, ht⟩)
        | mode md =>
          simp only [Re.caseless, decide_eq_true_eq] at hr
          rw [eval_mode, eval_mode]
          exact iht _ _ _ (add_ci hf hr)
        | reject => rfl
        | boundary _ | notBoundary _ | sBegin | sEnd | sEndLine | lBegin | lEnd =>
          rw [eval_test (h := rfl), eval_test (h := rfl), testAt_fold h hr hf, iht _ _ _ hf]

end Ctre
