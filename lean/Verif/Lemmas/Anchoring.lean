import Verif.Spec.Anchoring
import Verif.Lemmas.Indifferent
import Verif.Lemmas.FlatEval
import Verif.Lemmas.Runs
import Verif.Lemmas.SurfaceFirm
/-
Anchors around a pattern: the trees of the texts, and `$` in place of `\z` when multiline mode is never on.
-/
namespace Ctre
open Parse Surface

/-! ### `(?m)` in the tree -/

mutual
theorem atom_keepsLines : ∀ (a : Atom), a.keepsLines = true → Re.mode .multiline ∉ (atomTree a).leaves
  | .ch _, _ | .cls _, _ | .set _ _, _ | .dot, _ | .bol, _ | .eol, _ | .subjectEndLine, _ | .wordBoundary, _ | .notWordBoundary, _
  | .unknown _ _, _ | .subjectBegin, _ | .subjectEnd, _ | .ref _, _ | .refNumber _, _ | .refRelative _ _, _ | .refName _, _ => by
    simp [atomTree, Re.leaves]
  | .mode .caseInsensitive, _ | .mode .caseSensitive, _ | .mode .singleline, _ => by simp [atomTree, Re.leaves]
  | .mode .multiline, h => by simp [Atom.keepsLines] at h
  | .cap _ b, h | .named _ _ b, h | .ahead _ b, h | .atomic b, h => by
    simp only [atomTree, Re.leaves, leaves_unpack]
    exact body_keepsLines b h
  | .behind _ b, h => by
    simp only [atomTree, Re.leaves]
    exact fun hz => body_keepsLines b h (leaves_rotated _ _ hz)
  | .group b, h => by
    simp only [atomTree]
    exact body_keepsLines b h

theorem cat_keepsLines : ∀ (c : Cat), c.keepsLines = true → Re.mode .multiline ∉ (catTree c).leaves
  | .one a q, h => by
    simp only [catTree]
    exact fun hz => atom_keepsLines a h (leaves_quant _ hz)
  | .cons a q l, h => by
    simp only [Cat.keepsLines, Bool.and_eq_true] at h
    simp only [catTree]
    intro hz
    rcases leaves_sequence _ hz with h' | h'
    · exact atom_keepsLines a h.1 (leaves_quant _ h')
    · exact cat_keepsLines l h.2 h'

theorem alt_keepsLines : ∀ (l : Alt), l.keepsLines = true → Re.mode .multiline ∉ (altTree l).leaves
  | .empty, _ => by simp [altTree, Re.leaves]
  | .one c, h => by simp only [altTree]; exact cat_keepsLines c h
  | .bar c l, h => by
    simp only [Alt.keepsLines, Bool.and_eq_true] at h
    simp only [altTree]
    intro hz
    rcases leaves_alternate _ hz with h' | h'
    · exact cat_keepsLines c h.1 h'
    · exact alt_keepsLines l h.2 h'

theorem body_keepsLines : ∀ (b : Body), b.keepsLines = true → Re.mode .multiline ∉ (bodyTree b).leaves
  | .alt l, h => by simp only [bodyTree]; exact alt_keepsLines l h
  | .lead l, h => by
    simp only [bodyTree]
    intro hz
    rcases leaves_alternate _ hz with h' | h'
    · simp [Re.leaves] at h'
    · exact alt_keepsLines l h h'
end

/-! ### `$` in place of `\z` -/

/-- No item switches to multiline mode. -/
def StkLines (st : Stack) : Prop := ∀ r, Item.re r ∈ st → Re.mode .multiline ∉ r.leaves

theorem stkLines_re {r : Re} {t : Stack} : StkLines (.re r :: t) ↔ Re.mode .multiline ∉ r.leaves ∧ StkLines t := by
  unfold StkLines
  constructor
  · intro h; exact ⟨h r (by simp), fun r hr => h r (by simp [hr])⟩
  · rintro ⟨h1, h2⟩ r' hr
    rcases List.mem_cons.1 hr with hr | hr
    · cases hr; exact h1
    · exact h2 r' hr

theorem stkLines_tail {i : Item} {t : Stack} (h : StkLines (i :: t)) : StkLines t := fun r hr => h r (List.mem_cons_of_mem _ hr)

theorem stkLines_mark {i : Item} {t : Stack} (hx : ∀ r, i ≠ .re r) (h : StkLines t) : StkLines (i :: t) := by
  intro r hr
  rcases List.mem_cons.1 hr with hr | hr
  · exact absurd hr.symm (hx r)
  · exact h r hr

theorem first_dollar (T : Stack) : first (.re .lEnd :: T) = first (.re .sEnd :: T) := rfl

/-- If multiline mode is off and never switched on before `$` is reached, `$` is `\z`. -/
theorem eval_dollar (C : Cfg) (T : Stack) : ∀ n (s : List Ch) lb cur (f : Flags) c pre, f.ml = false → StkLines pre →
    eval C n s lb cur f c (pre ++ .re .lEnd :: T) = eval C n s lb cur f c (pre ++ .re .sEnd :: T) := by
  intro n
  induction n with
  | zero => intros; rfl
  | succ n ih =>
    intro s lb cur f c st hf hst
    rcases st with _ | ⟨it, t⟩
    · rw [List.nil_append, List.nil_append, eval_test (h := rfl), eval_test (h := rfl)]
      simp [testAt, hf]
    · have ht := stkLines_tail hst
      have iht : ∀ p (f : Flags) c, f.ml = false → eval C n s lb p f c (t ++ .re .lEnd :: T) = eval C n s lb p f c (t ++ .re .sEnd :: T) :=
        fun p f c hf => ih s lb p f c t hf ht
      have hcons : ∀ b, (f.consumed b).ml = false := by intro b; cases b <;> exact hf
      obtain ⟨y1, u1, e1⟩ : ∃ y u, t ++ .re .lEnd :: T = y :: u := by cases t <;> exact ⟨_, _, rfl⟩
      obtain ⟨y2, u2, e2⟩ : ∃ y u, t ++ .re .sEnd :: T = y :: u := by cases t <;> exact ⟨_, _, rfl⟩
      rw [List.cons_append, List.cons_append]
      cases it with
      | accept | endAhead | endBehind | endCycle => rw [e1, e2]; rfl
      | startMark => simp only [eval_startMark, iht _ _ _ hf]
      | endMark => simp only [eval_endMark, iht _ _ _ hf]
      | numMark id => simp only [eval_numMark, iht _ _ _ hf]
      | re r =>
        have hr := (stkLines_re.1 hst).1
        have htail : (fun p c' => eval C n s lb p (f.consumed true) c' (t ++ .re .lEnd :: T)) =
            (fun p c' => eval C n s lb p (f.consumed true) c' (t ++ .re .sEnd :: T)) := by
          funext p c'
          exact iht _ _ _ (hcons true)
        cases r with
        | cc cl => simp only [eval_cc, iht _ _ _ (hcons true)]
        | any => simp only [eval_any, iht _ _ _ (hcons true)]
        | str cs => simp only [eval_str, iht _ _ _ (hcons _)]
        | sel l =>
          cases l with
          | nil => rfl
          | cons r opts =>
            simp only [Re.leaves, leavesAll, List.mem_append, not_or] at hr
            simp only [eval_sel_cons]
            have h1 := ih s lb cur f c (.re r :: t) hf (stkLines_re.2 ⟨hr.1, ht⟩)
            have h2 := ih s lb cur f c (.re (.sel opts) :: t) hf (stkLines_re.2 ⟨hr.2, ht⟩)
            simp only [List.cons_append] at h1 h2
            rw [h1, h2]
        | seq l =>
          rcases l with _ | ⟨r, _ | ⟨r', m⟩⟩
          · rfl
          · simp only [Re.leaves, leavesAll, List.append_nil] at hr
            exact ih _ _ _ _ _ (.re r :: t) hf (stkLines_re.2 ⟨hr, ht⟩)
          · simp only [Re.leaves, leavesAll, List.mem_append, not_or] at hr
            exact ih _ _ _ _ _ (.re r :: .re (.seq (r' :: m)) :: t) hf
              (stkLines_re.2 ⟨hr.1, stkLines_re.2 ⟨by simpa only [Re.leaves, leavesAll, List.mem_append, not_or] using hr.2, ht⟩⟩)
        | empty => exact iht _ _ _ hf
        | rep k a b m =>
          cases k with
          | lazy => simp only [eval_lazy, htail, iht _ _ _ (hcons _)]
          | poss => simp only [eval_poss, iht _ _ _ (hcons _)]
          | greedy =>
            simp only [eval_greedy, greedyRecRef_eq, ite_self, htail, loopCollides_append (first_dollar T) m t]
            have h1 := ih s lb cur f c (.re (.rep .poss a b m) :: t) hf (stkLines_re.2 ⟨hr, ht⟩)
            simp only [List.cons_append] at h1
            rw [h1]
        | cap id name m =>
          simp only [eval_cap]
          split
          · rfl
          · split
            · rfl
            · exact ih _ _ _ _ _ (.re (.seq m) :: .numMark id :: t) hf (stkLines_re.2 ⟨hr, stkLines_mark (by simp) ht⟩)
        | bref id => simp only [eval_bref, iht _ _ _ (hcons _)]
        | brefName id => simp only [eval_brefName, iht _ _ _ (hcons _)]
        | ahead pos m => simp only [eval_ahead, iht _ _ _ hf]
        | behind pos m => simp only [eval_behind, iht _ _ _ hf]
        | atomic m =>
          rw [eval_atomic, eval_atomic]
          exact ih _ _ _ _ _ (.re (.rep .poss 1 1 m) :: t) hf (stkLines_re.2 ⟨hr, ht⟩)
        | mode md =>
          rw [eval_mode, eval_mode]
          refine iht _ _ _ ?_
          cases md <;> first | exact hf | rfl | exact absurd (by simp [Re.leaves]) hr
        | reject => rfl
        | boundary _ | notBoundary _ | sBegin | sEnd | sEndLine | lBegin | lEnd =>
          rw [eval_test (h := rfl), eval_test (h := rfl), iht _ _ _ hf]

/-! ### The trees -/

theorem sequence_sEnd (r : Re) : makeSequence .sEnd r = .seq [r, .sEnd] := by
  cases r <;> simp [makeSequence]

theorem sequence_lEnd (r : Re) : makeSequence .lEnd r = .seq [r, .lEnd] := by
  cases r <;> simp [makeSequence]

theorem sequence_sBegin_flat {r : Re} (h : r ≠ .seq []) : (makeSequence r .sBegin).flat = .sBegin :: r.flat := by
  cases r with
  | seq l =>
    cases l with
    | nil => exact absurd rfl h
    | cons a l => simp [makeSequence, Re.flat, flatList]
  | _ => simp [makeSequence, Re.flat, flatList]

/-! ### `[^]*` and `[^]*?` -/

variable {E : Env} {s : List Ch}

theorem anyCharacter_iteration (σ : MState) : iteration true (fun σ => anyCharacter.ways true E s σ) σ =
    if σ.pos < s.length then [{ σ with pos := σ.pos + 1 }] else [] := by
  simp only [anyCharacter, Atom.ways, iteration, stepIf]
  by_cases h : σ.pos < s.length
  · rw [List.getElem?_eq_getElem h]
    simp [h]
  · rw [List.getElem?_eq_none (by omega)]
    simp [h]

theorem rest_ways : ∀ (m : Nat) (σ : MState), s.length - σ.pos ≤ m → σ.pos ≤ s.length →
    ((most (iteration true fun σ => anyCharacter.ways true E s σ) m σ).filter fun τ => decide (τ.pos = s.length)) =
      [{ σ with pos := s.length }] := by
  intro m
  induction m with
  | zero =>
    intro σ h1 h2
    have h3 : σ.pos = s.length := by omega
    simp only [most, List.filter_cons, h3, decide_true, if_true, List.filter_nil, List.cons.injEq, and_true]
    rw [← h3]
  | succ m ih =>
    intro σ h1 h2
    simp only [most, anyCharacter_iteration, List.filter_append]
    by_cases h : σ.pos < s.length
    · rw [if_pos h]
      simp only [List.flatMap_cons, List.flatMap_nil, List.append_nil]
      rw [ih _ (by simp only; omega) (by simp only; omega)]
      simp [show ¬ σ.pos = s.length by omega]
    · have h3 : σ.pos = s.length := by omega
      rw [if_neg h]
      simp only [List.flatMap_nil, List.filter_nil, List.nil_append, List.filter_cons, h3, decide_true, if_true, List.cons.injEq, and_true]
      rw [← h3]

theorem skip_ways : ∀ (m : Nat) (σ : MState), s.length - σ.pos ≤ m → σ.pos ≤ s.length →
    fewest (iteration true fun σ => anyCharacter.ways true E s σ) m σ =
      (List.range' σ.pos (s.length - σ.pos + 1)).map fun i => { σ with pos := i } := by
  intro m
  induction m with
  | zero =>
    intro σ h1 h2
    rw [show s.length - σ.pos = 0 by omega]
    simp [fewest, List.range'_succ]
  | succ m ih =>
    intro σ h1 h2
    simp only [fewest, anyCharacter_iteration]
    by_cases h : σ.pos < s.length
    · rw [if_pos h]
      simp only [List.flatMap_cons, List.flatMap_nil, List.append_nil]
      rw [ih _ (by simp only; omega) (by simp only; omega), List.range'_succ (s := σ.pos) (n := s.length - σ.pos), List.map_cons]
      simp only
      rw [show s.length - (σ.pos + 1) + 1 = s.length - σ.pos by omega]
    · rw [if_neg h, show s.length - σ.pos = 0 by omega]
      simp [List.range'_succ]

theorem filter_flatMap_rest {L : List MState} (h : ∀ τ ∈ L, τ.pos ≤ s.length) :
    ((L.flatMap fun ρ => most (iteration true fun σ => anyCharacter.ways true E s σ) s.length ρ).filter fun τ => decide (τ.pos = s.length)) =
      L.map fun τ => { τ with pos := s.length } := by
  induction L with
  | nil => rfl
  | cons τ L ih =>
    rw [List.flatMap_cons, List.filter_append, rest_ways _ _ (by omega) (h τ (by simp)), ih fun τ hτ => h τ (by simp [hτ])]
    rfl

theorem withRest_ways (b : Body) {σ : MState} (hσ : σ.pos ≤ s.length) :
    (((withRest b).ways true E s σ).filter fun τ => decide (τ.pos = s.length)) =
      (b.ways true E s σ).map fun τ => { τ with pos := s.length } := by
  simp only [withRest, Body.ways, Alt.ways, Cat.ways, Quant.ways, Quant.kind, Quant.low, Quant.extra, times, List.flatMap_cons, List.flatMap_nil,
    List.append_nil]
  have : ∀ σ, Atom.ways true E (.group b) s σ = b.ways true E s σ := fun σ => by simp only [Atom.ways]
  simp only [this]
  exact filter_flatMap_rest fun τ hτ => (body_fwd hτ hσ).2

theorem somewhere_ways (b : Body) (σ : MState) (hσ : σ.pos ≤ s.length) :
    (((somewhere b).ways true E s σ).filter fun τ => decide (τ.pos = s.length)) =
      (List.range' σ.pos (s.length - σ.pos + 1)).flatMap fun i => (b.ways true E s { σ with pos := i }).map fun τ => { τ with pos := s.length } := by
  have e : (somewhere b).ways true E s σ = (fewest (iteration true fun σ => anyCharacter.ways true E s σ) s.length σ).flatMap
      fun ρ => (withRest b).ways true E s ρ := by
    simp only [somewhere, withRest, Body.ways, Alt.ways, Cat.ways, Quant.ways, Quant.kind, Quant.low, Quant.extra, times, List.flatMap_cons, List.flatMap_nil,
      List.append_nil]
  rw [e, skip_ways _ _ (by omega) hσ, List.filter_flatMap, List.flatMap_map]
  rw [List.flatMap_def, List.flatMap_def]
  refine congrArg _ (List.map_congr_left fun i hi => ?_)
  refine withRest_ways b ?_
  simp only [List.mem_range'_1] at hi
  simp only; omega

end Ctre
