import Verif.Lemmas.Fusion
import Verif.Lemmas.ParseBody
import Verif.Props.Syntax

/-
C36: fusion of adjacent repetitions.
-/
namespace Ctre
open Parse Surface

/-- C36, what is built: two repetitions of the same text with the same kind, greedy or lazy, become one repetition with
the sums of the bounds. -/
theorem C36_built (P : PropTable) {a : Atom} (h : a.WF P.find 0) (hg : a.groups = 0) {q q' : Quant} (hq : q.counts = true)
    (hq' : q'.counts = true) (hw : q.WF) (hw' : q'.WF) (hk : q.kind = q'.kind) (hp : q.kind ≠ .poss)
    (hlo : q.least + q'.least < 2 ^ 64) (hhi : q.most + q'.most < 2 ^ 64) :
    ∃ r, build P a.print = .pattern r ∧ build P (a.print ++ q.print ++ (a.print ++ q'.print)) =
      .pattern (.rep q.kind (q.least + q'.least) (if q.most = 0 ∨ q'.most = 0 then 0 else q.most + q'.most) (unpack r)) := by
  have hne : ∀ {q : Quant}, q.counts = true → q ≠ .opt .poss := by rintro _ h rfl; simp [Quant.counts] at h
  have hw1 : (Body.alt (.one (.one a .none))).WF P.find 0 := by simp [Body.WF, Alt.WF, Cat.WF, h, Quant.WF]
  have hw2 : (Body.alt (.one (.cons a q (.one a q')))).WF P.find 0 := by
    simp [Body.WF, Alt.WF, Cat.WF, h, hg, hw, hw', hne hq, hne hq']
  have e1 := build_print hw1
  simp only [Body.print, Alt.print, Cat.print, Quant.print, List.append_nil] at e1
  refine ⟨_, e1, ?_⟩
  have e2 : build P (a.print ++ q.print ++ (a.print ++ q'.print)) =
      .pattern (bodyTree (Body.alt (.one (.cons a q (.one a q'))))) := build_print hw2
  rw [e2]
  simp only [bodyTree, altTree, catTree, quantTree_counts hq, quantTree_counts hq']
  have hm : ∀ {n : Nat}, n < 2 ^ 64 → n % szMod = n := fun h => Nat.mod_eq_of_lt (by simp only [szMod]; omega)
  rw [hm (show q.least < 2 ^ 64 by omega), hm (show q'.least < 2 ^ 64 by omega), hm (show q.most < 2 ^ 64 by omega),
    hm (show q'.most < 2 ^ 64 by omega), hk]
  have hcomb : combineMax q.most q'.most = if q.most = 0 ∨ q'.most = 0 then 0 else q.most + q'.most := by
    unfold combineMax
    rw [hm hhi]
    by_cases h1 : q.most = 0 <;> by_cases h2 : q'.most = 0 <;> simp [h1, h2]
  simp only [makeSequence, Re.sameList_refl, and_self, if_true]
  rw [hk] at hp
  revert hp
  cases q'.kind <;> intro hp
  · simp only [combineRepeat, hm hlo, hcomb]
    rfl
  · simp only [combineRepeat, hm hlo, hcomb]
    rfl
  · exact (hp rfl).elim

/-- C36, the meaning: two quantified atoms after each other mean the concatenation of what they mean, whether they are
fused or not, and also in front of further text. -/
theorem C36_meaning (P : PropTable) {a a' : Atom} {q q' : Quant} {l : Cat} (h : (Cat.cons a q (.cons a' q' l)).WF P.find 0)
    (hf : (Cat.cons a q (.cons a' q' l)).Faithful) (hn : (Cat.cons a q (.cons a' q' l)).size < 2 ^ 64)
    (hq : q ≠ .none) (hq' : q' ≠ .none) :
    ∃ r, build P (a.print ++ q.print ++ (a'.print ++ q'.print ++ l.print)) = .pattern r ∧
      ∀ (E : Env) (s : List Ch) (σ τ : MState), σ.pos ≤ s.length → (r.Match E s σ τ ↔
        ∃ π ρ i j, q.admits i ∧ Iterate (fun σ τ => ∃ ρ, a.Match E s σ ρ ∧ τ = withModes σ ρ) i σ π ∧
          q'.admits j ∧ Iterate (fun σ τ => ∃ ρ, a'.Match E s σ ρ ∧ τ = withModes σ ρ) j π ρ ∧ l.Match E s ρ τ) := by
  obtain ⟨r, h1, h2⟩ := C31_meaning P (b := .alt (.one (.cons a q (.cons a' q' l)))) h hf hn
  refine ⟨r, h1, fun E s σ τ hσ => ?_⟩
  rw [h2 E s σ τ hσ]
  simp only [Body.Match, Alt.Match]
  have key : ∀ {a : Atom} {q : Quant} {l : Cat} {σ τ : MState}, q ≠ .none → ((Cat.cons a q l).Match E s σ τ ↔
      ∃ π, (∃ k, q.admits k ∧ Iterate (fun σ τ => ∃ ρ, a.Match E s σ ρ ∧ τ = withModes σ ρ) k σ π) ∧ l.Match E s π τ) := by
    intro a q l σ τ hq
    cases q with
    | none => exact (hq rfl).elim
    | _ => simp only [Cat.Match]
  rw [key hq]
  simp only [key hq']
  constructor
  · rintro ⟨π, ⟨i, h1, h2⟩, ρ, ⟨j, h3, h4⟩, h5⟩
    exact ⟨π, ρ, i, j, h1, h2, h3, h4, h5⟩
  · rintro ⟨π, ρ, i, j, h1, h2, h3, h4, h5⟩
    exact ⟨π, ⟨i, h1, h2⟩, ρ, ⟨j, h3, h4⟩, h5⟩

/-- C36, the meaning of the fused repetition, for any content. -/
theorem C36_language {k : RepKind} {a b c d : Nat} {l : List Re} (h1 : b = 0 ∨ a ≤ b) (h2 : d = 0 ∨ c ≤ d) {E : Env} {s : List Ch}
    {σ τ : MState} : (Re.rep k (a + c) (if b = 0 ∨ d = 0 then 0 else b + d) l).Match E s σ τ ↔
      (Re.seq [.rep k a b l, .rep k c d l]).Match E s σ τ := by
  have h := rep_join (E := E) (k := k) (l := l) (s := s) (σ := σ) (τ := τ) h1 h2
  have e : (if b = 0 ∨ d = 0 then 0 else b + d) = if b ≠ 0 ∧ d ≠ 0 then b + d else 0 := by
    by_cases hb : b = 0 <;> by_cases hd : d = 0 <;> simp [hb, hd]
  rw [e, h]
  simp only [Re.Match, MatchAll]
  constructor
  · rintro ⟨ρ, h1, h2⟩; exact ⟨ρ, h1, τ, h2, rfl⟩
  · rintro ⟨ρ, h1, _, h2, rfl⟩; exact ⟨ρ, h1, h2⟩

variable {C : Cfg} {s : List Ch} {f : Flags} {cp : Caps} {x : Re} {a b c d cur : Nat} {t : Stack} {o : Out}

/-- C36, the results, greedy: for a repeated character class the run of the fused repetition has the same outcome,
including the captures, as the run of the two repetitions, whatever follows. -/
theorem C36_greedy (hx : x.isSingle = true) (hopt : C.greedyOpt = false) (h1 : b = 0 ∨ a ≤ b) (h2 : d = 0 ∨ c ≤ d)
    (hcur : cur ≤ s.length) :
    Runs C s false cur f cp (.re (.rep .greedy (a + c) (fusedMax b d) [x]) :: t) o ↔
      Runs C s false cur f cp (.re (.rep .greedy a b [x]) :: .re (.rep .greedy c d [x]) :: t) o := by
  rw [C11_greedy_most hx (.inl hopt) (by unfold fusedMax; split <;> omega) hcur, C11_greedy_most hx (.inl hopt) h1 hcur,
    ← most_join h1 h2]
  refine MostTimes.congr fun k hk o => ?_
  rw [C11_greedy_most hx (.inl hopt) h2 (canTake_le hx hcur hk), canTake_flags Flags.consumed_ci.1 Flags.consumed_ci.2]
  refine MostTimes.congr fun j hj o => ?_
  rw [Caps.afterChars_afterChars, Flags.consumed_consumed, Nat.add_assoc, Bool.or_self]

/-- C36, the results, lazy. -/
theorem C36_lazy (hx : x.isSingle = true) (h1 : b = 0 ∨ a ≤ b) (h2 : d = 0 ∨ c ≤ d) (hcur : cur ≤ s.length) :
    Runs C s false cur f cp (.re (.rep .lazy (a + c) (fusedMax b d) [x]) :: t) o ↔
      Runs C s false cur f cp (.re (.rep .lazy a b [x]) :: .re (.rep .lazy c d [x]) :: t) o := by
  rw [C11_lazy_fewest hx (by unfold fusedMax; split <;> omega) hcur, C11_lazy_fewest hx h1 hcur, ← fewest_join h1 h2]
  refine FewestTimes.congr fun k hk o => ?_
  rw [C11_lazy_fewest hx h2 (canTake_le hx hcur hk), canTake_flags Flags.consumed_ci.1 Flags.consumed_ci.2]
  refine FewestTimes.congr fun j hj o => ?_
  rw [Caps.afterChars_afterChars, Flags.consumed_consumed, Nat.add_assoc]
  have : (decide (cur ≠ cur + k) || decide (cur + k ≠ cur + (k + j))) = decide (cur ≠ cur + (k + j)) := by
    by_cases hk : k = 0 <;> by_cases hj : j = 0 <;> simp [hk, hj] <;> omega
  rw [this]

/-- C36, the results, possessive repetitions at the end of a pattern: what is built for them behaves like the two
repetitions. -/
theorem C36_possessive_last (hx : x.isSingle = true) (h1 : b = 0 ∨ a ≤ b) (h2 : d = 0 ∨ c ≤ d) (hcur : cur ≤ s.length)
    (hlo : b + c < 2 ^ 64) (hhi : b + d < 2 ^ 64) :
    Runs C s false cur f cp (.re (makeSequence (.rep .poss c d [x]) (.rep .poss a b [x])) :: t) o ↔
      Runs C s false cur f cp (.re (.rep .poss a b [x]) :: .re (.rep .poss c d [x]) :: t) o := by
  have hm : ∀ {n : Nat}, n < 2 ^ 64 → n % szMod = n := fun h => Nat.mod_eq_of_lt (by simp only [szMod]; omega)
  have hcm : combineMax b d = fusedMax b d := by unfold combineMax fusedMax; rw [hm hhi]
  have hright : Runs C s false cur f cp (.re (.rep .poss a b [x]) :: .re (.rep .poss c d [x]) :: t) o ↔
      AllTimes (CanTake C.uni s f x a b cur) (fun k => AllTimes (CanTake C.uni s f x c d (cur + k)) (fun j o =>
        Runs C s false (cur + (k + j)) (f.consumed (decide (cur ≠ cur + (k + j)))) (cp.afterChars cur (k + j)) t o)) o := by
    rw [C11_possessive_all hx h1 hcur]
    refine AllTimes.congr fun k hk o => ?_
    rw [C11_possessive_all hx h2 (canTake_le hx hcur hk), canTake_flags Flags.consumed_ci.1 Flags.consumed_ci.2]
    refine AllTimes.congr fun j hj o => ?_
    rw [Caps.afterChars_afterChars, Flags.consumed_consumed, Nat.add_assoc]
    have : (decide (cur ≠ cur + k) || decide (cur + k ≠ cur + (k + j))) = decide (cur ≠ cur + (k + j)) := by
      by_cases hk : k = 0 <;> by_cases hj : j = 0 <;> simp [hk, hj] <;> omega
    rw [this]
  rw [hright]
  simp only [makeSequence, Re.sameList_refl, and_self, if_true, combineRepeat, hm hlo, hcm]
  by_cases hb : b = 0
  · subst hb
    by_cases hc : 0 < c
    · rw [if_pos ⟨rfl, hc⟩, all_join_reject hx hcur hc (K := fun n o => Runs C s false (cur + n)
        (f.consumed (decide (cur ≠ cur + n))) (cp.afterChars cur n) t o)]
      constructor
      · rintro ⟨ho, n, hn⟩
        replace hn := eval_of_le C (show n ≤ n + 2 by omega) hn ho
        rw [eval_seq_cons, eval_reject] at hn
        exact hn.symm
      · rintro rfl
        exact ⟨by simp, 2, by rw [eval_seq_cons, eval_reject]⟩
    · rw [if_neg (by omega), if_pos rfl]
      have : c = 0 := by omega
      subst this
      rw [C11_possessive_all hx h1 hcur]
      exact (all_join_rest hx hcur).symm
  · rw [if_neg (by omega), if_neg hb]
    rw [all_join_bounded hx hcur hb (by omega) h2 (K := fun n o => Runs C s false (cur + n)
        (f.consumed (decide (cur ≠ cur + n))) (cp.afterChars cur n) t o)]
    by_cases hc : c = 0
    · rw [if_pos hc, if_pos hc, C11_possessive_all hx (by unfold fusedMax; split <;> omega) hcur]
    · rw [if_neg hc, if_neg hc, C11_possessive_all hx (by unfold fusedMax; split <;> omega) hcur]

/-- C36 fails for possessive repetitions in front of other text: `a*+a++b` is built like `a++b` and matches "ab", which the
repetitions taken one after the other do not; `a{1,2}+a*+b` is built as a pattern that never matches, but "ab" is matched
by the two repetitions one after the other. -/
theorem C36_fails_possessive :
    build {} [97, 42, 43, 97, 43, 43, 98] = .pattern (.seq [.rep .poss 1 0 [.cc (.chr 97)], .cc (.chr 98)]) ∧
    cMatch {} 20 [97, 98] {} (.seq [.rep .poss 1 0 [.cc (.chr 97)], .cc (.chr 98)]) = .done { whole := ⟨some 0, some 2, true⟩ } ∧
    cMatch {} 20 [97, 98] {} (.seq [.rep .poss 0 0 [.cc (.chr 97)], .rep .poss 1 0 [.cc (.chr 97)], .cc (.chr 98)]) = .done {} ∧
    build {} [97, 123, 49, 44, 50, 125, 43, 97, 42, 43, 98] =
      .pattern (.seq [.seq [.reject true, .cc (.chr 97)], .cc (.chr 98)]) ∧
    cMatch {} 20 [97, 98] {} (.seq [.seq [.reject true, .cc (.chr 97)], .cc (.chr 98)]) = .done {} ∧
    cMatch {} 20 [97, 98] {} (.seq [.rep .poss 1 2 [.cc (.chr 97)], .rep .poss 0 0 [.cc (.chr 97)], .cc (.chr 98)]) =
      .done { whole := ⟨some 0, some 2, true⟩ } :=
  ⟨rfl, by decide +kernel, by decide +kernel, rfl, by decide +kernel, by decide +kernel⟩

/-- C36 fails for bounds in the wrong order: `a{2,1}` never matches, but `a{2,1}a{0,2}` is built as `a{2,3}` and matches
"aa". -/
theorem C36_fails_inverted :
    build {} [97, 123, 50, 44, 49, 125, 97, 123, 48, 44, 50, 125] = .pattern (.rep .greedy 2 3 [.cc (.chr 97)]) ∧
    cMatch {} 20 [97, 97] {} (.rep .greedy 2 3 [.cc (.chr 97)]) = .done { whole := ⟨some 0, some 2, true⟩ } ∧
    (∀ (E : Env) (s : List Ch) (σ τ : MState), ¬ (Re.rep .greedy 2 1 [.cc (.chr 97)]).Match E s σ τ) :=
  ⟨rfl, by decide +kernel, fun E s σ τ h => by
    simp only [Re.Match] at h
    obtain ⟨n, h1, h2, _⟩ := h
    omega⟩

/-- C36 fails when the sum of the bounds reaches 2^64: `a{18446744073709551615}a{1}` is built like `a*` and matches "". -/
theorem C36_fails_overflow :
    build {} [97, 123, 49, 56, 52, 52, 54, 55, 52, 52, 48, 55, 51, 55, 48, 57, 53, 53, 49, 54, 49, 53, 125, 97, 123, 49, 125] =
      .pattern (.rep .greedy 0 0 [.cc (.chr 97)]) ∧
    cMatch {} 20 [] {} (.rep .greedy 0 0 [.cc (.chr 97)]) = .done { whole := ⟨some 0, some 0, true⟩ } :=
  ⟨rfl, by decide +kernel⟩

/-! ### Cases -/

-- `[xy]{2,3}?[xy]+?` is built as `[xy]{3,}?`
example : build {} [91, 120, 121, 93, 123, 50, 44, 51, 125, 63, 91, 120, 121, 93, 43, 63] =
    .pattern (.rep .lazy 3 0 [.cc (.set [.chr 120, .chr 121])]) := rfl
example : (Atom.set false [.one (.plain 120), .one (.plain 121)]).WF (PropTable.find {}) 0 := by
  simp [Atom.WF, SetWF, SetItem.WF, Char1.WF, specialInSet]
example : (Quant.between [50] [51] .lazy).counts = true ∧ (Quant.plus .lazy).counts = true ∧
    (Quant.between [50] [51] .lazy).kind = (Quant.plus .lazy).kind := by decide
example : (Quant.between [50] [51] .lazy).WF := by simp [Quant.WF, isNumber, isDec]
-- fused in front of other text: `a?a*b`
example : build {} [97, 63, 97, 42, 98] = .pattern (.seq [.rep .greedy 0 0 [.cc (.chr 97)], .cc (.chr 98)]) := rfl
-- possessive at the end: `a{1,2}+a{1,3}+` needs at least three
example : build {} [97, 123, 49, 44, 50, 125, 43, 97, 123, 49, 44, 51, 125, 43] = .pattern (.rep .poss 3 5 [.cc (.chr 97)]) := rfl
example : Runs {} [97, 97] false 0 {} {} [.re (.rep .poss 1 2 [.cc (.chr 97)]), .re (.rep .poss 1 3 [.cc (.chr 97)]), .endMark, .accept]
    .fail := ⟨by simp, 20, by decide +kernel⟩

end Ctre
