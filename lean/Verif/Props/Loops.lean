import Verif.Lemmas.Times

/-
C11: iteration counts of greedy, lazy and possessive repetition of a single-character pattern.
-/
namespace Ctre

variable {C : Cfg} {s : List Ch} {f : Flags} {c : Caps} {x : Re} {a b cur : Nat} {t : Stack}

/-- C11, greedy: a repeated single-character pattern is repeated as often as possible such that the
continuation does not fail. -/
theorem C11_greedy_most (hx : x.isSingle = true) (hopt : C.greedyOpt = false ∨ loopCollides [x] t = some true)
    (hab : b = 0 ∨ a ≤ b) (hcur : cur ≤ s.length) {o : Out} :
    Runs C s false cur f c (.re (.rep .greedy a b [x]) :: t) o ↔
    MostTimes (CanTake C.uni s f x a b cur)
      (fun k o => Runs C s false (cur + k) (f.consumed true) (c.afterChars cur k) t o) o := by
  have hg : (if C.greedyOpt = true then loopCollides [x] t else some true) = some true := by
    rcases hopt with h | h <;> simp [h]
  have hsing : SingleAt C s f.notEmpty x (takesB C.uni s f x) := by
    rw [← takes_notEmpty]; exact singleAt hx
  constructor
  · rintro ⟨ho, n, hn⟩
    replace hn := eval_of_le C (show n ≤ n + 3 by omega) hn ho
    rw [eval_greedy, if_neg (by omega)] at hn
    simp only [Bool.false_eq_true, if_false, hg, greedyRecRef_eq, ite_self] at hn
    rcases mandLoop_one (hsing.oneBody n) a cur c hcur with ⟨h1, h2⟩ | ⟨h1, h2⟩
    · rw [h2] at hn
      have hle : cur + a ≤ s.length := by
        cases a with
        | zero => exact hcur
        | succ a => have := hsing.1 _ (h1 a (by omega)); omega
      have hm := ((greedyRec_one (hsing.oneBody n) (n+2) a (cur + a) (c.afterChars cur a) o hle ho hab).1 hn)
      rw [most_iff h1] at hm
      rcases hm with ⟨rfl, h⟩ | ⟨h3, k, h4, h5, h6⟩
      · exact .inl ⟨rfl, fun k hk => ⟨by simp, _, h k hk⟩⟩
      · exact .inr ⟨h3, k, h4, ⟨ho, _, h5⟩, fun k' hk' hc => ⟨by simp, _, h6 k' hk' hc⟩⟩
    · rw [h2] at hn
      exact .inl ⟨hn.symm, fun k hk => (no_take_of h1 hk).elim⟩
  · intro h
    obtain ⟨N, hN⟩ := most_fuel
      (K := fun k n => eval C n s false (cur + k) (f.consumed true) (c.afterChars cur k) t)
      (fun k n m hnm h => eval_of_le C hnm rfl h) (fun k hk => canTake_lt hx hk) h
    obtain ⟨hm, ho⟩ := hN (N + s.length + 2) (by omega)
    refine ⟨ho, N + s.length + 3, ?_⟩
    rw [eval_greedy, if_neg (by omega)]
    simp only [Bool.false_eq_true, if_false, hg, greedyRecRef_eq, ite_self]
    rcases mandLoop_one (hsing.oneBody (N + s.length)) a cur c hcur with ⟨h1, h2⟩ | ⟨h1, h2⟩
    · rw [h2]
      have hle : cur + a ≤ s.length := by
        cases a with
        | zero => exact hcur
        | succ a => have := hsing.1 _ (h1 a (by omega)); omega
      refine (greedyRec_one (hsing.oneBody (N + s.length)) _ a (cur + a) (c.afterChars cur a) o hle ho hab).2 ?_ ?_
      · intro k hk
        have := bound hx hk; omega
      · rw [most_iff h1]; exact hm
    · rw [h2]
      rcases hm with ⟨rfl, _⟩ | ⟨_, k, hk, _⟩
      · rfl
      · exact (no_take_of h1 hk).elim

/-- C11, lazy: a repeated single-character pattern is repeated as few times as possible such that the
continuation does not fail. -/
theorem C11_lazy_fewest (hx : x.isSingle = true) (hab : b = 0 ∨ a ≤ b) (hcur : cur ≤ s.length) {o : Out} :
    Runs C s false cur f c (.re (.rep .lazy a b [x]) :: t) o ↔
    FewestTimes (CanTake C.uni s f x a b cur)
      (fun k o => Runs C s false (cur + k) (f.consumed (decide (cur ≠ cur + k))) (c.afterChars cur k) t o) o := by
  have hsing : SingleAt C s f.notEmpty x (takesB C.uni s f x) := by
    rw [← takes_notEmpty]; exact singleAt hx
  have key : ∀ n, Run (takesB C.uni s f x) cur a → cur + a ≤ s.length → o ≠ .timeout →
      let T := fun p c' => eval C (n+2) s false p (f.consumed (decide (cur ≠ p))) c' t
      ((T (cur + a) (c.afterChars cur a)).orElse
        (lazyLoop (fun p c' => eval C (n+2) s false p f.notEmpty c' (items [x] [.endCycle]))
          (fun p c' => eval C (n+2) s false p (f.consumed true) c' t) b (n+2) a (cur + a) (c.afterChars cur a)) = o →
        Fewest (takesB C.uni s f x) T b a (cur + a) (c.afterChars cur a) o) ∧
      (s.length < n + 2 → Fewest (takesB C.uni s f x) T b a (cur + a) (c.afterChars cur a) o →
        (T (cur + a) (c.afterChars cur a)).orElse
        (lazyLoop (fun p c' => eval C (n+2) s false p f.notEmpty c' (items [x] [.endCycle]))
          (fun p c' => eval C (n+2) s false p (f.consumed true) c' t) b (n+2) a (cur + a) (c.afterChars cur a)) = o) := by
    intro n hra hle ho T
    have hT : lazyLoop (fun p c' => eval C (n+2) s false p f.notEmpty c' (items [x] [.endCycle]))
          (fun p c' => eval C (n+2) s false p (f.consumed true) c' t) b (n+2) a (cur + a) (c.afterChars cur a) =
        lazyLoop (fun p c' => eval C (n+2) s false p f.notEmpty c' (items [x] [.endCycle]))
          T b (n+2) a (cur + a) (c.afterChars cur a) := by
      refine lazyLoop_tail_congr (hsing.oneBody n) _ _ _ _ hle ?_ ?_
      · intro p' c' hp'
        simp only [T, decide_eq_true (show cur ≠ p' by omega)]
      · by_cases ha : a = 0
        · left; subst ha; unfold Allowed; omega
        · right
          simp only [T, decide_eq_true (show cur ≠ cur + a by omega)]
    rw [hT]
    have h0 : Allowed b a 0 := hab
    cases hg : T (cur + a) (c.afterChars cur a) with
    | fail =>
      rw [Out.orElse_fail]
      obtain ⟨h1, h2⟩ := lazyLoop_one (hsing.oneBody n) (tail := T) (b := b) (n+2) a (cur + a) (c.afterChars cur a) o hle ho hab hg
      exact ⟨h1, fun hl h => h2 (fun k hk => by have := bound hx hk; omega) h⟩
    | timeout =>
      refine ⟨fun h => absurd h.symm ho, fun _ h => ?_⟩
      exact absurd (hg.symm.trans (h.eq_now h0 (by simp [hg]))).symm ho
    | _ =>
      refine ⟨fun h => ?_, fun _ h => ?_⟩
      · simp only [Out.orElse] at h
        subst h
        exact Fewest.now h0 hg (by simp)
      · have := hg.symm.trans (h.eq_now h0 (by simp [hg]))
        rw [← this]; rfl
  constructor
  · rintro ⟨ho, n, hn⟩
    replace hn := eval_of_le C (show n ≤ n + 3 by omega) hn ho
    rw [eval_lazy, if_neg (by omega)] at hn
    simp only [Bool.false_eq_true, if_false] at hn
    rcases mandLoop_one (hsing.oneBody n) a cur c hcur with ⟨h1, h2⟩ | ⟨h1, h2⟩
    · rw [h2] at hn
      have hle : cur + a ≤ s.length := by
        cases a with
        | zero => exact hcur
        | succ a => have := hsing.1 _ (h1 a (by omega)); omega
      have hm := (key n h1 hle ho).1 hn
      rw [fewest_iff h1] at hm
      rcases hm with ⟨rfl, h⟩ | ⟨h3, k, h4, h5, h6⟩
      · exact .inl ⟨rfl, fun k hk => ⟨by simp, _, h k hk⟩⟩
      · exact .inr ⟨h3, k, h4, ⟨ho, _, h5⟩, fun k' hk' hc => ⟨by simp, _, h6 k' hk' hc⟩⟩
    · rw [h2] at hn
      exact .inl ⟨hn.symm, fun k hk => (no_take_of h1 hk).elim⟩
  · intro h
    obtain ⟨N, hN⟩ := fewest_fuel
      (K := fun k n => eval C n s false (cur + k) (f.consumed (decide (cur ≠ cur + k))) (c.afterChars cur k) t)
      (fun k n m hnm h => eval_of_le C hnm rfl h) (fun k hk => canTake_lt hx hk) h
    obtain ⟨hm, ho⟩ := hN (N + s.length + 2) (by omega)
    refine ⟨ho, N + s.length + 3, ?_⟩
    rw [eval_lazy, if_neg (by omega)]
    simp only [Bool.false_eq_true, if_false]
    rcases mandLoop_one (hsing.oneBody (N + s.length)) a cur c hcur with ⟨h1, h2⟩ | ⟨h1, h2⟩
    · rw [h2]
      have hle : cur + a ≤ s.length := by
        cases a with
        | zero => exact hcur
        | succ a => have := hsing.1 _ (h1 a (by omega)); omega
      refine (key (N + s.length) h1 hle ho).2 (by omega) ?_
      rw [fewest_iff h1]; exact hm
    · rw [h2]
      rcases hm with ⟨rfl, _⟩ | ⟨_, k, hk, _⟩
      · rfl
      · exact (no_take_of h1 hk).elim

/-- C11, possessive: a repeated single-character pattern takes as many characters as possible, whatever
the continuation says. -/
theorem C11_possessive_all (hx : x.isSingle = true) (hab : b = 0 ∨ a ≤ b) (hcur : cur ≤ s.length) {o : Out} :
    Runs C s false cur f c (.re (.rep .poss a b [x]) :: t) o ↔
    AllTimes (CanTake C.uni s f x a b cur)
      (fun k o => Runs C s false (cur + k) (f.consumed (decide (cur ≠ cur + k))) (c.afterChars cur k) t o) o := by
  have hsing : SingleAt C s f.notEmpty x (takesB C.uni s f x) := by
    rw [← takes_notEmpty]; exact singleAt hx
  have h0 : b = 0 ∨ 0 ≤ b := by omega
  have adm : ∀ k, CanTake C.uni s f x a b cur k ↔ a ≤ k ∧ Allowed b 0 k ∧ Run (takesB C.uni s f x) cur k := by
    intro k
    unfold CanTake Allowed
    rw [← run_iff, Nat.zero_add]
  constructor
  · rintro ⟨ho, n, hn⟩
    replace hn := eval_of_le C (show n ≤ n + 3 by omega) hn ho
    rw [eval_poss, if_neg (by omega)] at hn
    simp only [Bool.false_eq_true, if_false] at hn
    have hne : possLoop (fun p c' => eval C (n+2) s false p f.notEmpty c' (items [x] [.endCycle])) a b (n+2) 0 cur c
        ≠ .stop .timeout := by
      intro h; rw [h] at hn; exact ho hn.symm
    obtain ⟨k, ⟨h1, h2, h3⟩, h4⟩ := possLoop_one (hsing.oneBody n) (n+2) 0 cur c hcur h0 hab hne
    rw [h4] at hn
    by_cases hak : a ≤ k
    · rw [if_pos (by omega)] at hn
      exact .inr ⟨k, (adm k).2 ⟨hak, h1, h2⟩, ⟨ho, _, hn⟩, fun k' hk' => h3 k' ((adm k').1 hk').2.1 ((adm k').1 hk').2.2⟩
    · rw [if_neg (by omega)] at hn
      refine .inl ⟨hn.symm, fun k' hk' => ?_⟩
      obtain ⟨h5, h6, h7⟩ := (adm k').1 hk'
      have := h3 k' h6 h7
      omega
  · intro h
    have hlong : ∃ N, ∃ k, (∀ n, N ≤ n → possLoop (fun p c' => eval C (n+2) s false p f.notEmpty c'
        (items [x] [.endCycle])) a b (n+2) 0 cur c =
          if a ≤ k then .go (cur + k) (c.afterChars cur k) else .stop .fail) ∧ Longest (takesB C.uni s f x) b 0 cur k := by
      have hfu : ∀ n, s.length ≤ n → possLoop (fun p c' => eval C (n+2) s false p f.notEmpty c'
          (items [x] [.endCycle])) a b (n+2) 0 cur c ≠ .stop .timeout := by
        intro n hn
        refine possLoop_one_fuel (hsing.oneBody n) _ _ _ _ hcur ?_
        intro k hk; have := bound hx hk; omega
      obtain ⟨k, hk, _⟩ := possLoop_one (hsing.oneBody s.length) (s.length+2) 0 cur c hcur h0 hab (hfu _ (by omega))
      refine ⟨s.length, k, fun n hn => ?_, hk⟩
      obtain ⟨k', hk', h4⟩ := possLoop_one (hsing.oneBody n) (n+2) 0 cur c hcur h0 hab (hfu n hn)
      have : k = k' := Nat.le_antisymm (hk'.2.2 k hk.1 hk.2.1) (hk.2.2 k' hk'.1 hk'.2.1)
      subst this
      rw [h4, Nat.zero_add]
    obtain ⟨N, k, hk, h1, h2, h3⟩ := hlong
    rcases h with ⟨rfl, h⟩ | ⟨k', h4, ⟨ho, n, hn⟩, h5⟩
    · refine ⟨by simp, N + 3, ?_⟩
      rw [eval_poss, if_neg (by omega)]
      simp only [Bool.false_eq_true, if_false]
      rw [hk N (by omega), if_neg]
      intro hak
      exact h k ((adm k).2 ⟨hak, h1, h2⟩)
    · have hkk : k = k' := by
        obtain ⟨h6, h7, h8⟩ := (adm k').1 h4
        have := h3 k' h7 h8
        have := h5 k ((adm k).2 ⟨by omega, h1, h2⟩)
        omega
      subst hkk
      refine ⟨ho, max N n + 3, ?_⟩
      rw [eval_poss, if_neg (by omega)]
      simp only [Bool.false_eq_true, if_false]
      rw [hk (max N n) (by omega), if_pos h4.1]
      exact eval_of_le C (by omega) hn ho

/-! ### Cases -/

-- `[ab]*` followed by `b` on "abab": all four characters are available, three are used
example : MostTimes (CanTake (fun _ _ => false) [97, 98, 97, 98] {} (.cc (.range 97 98)) 0 0 0)
    (fun k o => Runs {} [97, 98, 97, 98] false (0 + k) (Flags.consumed {} true) (Caps.afterChars {} 0 k)
      [.re (.cc (.chr 98)), .endMark, .accept] o)
    (.ok { whole := ⟨none, some 4, true⟩ }) := by
  rw [← C11_greedy_most (C := {}) rfl (.inr (by decide +kernel)) (.inl rfl) (by decide)]
  exact ⟨by simp, 20, by decide +kernel⟩
-- `.*?` followed by `b`
example : Runs {} [97, 98, 97, 98] false 0 {} {} [.re (.rep .lazy 0 0 [.any]), .re (.cc (.chr 98)), .endMark, .accept]
    (.ok { whole := ⟨none, some 2, true⟩ }) := ⟨by simp, 20, by decide +kernel⟩
-- `[ab]*+` followed by `b`
example : Runs {} [97, 98, 97, 98] false 0 {} {}
    [.re (.rep .poss 0 0 [.cc (.range 97 98)]), .re (.cc (.chr 98)), .endMark, .accept] .fail :=
  ⟨by simp, 20, by decide +kernel⟩

end Ctre
