import Verif.Props.Soundness
import Verif.Lemmas.Runs
import Verif.Lemmas.Swap

/-
C10, C12, C13, C14: alternation, repetition counts, atomic groups, lookahead.
-/
namespace Ctre

variable {C : Cfg} {s : List Ch} {lb : Bool} {cur : Nat} {f : Flags} {c : Caps} {t : Stack} {o : Out}

/-! ### C10 -/

/-- C10: the outcome of `A|B` with any continuation is that of `A` with the continuation, or, when that
fails, that of `B` with the continuation. -/
theorem C10_alternation_ordered {A B : Re} : Runs C s lb cur f c (.re (.sel [A, B]) :: t) o ↔
    (Runs C s lb cur f c (.re A :: t) o ∧ o ≠ .fail) ∨
    (Runs C s lb cur f c (.re A :: t) .fail ∧ Runs C s lb cur f c (.re B :: t) o) := by
  have h1 : Runs C s lb cur f c (.re (.sel [B]) :: t) o ↔ Runs C s lb cur f c (.re B :: t) o := by
    rw [runs_sel_cons, runs_sel_nil]
    constructor
    · rintro (⟨h, _⟩ | ⟨h, rfl⟩) <;> exact h
    · intro h
      by_cases ho : o = .fail
      · subst ho; exact .inr ⟨h, rfl⟩
      · exact .inl ⟨h, ho⟩
  rw [runs_sel_cons, h1]

/-- C10 for any number of alternatives: the first alternative that does not fail decides. -/
theorem C10_first_alternative {l : List Re} : Runs C s lb cur f c (.re (.sel l) :: t) o ↔
    (o = .fail ∧ ∀ A ∈ l, Runs C s lb cur f c (.re A :: t) .fail) ∨
    (o ≠ .fail ∧ ∃ before A after, l = before ++ A :: after ∧ Runs C s lb cur f c (.re A :: t) o ∧
      ∀ B ∈ before, Runs C s lb cur f c (.re B :: t) .fail) := by
  induction l with
  | nil => rw [runs_sel_nil]; simp
  | cons A l ih =>
    rw [runs_sel_cons, ih]
    constructor
    · rintro (⟨h1, h2⟩ | ⟨h1, ⟨rfl, h2⟩ | ⟨h2, before, B, after, rfl, h3, h4⟩⟩)
      · exact .inr ⟨h2, [], A, l, rfl, h1, by simp⟩
      · exact .inl ⟨rfl, by simpa using ⟨h1, h2⟩⟩
      · exact .inr ⟨h2, A :: before, B, after, rfl, h3, by simpa using ⟨h1, h4⟩⟩
    · rintro (⟨rfl, h⟩ | ⟨h1, before, B, after, he, h2, h3⟩)
      · exact .inr ⟨h A (by simp), .inl ⟨rfl, fun B hB => h B (by simp [hB])⟩⟩
      · cases before with
        | nil =>
          simp only [List.nil_append, List.cons.injEq] at he
          obtain ⟨rfl, rfl⟩ := he
          exact .inl ⟨h2, h1⟩
        | cons D before =>
          simp only [List.cons_append, List.cons.injEq] at he
          obtain ⟨rfl, rfl⟩ := he
          exact .inr ⟨h3 A (by simp), .inr ⟨h1, before, B, after, rfl, h2, fun E hE => h3 E (by simp [hE])⟩⟩

/-! ### C13 -/

/-- What comes after the pattern `r` has no influence on where and with which captures it is left. -/
def NoBacktrack (C : Cfg) (s : List Ch) (lb : Bool) (cur : Nat) (f : Flags) (c : Caps) (r : Re) : Prop :=
  (∃ p f' c', ∀ t o, Runs C s lb cur f c (.re r :: t) o ↔ Runs C s lb p f' c' t o) ∨
  (∃ o', (∀ c', o' ≠ .ok c') ∧ ∀ t o, Runs C s lb cur f c (.re r :: t) o ↔ o = o') ∨
  (∀ t o, ¬ Runs C s lb cur f c (.re r :: t) o)

/-- C13: a possessive repetition is left in one way only, whatever follows. -/
theorem C13_possessive_no_backtrack {a b : Nat} {m : List Re} :
    NoBacktrack C s lb cur f c (.rep .poss a b m) := by
  by_cases hab : b ≠ 0 ∧ a > b
  · refine .inr (.inl ⟨.fail, by simp, fun t o => runs_of_end (by simp) fun n => ?_⟩)
    rw [eval_poss, if_pos hab]
  · cases lb with
    | true =>
      refine .inr (.inl ⟨.ill, by simp, fun t o => runs_of_end (by simp) fun n => ?_⟩)
      rw [eval_poss, if_neg hab]; rfl
    | false =>
      let loop := fun n => possLoop (fun p c' => eval C n s false p f.notEmpty c' (items m [.endCycle])) a b n 0 cur c
      have hmono : ∀ n k, n ≤ k → loop n ≠ .stop .timeout → loop k = loop n := by
        intro n k hnk h
        rcases possLoop_mono (body := fun p c' => eval C n s false p f.notEmpty c' (items m [.endCycle]))
          (body' := fun p c' => eval C k s false p f.notEmpty c' (items m [.endCycle]))
          (fun p c => eval_mono C hnk ..) a b n k 0 cur c hnk with h1 | h1
        · exact absurd h1 h
        · exact h1.symm
      have heq : ∀ n t, eval C (n+1) s false cur f c (.re (.rep .poss a b m) :: t) =
          match loop n with
          | .stop o => o
          | .go p c' => eval C n s false p (f.consumed (decide (cur ≠ p))) c' t := by
        intro n t
        rw [eval_poss, if_neg hab]; rfl
      by_cases hne : ∃ n, loop n ≠ .stop .timeout
      · obtain ⟨n, hn⟩ := hne
        cases hl : loop n with
        | stop o' =>
          have hst : ∀ k, loop k = .stop .timeout ∨ loop k = .stop o' := by
            intro k
            by_cases hk : loop k = .stop .timeout
            · exact .inl hk
            · right
              rcases Nat.le_total n k with h | h
              · rw [hmono n k h hn, hl]
              · rw [← hmono k n h hk, hl]
          have ho' : o' ≠ .timeout := by rintro rfl; exact hn hl
          refine .inr (.inl ⟨o', ?_, fun t o => ?_⟩)
          · rintro c' rfl
            exact possLoop_not_ok _ _ _ _ hl
          · constructor
            · rintro ⟨ho, k, hk⟩
              cases k with
              | zero => exact absurd hk.symm ho
              | succ k =>
                rw [heq] at hk
                rcases hst k with h | h <;> rw [h] at hk
                · exact absurd hk.symm ho
                · exact hk.symm
            · rintro rfl
              exact ⟨ho', n+1, by rw [heq, hl]⟩
        | go p c' =>
          have hst : ∀ k, loop k = .stop .timeout ∨ loop k = .go p c' := by
            intro k
            by_cases hk : loop k = .stop .timeout
            · exact .inl hk
            · right
              rcases Nat.le_total n k with h | h
              · rw [hmono n k h hn, hl]
              · rw [← hmono k n h hk, hl]
          refine .inl ⟨p, f.consumed (decide (cur ≠ p)), c', fun t o => ?_⟩
          constructor
          · rintro ⟨ho, k, hk⟩
            cases k with
            | zero => exact absurd hk.symm ho
            | succ k =>
              rw [heq] at hk
              rcases hst k with h | h <;> rw [h] at hk
              · exact absurd hk.symm ho
              · exact ⟨ho, k, hk⟩
          · rintro ⟨ho, k, hk⟩
            refine ⟨ho, max n k + 1, ?_⟩
            rw [heq, hmono n (max n k) (by omega) hn, hl]
            exact eval_of_le C (by omega) hk ho
      · refine .inr (.inr fun t o => ?_)
        rintro ⟨ho, k, hk⟩
        cases k with
        | zero => exact absurd hk.symm ho
        | succ k =>
          rw [heq] at hk
          have : loop k = .stop .timeout := Classical.byContradiction fun h => hne ⟨k, h⟩
          rw [this] at hk
          exact absurd hk.symm ho

/-- C13 for atomic groups. -/
theorem C13_atomic_no_backtrack {m : List Re} : NoBacktrack C s lb cur f c (.atomic m) := by
  have h := C13_possessive_no_backtrack (C := C) (s := s) (lb := lb) (cur := cur) (f := f) (c := c) (a := 1) (b := 1) (m := m)
  unfold NoBacktrack at h ⊢
  simp only [runs_atomic]
  exact h

/-- C13: an atomic group is left at the end of the preferred match of its content alone. -/
theorem C13_atomic_first_way {m : List Re} {c' : Caps} {p : Nat}
    (h : Runs C s false cur f.notEmpty c (items m [.endCycle]) (.ok c')) (hp : c'.whole.e = some p) :
    Runs C s false cur f c (.re (.atomic m) :: t) o ↔
      Runs C s false p (f.consumed (decide (cur ≠ p))) c'.unmatch t o := by
  obtain ⟨_, n, hn⟩ := h
  have heq : ∀ k, n + 2 ≤ k → eval C (k+1) s false cur f c (.re (.rep .poss 1 1 m) :: t) =
      eval C k s false p (f.consumed (decide (cur ≠ p))) c'.unmatch t := by
    intro k hk
    obtain ⟨k, rfl⟩ : ∃ j, k = j + 2 := ⟨k - 2, by omega⟩
    rw [eval_poss]
    simp only [possLoop, step, eval_of_le C (show n ≤ k + 2 by omega) hn (by simp), hp]
    rfl
  rw [runs_atomic]
  constructor
  · rintro ⟨ho, k, hk⟩
    have := eval_of_le C (show k ≤ n + k + 3 by omega) hk ho
    rw [heq _ (by omega)] at this
    exact ⟨ho, _, this⟩
  · rintro ⟨ho, k, hk⟩
    refine ⟨ho, n + k + 3, ?_⟩
    rw [heq _ (by omega)]
    exact eval_of_le C (by omega) hk ho

/-- C13: if the content of an atomic group fails, so does the group. -/
theorem C13_atomic_fails {m : List Re} (h : Runs C s false cur f.notEmpty c (items m [.endCycle]) .fail) :
    Runs C s false cur f c (.re (.atomic m) :: t) o ↔ o = .fail := by
  obtain ⟨_, n, hn⟩ := h
  have hfail : Runs C s false cur f c (.re (.atomic m) :: t) .fail := by
    rw [runs_atomic]
    refine ⟨by simp, n + 2, ?_⟩
    rw [eval_poss]
    simp only [possLoop, step, eval_of_le C (show n ≤ n + 1 by omega) hn (by simp)]
    rfl
  constructor
  · intro h; exact h.det hfail
  · rintro rfl; exact hfail

/-! ### C14 -/

/-- C14, positive lookahead: when the content matches, matching goes on at the same position with the
captures of the content. -/
theorem C14_lookahead_matches {m : List Re} {c' : Caps}
    (h : Runs C s lb cur f c [.re (.seq m), .endAhead] (.ok c')) :
    Runs C s lb cur f c (.re (.ahead true m) :: t) o ↔ Runs C s lb cur f c'.unmatch t o := by
  rw [runs_ahead_true]
  constructor
  · rintro (⟨d, h1, h2⟩ | ⟨h1, h2⟩)
    · have := h.det h1
      simp only [Out.ok.injEq] at this
      subst this; exact h2
    · exact absurd (h1.det h) (h2 c')
  · intro h'; exact .inl ⟨c', h, h'⟩

/-- C14, positive lookahead: when the content does not match, the lookahead fails. -/
theorem C14_lookahead_fails {m : List Re} (h : Runs C s lb cur f c [.re (.seq m), .endAhead] .fail) :
    Runs C s lb cur f c (.re (.ahead true m) :: t) o ↔ o = .fail := by
  rw [runs_ahead_true]
  constructor
  · rintro (⟨d, h1, h2⟩ | ⟨h1, h2⟩)
    · have := h.det h1; simp at this
    · exact h1.det h
  · rintro rfl; exact .inr ⟨h, by simp⟩

/-- C14, negative lookahead: when the content does not match, matching goes on at the same position with
the same captures. -/
theorem C14_negative_matches {m : List Re} (h : Runs C s lb cur f c [.re (.seq m), .endAhead] .fail) :
    Runs C s lb cur f c (.re (.ahead false m) :: t) o ↔ Runs C s lb cur f c t o := by
  rw [runs_ahead_false]
  constructor
  · rintro (⟨_, h2⟩ | ⟨⟨d, h1⟩, h2⟩ | ⟨h1, h2⟩)
    · exact h2
    · have := h.det h1; simp at this
    · have := h1.det h; subst this; simp at h2
  · intro h'; exact .inl ⟨h, h'⟩

/-- C14, negative lookahead: when the content matches, the lookahead fails. -/
theorem C14_negative_fails {m : List Re} {c' : Caps}
    (h : Runs C s lb cur f c [.re (.seq m), .endAhead] (.ok c')) :
    Runs C s lb cur f c (.re (.ahead false m) :: t) o ↔ o = .fail := by
  rw [runs_ahead_false]
  constructor
  · rintro (⟨h1, h2⟩ | ⟨_, h2⟩ | ⟨h1, h2⟩)
    · have := h.det h1; simp at this
    · exact h2
    · have := h1.det h; subst this; simp at h2
  · rintro rfl; exact .inr (.inl ⟨⟨c', h⟩, rfl⟩)

/-! ### C12 -/

/-- C12: a successful match of `X{a,b}` is a concatenation of at least `a` and, unless `b` is zero, at most
`b` matches of `X`. -/
theorem C12_repetition_count {n : Nat} {r : Caps} {k : RepKind} {a b : Nat} {m : List Re} {p : Nat}
    (hr : (Re.rep k a b m).WellNumbered) (hn : SoundFor C (.rep k a b m)) (hp : p ≤ s.length)
    (h : startsWithAt C n s f (.rep k a b m) p = .done r) (hm : r.whole.matched = true) :
    ∃ i τ, a ≤ i ∧ (b = 0 ∨ i ≤ b) ∧ r.get 0 = some ⟨some p, some τ.pos, true⟩ ∧
      Iterate (fun σ τ => ∃ ρ, (Re.seq m).Match (envOf C (.rep k a b m)) s σ ρ ∧
        τ = { ρ with multiline := σ.multiline, caseless := σ.caseless }) i (MState.start p f) τ := by
  obtain ⟨τ, h1, h2⟩ := C01_starts_with_sound hr hn hp h hm
  simp only [Re.Match] at h1
  obtain ⟨i, h3, h4, h5⟩ := h1
  exact ⟨i, τ, h3, h4, h2.whole, by simpa only [Re.Match] using h5⟩

/-- C12: a repetition with contradictory bounds never matches. -/
theorem C12_contradictory_bounds {k : RepKind} {a b : Nat} {m : List Re} (hb : b ≠ 0) (hab : b < a) :
    Runs C s lb cur f c (.re (.rep k a b m) :: t) o ↔ o = .fail := by
  refine runs_of_end (by simp) fun n => ?_
  cases k
  · rw [eval_greedy, if_pos ⟨hb, hab⟩]
  · rw [eval_lazy, if_pos ⟨hb, hab⟩]
  · rw [eval_poss, if_pos ⟨hb, hab⟩]

/-- C12: an upper bound of zero does not mean "no iteration": `a{0}` takes as many characters as `a*`. -/
theorem C12_fails_for_zero_bound :
    cStartsWith {} 30 [97, 97] {} (.rep .greedy 0 0 [.cc (.chr 97)]) =
      .done { whole := ⟨some 0, some 2, true⟩ } := by
  decide +kernel

/-! ### Cases -/

-- `a|ab` followed by `c` on "abc": the first alternative fails with the continuation
example : Runs {} [97, 98, 99] false 0 {} {} [.re (.cc (.chr 97)), .re (.cc (.chr 99)), .accept] .fail :=
  ⟨by simp, 9, by decide +kernel⟩
example : Runs {} [97, 98, 99] false 0 {} {} [.re (.str [97, 98]), .re (.cc (.chr 99)), .accept]
    (.ok { whole := ⟨none, none, true⟩ }) := ⟨by simp, 9, by decide +kernel⟩
-- `(?>a|ab)c` on "abc": the content matches "a" alone
example : Runs {} [97, 98, 99] false 0 (Flags.notEmpty {}) {}
    (items [.sel [.cc (.chr 97), .str [97, 98]]] [.endCycle]) (.ok { whole := ⟨none, some 1, true⟩ }) :=
  ⟨by simp, 9, by decide +kernel⟩
-- `(?=(a)b)` and `(?!(a)b)` on "ab"
example : Runs {} [97, 98] false 0 {} { groups := [{ id := 1 }] }
    [.re (.seq [.cap 1 none [.cc (.chr 97)], .cc (.chr 98)]), .endAhead]
    (.ok { whole := ⟨none, none, true⟩, groups := [{ id := 1, slot := ⟨some 0, some 1, true⟩ }] }) :=
  ⟨by simp, 9, by decide +kernel⟩
example : Runs {} [97, 97] false 0 {} { groups := [{ id := 1 }] }
    [.re (.seq [.cap 1 none [.cc (.chr 97)], .cc (.chr 98)]), .endAhead] .fail :=
  ⟨by simp, 9, by decide +kernel⟩
-- `(?:ab){2,3}` on "ababababab"
example : (Re.rep .greedy 2 3 [.str [97, 98]]).WellNumbered := ⟨by decide, by decide, by decide⟩
example : cStartsWith {} 30 [97, 98, 97, 98, 97, 98, 97, 98] {} (.rep .greedy 2 3 [.str [97, 98]]) =
    .done { whole := ⟨some 0, some 6, true⟩ } := by decide +kernel

end Ctre
