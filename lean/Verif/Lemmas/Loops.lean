import Verif.Spec.Loops
import Verif.Lemmas.Scan
import Verif.Props.Iteration
import Mathlib.Data.Nat.Find

/-
Loops over results, from the results of the single attempts, if matches may be empty.
-/
namespace Ctre

/-! ### The loops are determined -/

theorem NextMatch.unique {pick : Nat → Option Nat} {p b e b' e' : Nat} (h : NextMatch pick p b e) (h' : NextMatch pick p b' e') :
    b = b' ∧ e = e' := by
  obtain ⟨h1, h2, h3⟩ := h
  obtain ⟨k1, k2, k3⟩ := h'
  have hb : b = b' := by
    rcases Nat.lt_trichotomy b b' with hlt | rfl | hlt
    · rw [k2 b h1 hlt] at h3; cases h3
    · rfl
    · rw [h2 b' k1 hlt] at k3; cases k3
  subst hb
  rw [h3] at k3
  exact ⟨rfl, by cases k3; rfl⟩

theorem NextMatch.found {pick : Nat → Option Nat} {p b e len : Nat} (h : NextMatch pick p b e) (hb : b ≤ len) :
    ¬ ∀ i, p ≤ i → i ≤ len → pick i = none := fun k => by
  have := h.2.2
  rw [k b h.1 hb] at this; cases this

theorem AllLoop.unique {pick : Nat → Option Nat} {len p : Nat} {l : List (Nat × Nat)} {o : Option Nat} (h : AllLoop pick len p l o) :
    ∀ {l' o'}, AllLoop pick len p l' o' → l = l' ∧ o = o' := by
  induction h with
  | stop p h1 =>
    intro l' o' h'
    cases h' with
    | stop _ _ => exact ⟨rfl, rfl⟩
    | last _ b k1 k2 => exact absurd h1 (k1.found k2)
    | step _ b e l o k1 k2 k3 _ => exact absurd h1 (k1.found (by omega))
    | stuck _ b k1 k2 => exact absurd h1 (k1.found (by omega))
  | last p b h1 h2 =>
    intro l' o' h'
    cases h' with
    | stop _ k => exact absurd k (h1.found h2)
    | last _ b' k1 k2 => obtain ⟨rfl, _⟩ := h1.unique k1; exact ⟨rfl, rfl⟩
    | step _ b' e l o k1 k2 k3 _ => have := (h1.unique k1).2; omega
    | stuck _ b' k1 k2 => have := (h1.unique k1).2; omega
  | step p b e l o h1 h2 h3 _ ih =>
    intro l' o' h'
    cases h' with
    | stop _ k => exact absurd k (h1.found (by omega))
    | last _ b' k1 k2 => have := (h1.unique k1).2; omega
    | step _ b' e' l o k1 k2 k3 k4 =>
      obtain ⟨rfl, rfl⟩ := h1.unique k1
      obtain ⟨rfl, rfl⟩ := ih k4
      exact ⟨rfl, rfl⟩
    | stuck _ b' k1 k2 => have := h1.unique k1; omega
  | stuck p b h1 h2 =>
    intro l' o' h'
    cases h' with
    | stop _ k => exact absurd k (h1.found (by omega))
    | last _ b' k1 k2 => have := (h1.unique k1).2; omega
    | step _ b' e l o k1 k2 k3 _ => have := h1.unique k1; omega
    | stuck _ b' k1 k2 => obtain ⟨rfl, _⟩ := h1.unique k1; exact ⟨rfl, rfl⟩

theorem TokenLoop.unique {pick : Nat → Option Nat} {len p : Nat} {l : List (Nat × Nat)} {o : Option Nat} (h : TokenLoop pick len p l o) :
    ∀ {l' o'}, TokenLoop pick len p l' o' → l = l' ∧ o = o' := by
  induction h with
  | stop p h1 =>
    intro l' o' h'
    cases h' with
    | stop _ _ => exact ⟨rfl, rfl⟩
    | last _ k1 _ => rw [h1] at k1; cases k1
    | step _ e l o k1 _ _ _ => rw [h1] at k1; cases k1
    | stuck _ k1 _ => rw [h1] at k1; cases k1
  | last p h1 h2 =>
    intro l' o' h'
    cases h' with
    | stop _ k1 => rw [h1] at k1; cases k1
    | last _ k1 _ => exact ⟨rfl, rfl⟩
    | step _ e l o k1 _ k3 _ => rw [h1] at k1; cases k1; omega
    | stuck _ k1 k2 => rw [h1] at k1; cases k1; omega
  | step p e l o h1 h2 h3 _ ih =>
    intro l' o' h'
    cases h' with
    | stop _ k1 => rw [h1] at k1; cases k1
    | last _ k1 _ => rw [h1] at k1; cases k1; omega
    | step _ e l o k1 _ k3 k4 =>
      rw [h1] at k1; cases k1
      obtain ⟨rfl, rfl⟩ := ih k4
      exact ⟨rfl, rfl⟩
    | stuck _ k1 k2 => rw [h1] at k1; cases k1; omega
  | stuck p h1 h2 =>
    intro l' o' h'
    cases h' with
    | stop _ k1 => rw [h1] at k1; cases k1
    | last _ k1 _ => rw [h1] at k1; cases k1; omega
    | step _ e l o k1 _ k3 _ => rw [h1] at k1; cases k1; omega
    | stuck _ k1 k2 => exact ⟨rfl, rfl⟩

theorem PieceLoop.unique {pick : Nat → Option Nat} {len p : Nat} {l : List (Nat × Nat)} {o : Option Nat} (h : PieceLoop pick len p l o) :
    ∀ {l' o'}, PieceLoop pick len p l' o' → l = l' ∧ o = o' := by
  induction h with
  | last p h1 =>
    intro l' o' h'
    cases h' with
    | last _ _ => exact ⟨rfl, rfl⟩
    | step _ b e l o k1 k2 k3 _ => exact absurd h1 (k1.found (by omega))
    | stuck _ b k1 k2 => exact absurd h1 (k1.found k2)
  | step p b e l o h1 h2 h3 _ ih =>
    intro l' o' h'
    cases h' with
    | last _ k => exact absurd k (h1.found (by omega))
    | step _ b' e' l o k1 k2 k3 k4 =>
      obtain ⟨rfl, rfl⟩ := h1.unique k1
      obtain ⟨rfl, rfl⟩ := ih k4
      exact ⟨rfl, rfl⟩
    | stuck _ b' k1 k2 => have := h1.unique k1; omega
  | stuck p b h1 h2 =>
    intro l' o' h'
    cases h' with
    | last _ k => exact absurd k (h1.found h2)
    | step _ b' e l o k1 k2 k3 _ => have := h1.unique k1; omega
    | stuck _ b' k1 k2 => obtain ⟨rfl, _⟩ := h1.unique k1; exact ⟨rfl, rfl⟩

/-! ### The iterators -/

/-- From `p`, `exec` finds the first of the ways from `S p`. -/
structure Steps (exec : Nat → Exec) (len : Nat) (W : Nat → List MState) (S : Nat → Option Nat) : Prop where
  none : ∀ p, p ≤ len → S p = none → ∃ c, exec p = .done c ∧ c.whole.matched = false
  some : ∀ p q, p ≤ len → S p = some q → p ≤ q ∧ q ≤ len ∧ S q = some q ∧
    ∃ c τ rest, exec p = .done c ∧ W q = τ :: rest ∧ q ≤ τ.pos ∧ τ.pos ≤ len ∧ Reports c q τ

/-- What the iterator yields: the results `l`, then the end or the empty result at `o`. -/
structure YieldsResults (nth : Nat → Option RIter) (W : Nat → List MState) (l : List (Nat × Nat)) (o : Option Nat) : Prop where
  each : ∀ i (hi : i < l.length), ∃ it τ rest, nth i = some it ∧ W (l[i]).1 = τ :: rest ∧ τ.pos = (l[i]).2 ∧ Reports it.result (l[i]).1 τ
  ends : o = none → ∀ j, ∃ it, nth (l.length + j) = some it ∧ it.isEnd = true
  stays : ∀ q, o = some q → ∀ j, ∃ it τ rest, nth (l.length + j) = some it ∧ W q = τ :: rest ∧ τ.pos = q ∧ Reports it.result q τ

/-- The loop in terms of `S`. -/
inductive Go (S : Nat → Option Nat) (pick : Nat → Option Nat) (len : Nat) : Nat → List (Nat × Nat) → Option Nat → Prop
  | stop (p : Nat) : S p = none → Go S pick len p [] none
  | last (p b : Nat) : S p = some b → pick b = some len → Go S pick len p [(b, len)] none
  | step (p b e : Nat) (l : List (Nat × Nat)) (o : Option Nat) : S p = some b → pick b = some e → b < e → e < len → Go S pick len e l o →
      Go S pick len p ((b, e) :: l) o
  | stuck (p b : Nat) : S p = some b → pick b = some b → b < len → Go S pick len p [] (some b)

section
variable {exec : Nat → Exec} {len : Nat} {dflt : Caps} {W : Nat → List MState} {S : Nat → Option Nat}

theorem RIter.after_fix {it : RIter} (h : it.next exec len dflt = some it) : ∀ j, RIter.after exec len dflt it j = some it
  | 0 => rfl
  | j+1 => by rw [RIter.after_succ h, RIter.after_fix h j]

theorem RIter.after_dflt {c : Caps} : ∀ j, RIter.after exec len dflt ⟨len, c⟩ (j+1) = some ⟨len, dflt⟩ := fun j => by
  rw [RIter.after_succ (it' := ⟨len, dflt⟩) (by simp [RIter.next]), RIter.after_fix (by simp [RIter.next])]

theorem RIter.loops (St : Steps exec len W S) (hd : dflt.whole.matched = false) (p : Nat) (hp : p ≤ len) :
    ∃ it l o, RIter.assign p (exec p) = some it ∧ Go S (pick W) len p l o ∧ YieldsResults (RIter.after exec len dflt it) W l o := by
  induction hm : len - p using Nat.strongRecOn generalizing p with
  | ind m ih =>
  cases hS : S p with
  | none =>
    obtain ⟨c, hc, hmt⟩ := St.none p hp hS
    have hass : RIter.assign p (exec p) = some ⟨p, c⟩ := by simp [RIter.assign, hc, hmt]
    refine ⟨⟨p, c⟩, [], .none, hass, .stop p hS, fun i hi => by simp at hi, fun _ j => ?_, fun q e => by cases e⟩
    rw [List.length_nil, Nat.zero_add]
    by_cases hpl : p = len
    · subst hpl
      cases j with
      | zero => exact ⟨_, rfl, by simp [RIter.isEnd, hmt]⟩
      | succ j => exact ⟨_, RIter.after_dflt j, by simp [RIter.isEnd, hd]⟩
    · exact ⟨_, RIter.after_fix (by simp only [RIter.next, if_neg hpl]; exact hass) j, by simp [RIter.isEnd, hmt]⟩
  | some q =>
    obtain ⟨h1, h2, h3, c, τ, rest, hc, h4, h5, h6, h7⟩ := St.some p q hp hS
    have hw := whole_of_reports h7
    have hass : RIter.assign p (exec p) = some ⟨τ.pos, c⟩ := by simp [RIter.assign, hc, hw]
    have hpick : pick W q = some τ.pos := by simp [pick, h4]
    by_cases hel : τ.pos = len
    · refine ⟨⟨τ.pos, c⟩, [(q, len)], .none, hass, .last p q hS (by rw [hpick, hel]), ?_, ?_, fun q e => by cases e⟩
      · intro i hi
        simp only [List.length_singleton, Nat.lt_one_iff] at hi
        subst hi
        exact ⟨_, τ, rest, rfl, h4, hel, h7⟩
      · intro _ j
        rw [hel, List.length_singleton, Nat.add_comm]
        exact ⟨_, RIter.after_dflt j, by simp [RIter.isEnd, hd]⟩
    by_cases hqe : q = τ.pos
    · obtain ⟨_, _, _, c', τ', rest', hc', k4, k5, k6, k7⟩ := St.some q q h2 h3
      rw [h4] at k4
      cases k4
      have hw' := whole_of_reports k7
      have hass' : RIter.assign q (exec q) = some ⟨τ.pos, c'⟩ := by simp [RIter.assign, hc', hw']
      have hnext : RIter.next exec len dflt ⟨τ.pos, c⟩ = some ⟨τ.pos, c'⟩ := by
        simp only [RIter.next, if_neg hel]; rw [← hqe]; rw [← hqe] at hass'; exact hass'
      have hnext' : RIter.next exec len dflt ⟨τ.pos, c'⟩ = some ⟨τ.pos, c'⟩ := by
        simp only [RIter.next, if_neg hel]; rw [← hqe]; rw [← hqe] at hass'; exact hass'
      refine ⟨⟨τ.pos, c⟩, [], .some q, hass, .stuck p q hS (by rw [hpick, ← hqe]) (by omega), fun i hi => by simp at hi,
        fun e => (by cases e), ?_⟩
      rintro q' e j
      cases e
      rw [List.length_nil, Nat.zero_add]
      cases j with
      | zero => exact ⟨_, τ, rest, rfl, h4, hqe.symm, h7⟩
      | succ j => exact ⟨_, τ, rest, by rw [RIter.after_succ hnext, RIter.after_fix hnext'], h4, hqe.symm, k7⟩
    · obtain ⟨it, l, o, k1, k2, k3⟩ := ih (len - τ.pos) (by omega) τ.pos h6 rfl
      have hnext : RIter.next exec len dflt ⟨τ.pos, c⟩ = some it := by
        simp only [RIter.next, if_neg hel]; exact k1
      refine ⟨⟨τ.pos, c⟩, (q, τ.pos) :: l, o, hass, .step p q τ.pos l o hS hpick (by omega) (by omega) k2, ?_, ?_, ?_⟩
      · intro i hi
        cases i with
        | zero => exact ⟨_, τ, rest, rfl, h4, rfl, h7⟩
        | succ i =>
          rw [RIter.after_succ hnext]
          simp only [List.length_cons, Nat.add_lt_add_iff_right] at hi
          simpa using k3.each i hi
      · intro e j
        rw [List.length_cons, Nat.add_right_comm, RIter.after_succ hnext]
        exact k3.ends e j
      · intro q' e j
        rw [List.length_cons, Nat.add_right_comm, RIter.after_succ hnext]
        exact k3.stays q' e j

/-! ### Pieces -/

/-- What the iterator yields: the pieces `l`, then the end or empty pieces at `o`. -/
structure YieldsPieces (nth : Nat → Option SIter) (l : List (Nat × Nat)) (o : Option Nat) : Prop where
  each : ∀ i (hi : i < l.length), ∃ it, nth i = some it ∧ it.result.whole = ⟨some (l[i]).1, some (l[i]).2, true⟩
  ends : o = none → ∀ j, ∃ it, nth (l.length + j) = some it ∧ it.isEnd = true
  stays : ∀ q, o = some q → ∀ j, ∃ it, nth (l.length + j) = some it ∧ it.result.whole = ⟨some q, some q, true⟩

/-- The loop in terms of `S`. -/
inductive GoPieces (S : Nat → Option Nat) (pick : Nat → Option Nat) (len : Nat) : Nat → List (Nat × Nat) → Option Nat → Prop
  | last (p : Nat) : S p = none → GoPieces S pick len p [(p, len)] none
  | step (p b e : Nat) (l : List (Nat × Nat)) (o : Option Nat) : S p = some b → pick b = some e → b < e → e ≤ len →
      GoPieces S pick len e l o → GoPieces S pick len p ((p, b) :: l) o
  | stuck (p b : Nat) : S p = some b → pick b = some b → b ≤ len → GoPieces S pick len p [(p, b)] (some b)

theorem SIter.after_fix {it : SIter} (h : it.next exec len dflt = some it) : ∀ j, SIter.after exec len dflt it j = some it
  | 0 => rfl
  | j+1 => by rw [SIter.after_succ h, SIter.after_fix h j]

theorem SIter.after_dflt {c : Caps} : ∀ j, SIter.after exec len dflt ⟨len, c, true⟩ (j+1) = some ⟨len, dflt, true⟩ := fun j => by
  rw [SIter.after_succ (it' := ⟨len, dflt, true⟩) (by simp [SIter.next]), SIter.after_fix (by simp [SIter.next])]

theorem SIter.loops (St : Steps exec len W S) (hd : dflt.whole.matched = false)
    (hfail : ∀ p c, p ≤ len → exec p = .done c → c.whole.matched = false → c.whole.e = .some len) (p : Nat) (hp : p ≤ len) :
    ∃ it l o, SIter.assign p false (exec p) = some it ∧ GoPieces S (pick W) len p l o ∧ YieldsPieces (SIter.after exec len dflt it) l o := by
  induction hm : len - p using Nat.strongRecOn generalizing p with
  | ind m ih =>
  cases hS : S p with
  | none =>
    obtain ⟨c, hc, hmt⟩ := St.none p hp hS
    have he := hfail p c hp hc hmt
    refine ⟨⟨len, (c.setStart p).setMatched, true⟩, [(p, len)], .none, by simp [SIter.assign, hc, hmt, SIter.matchRest, he], .last p hS, ?_,
      ?_, fun q e => by cases e⟩
    · intro i hi
      simp only [List.length_singleton, Nat.lt_one_iff] at hi
      subst hi
      exact ⟨_, rfl, by simp [Caps.setStart, Caps.setMatched, he]⟩
    · intro _ j
      rw [List.length_singleton, Nat.add_comm]
      exact ⟨_, SIter.after_dflt j, by simp [SIter.isEnd, hd]⟩
  | some q =>
    obtain ⟨h1, h2, h3, c, τ, rest, hc, h4, h5, h6, h7⟩ := St.some p q hp hS
    have hw := whole_of_reports h7
    have hass : SIter.assign p false (exec p) = some ⟨τ.pos, (c.setEnd q).setStart p, false⟩ := by
      simp [SIter.assign, hc, SIter.modifyMatch, hw]
    have hpick : pick W q = some τ.pos := by simp [pick, h4]
    have hres : ((c.setEnd q).setStart p).whole = ⟨some p, some q, true⟩ := by simp [Caps.setStart, Caps.setEnd, hw]
    by_cases hqe : q = τ.pos
    · obtain ⟨_, _, _, c', τ', rest', hc', k4, k5, k6, k7⟩ := St.some q q h2 h3
      rw [h4] at k4
      cases k4
      have hw' := whole_of_reports k7
      have hass' : SIter.assign τ.pos false (exec τ.pos) = some ⟨τ.pos, (c'.setEnd q).setStart q, false⟩ := by
        rw [← hqe]; rw [← hqe] at hw'; simp [SIter.assign, hc', SIter.modifyMatch, hw']
      have hnext : ∀ d, SIter.next exec len dflt ⟨τ.pos, d, false⟩ = some ⟨τ.pos, (c'.setEnd q).setStart q, false⟩ := fun d => by
        simp only [SIter.next, Bool.false_eq_true, and_false, if_false]; exact hass'
      refine ⟨_, [(p, q)], .some q, hass, .stuck p q hS (by rw [hpick, ← hqe]) h2, ?_, fun e => (by cases e), ?_⟩
      · intro i hi
        simp only [List.length_singleton, Nat.lt_one_iff] at hi
        subst hi
        exact ⟨_, rfl, hres⟩
      · rintro q' e j
        cases e
        rw [List.length_singleton, Nat.add_comm, SIter.after_succ (hnext _), SIter.after_fix (hnext _)]
        exact ⟨_, rfl, by simp [Caps.setStart, Caps.setEnd, hw']⟩
    · obtain ⟨it, l, o, k1, k2, k3⟩ := ih (len - τ.pos) (by omega) τ.pos h6 rfl
      have hnext : SIter.next exec len dflt ⟨τ.pos, (c.setEnd q).setStart p, false⟩ = some it := by
        simp only [SIter.next, Bool.false_eq_true, and_false, if_false]; exact k1
      refine ⟨_, (p, q) :: l, o, hass, .step p q τ.pos l o hS hpick (by omega) h6 k2, ?_, ?_, ?_⟩
      · intro i hi
        cases i with
        | zero => exact ⟨_, rfl, hres⟩
        | succ i =>
          rw [SIter.after_succ hnext]
          simp only [List.length_cons, Nat.add_lt_add_iff_right] at hi
          simpa using k3.each i hi
      · intro e j
        rw [List.length_cons, Nat.add_right_comm, SIter.after_succ hnext]
        exact k3.ends e j
      · intro q' e j
        rw [List.length_cons, Nat.add_right_comm, SIter.after_succ hnext]
        exact k3.stays q' e j

end

/-! ### Where the next match is -/

open Classical in
/-- The first position at or after `p` from which there is a way. -/
noncomputable def nextWay (W : Nat → List MState) (len p : Nat) : Option Nat :=
  if h : ∃ q, p ≤ q ∧ q ≤ len ∧ W q ≠ [] then some (Nat.find h) else none

/-- `p`, if there is a way from there. -/
def hereWay (W : Nat → List MState) (p : Nat) : Option Nat := if (W p).isEmpty then none else some p

section
variable {C : Cfg} {n : Nat} {s : List Ch} {f : Flags} {r : Re} {W : Nat → List MState} {len : Nat}

theorem nextWay_none {p : Nat} (h : nextWay W len p = none) : ∀ i, p ≤ i → i ≤ len → W i = [] := by
  unfold nextWay at h
  split at h
  · cases h
  · rename_i hno
    intro i h1 h2
    by_contra h3
    exact hno ⟨i, h1, h2, h3⟩

theorem nextWay_some {p q : Nat} (h : nextWay W len p = some q) : p ≤ q ∧ q ≤ len ∧ W q ≠ [] ∧ ∀ i, p ≤ i → i < q → W i = [] := by
  unfold nextWay at h
  split at h
  · rename_i hex
    cases h
    obtain ⟨h1, h2, h3⟩ := Nat.find_spec hex
    refine ⟨h1, h2, h3, fun i h4 h5 => ?_⟩
    by_contra h6
    exact Nat.find_min hex h5 ⟨h4, by omega, h6⟩
  · cases h

theorem nextWay_self {q : Nat} (hq : q ≤ len) (h : W q ≠ []) : nextWay W len q = some q := by
  have hex : ∃ i, q ≤ i ∧ i ≤ len ∧ W i ≠ [] := ⟨q, Nat.le_refl _, hq, h⟩
  unfold nextWay
  rw [dif_pos hex, (Nat.find_eq_iff hex).2 ⟨⟨Nat.le_refl _, hq, h⟩, fun i hi k => by omega⟩]

theorem pick_isSome {p : Nat} (h : W p ≠ []) : ∃ e, pick W p = some e := by
  unfold pick
  cases hw : W p with
  | nil => exact absurd hw h
  | cons τ l => exact ⟨τ.pos, rfl⟩

theorem nextWay_match {p q e : Nat} (h : nextWay W len p = some q) (he : pick W q = some e) : NextMatch (pick W) p q e := by
  obtain ⟨h1, _, _, h4⟩ := nextWay_some h
  exact ⟨h1, fun i h5 h6 => pick_none (h4 i h5 h6), he⟩

theorem Go.all {p : Nat} {l : List (Nat × Nat)} {o : Option Nat} (h : Go (nextWay W len) (pick W) len p l o) :
    AllLoop (pick W) len p l o := by
  induction h with
  | stop p h => exact .stop p fun i h1 h2 => pick_none (nextWay_none h i h1 h2)
  | last p b h1 h2 => exact .last p b (nextWay_match h1 h2) (nextWay_some h1).2.1
  | step p b e l o h1 h2 h3 h4 _ ih => exact .step p b e l o (nextWay_match h1 h2) h3 h4 ih
  | stuck p b h1 h2 h3 => exact .stuck p b (nextWay_match h1 h2) h3

theorem GoPieces.pieces {p : Nat} {l : List (Nat × Nat)} {o : Option Nat} (h : GoPieces (nextWay W len) (pick W) len p l o) :
    PieceLoop (pick W) len p l o := by
  induction h with
  | last p h => exact .last p fun i h1 h2 => pick_none (nextWay_none h i h1 h2)
  | step p b e l o h1 h2 h3 h4 _ ih => exact .step p b e l o (nextWay_match h1 h2) h3 h4 ih
  | stuck p b h1 h2 h3 => exact .stuck p b (nextWay_match h1 h2) h3

theorem hereWay_some {p q : Nat} (h : hereWay W p = some q) : q = p ∧ W p ≠ [] := by
  unfold hereWay at h
  split at h
  · cases h
  · rename_i hw
    cases h
    exact ⟨rfl, by simpa using hw⟩

theorem hereWay_none {p : Nat} (h : hereWay W p = none) : W p = [] := by
  unfold hereWay at h
  split at h
  · rename_i hw; simpa using hw
  · cases h

theorem Go.tokens {p : Nat} (hp : p ≤ len) {l : List (Nat × Nat)} {o : Option Nat} (h : Go (hereWay W) (pick W) len p l o) :
    TokenLoop (pick W) len p l o := by
  induction h with
  | stop p h => exact .stop p (pick_none (hereWay_none h))
  | last p b h1 h2 => obtain ⟨rfl, _⟩ := hereWay_some h1; exact .last b h2 hp
  | step p b e l o h1 h2 h3 h4 _ ih => obtain ⟨rfl, _⟩ := hereWay_some h1; exact .step b e l o h2 h3 h4 (ih (by omega))
  | stuck p b h1 h2 h3 => obtain ⟨rfl, _⟩ := hereWay_some h1; exact .stuck b h2 h3

/-! ### Steps from attempts -/

/-- The attempts at all positions return and report the first of the given ways; a pattern that is treated as anchored has no way from a
later position. -/
structure Trials (C : Cfg) (n : Nat) (s : List Ch) (f : Flags) (r : Re) (W : Nat → List MState) : Prop where
  numbered : r.Numbered
  late : startsWithAnchor f r = true → ∀ i, 0 < i → i ≤ s.length → W i = []
  each : ∀ p, p ≤ s.length → ∃ c, startsWithAt C n s f r p = .done c ∧ ReportsFirst c p (W p)

theorem Trials.search (H : Trials C n s f r W) {p : Nat} (hp : p ≤ s.length) :
    ∃ c, searchAt C n s f r p = .done c ∧
      ((c.whole.matched = true ∧ ∃ q τ rest, p ≤ q ∧ q ≤ s.length ∧ W q = τ :: rest ∧ Reports c q τ ∧ ∀ i, p ≤ i → i < q → W i = []) ∨
        (c.whole.matched = false ∧ ∀ i, p ≤ i → i ≤ s.length → W i = [])) := by
  cases ha : startsWithAnchor f r with
  | false => exact Tries.search ⟨H.numbered, ha, H.each⟩ hp
  | true =>
    obtain ⟨c, h1, h2⟩ := H.each p hp
    cases hw : W p with
    | nil =>
      rw [hw] at h2
      have hf : attempt C n s f r p = .fail := by
        have hok := fun c' => attempt_matched (C := C) (n := n) (f := f) H.numbered hp (c := c')
        unfold startsWithAt at h1
        cases h3 : attempt C n s f r p with
        | ok c' =>
          have := hok c' h3
          rw [h3] at h1; simp only [Out.toExec, Exec.done.injEq] at h1
          subst h1
          simp only [ReportsFirst] at h2
          rw [this] at h2; cases h2
        | fail => rfl
        | _ => rw [h3] at h1; simp [Out.toExec] at h1
      refine ⟨(initCaps r).setEnd p, by simp [searchAt, ha, searchLoop, hf], .inr ⟨?_, fun i h3 h4 => ?_⟩⟩
      · have := init_unmatched r
        simpa [Caps.setEnd] using this
      · rcases Nat.lt_or_ge 0 i with h5 | h5
        · exact H.late ha i h5 h4
        · have : i = p := by omega
          rw [this]; exact hw
    | cons τ rest =>
      rw [hw] at h2
      refine ⟨c, ?_, .inl ⟨h2.1, p, τ, rest, Nat.le_refl _, hp, hw, h2.2, fun i h3 h4 => by omega⟩⟩
      have := H.numbered
      unfold startsWithAt at h1
      unfold searchAt
      rw [ha, if_pos rfl]
      cases h3 : attempt C n s f r p with
      | fail =>
        rw [h3] at h1
        simp only [Out.toExec, Exec.done.injEq] at h1
        have := init_unmatched r
        rw [h1, h2.1] at this; cases this
      | _ => rw [h3] at h1; simp [Out.toExec] at h1 ⊢ <;> simp [searchLoop, h3, Out.toExec, h1]

theorem Trials.search_steps (H : Trials C n s f r W) : Steps (searchAt C n s f r) s.length W (nextWay W s.length) where
  none p hp h := by
    obtain ⟨c, h1, ⟨h2, q, τ, rest, h3, h4, h5, _⟩ | ⟨h2, _⟩⟩ := H.search hp
    · rw [nextWay_none h q h3 h4] at h5; cases h5
    · exact ⟨c, h1, h2⟩
  some p q hp h := by
    obtain ⟨k1, k2, k3, k4⟩ := nextWay_some h
    refine ⟨k1, k2, nextWay_self k2 k3, ?_⟩
    obtain ⟨c, h1, ⟨h2, q', τ, rest, h3, h4, h5, h6, h7⟩ | ⟨h2, h3⟩⟩ := H.search hp
    · have : q' = q := by
        rcases Nat.lt_trichotomy q' q with hlt | rfl | hlt
        · rw [k4 q' h3 hlt] at h5; cases h5
        · rfl
        · exact absurd (h7 q k1 hlt) k3
      subst this
      obtain ⟨b', e', h9, h10, h11, h12⟩ := search_spanOK H.numbered p c hp h1 h2
      rw [whole_of_reports h6] at h9
      simp only [Slot.mk.injEq, Option.some.injEq, and_true] at h9
      obtain ⟨rfl, rfl⟩ := h9
      exact ⟨c, τ, rest, h1, h5, h11, h12, h6⟩
    · exact absurd (h3 q k1 k2) k3

theorem Trials.token_steps (H : Trials C n s f r W) : Steps (startsWithAt C n s f r) s.length W (hereWay W) where
  none p hp h := by
    obtain ⟨c, h1, h2⟩ := H.each p hp
    rw [hereWay_none h] at h2
    exact ⟨c, h1, h2⟩
  some p q hp h := by
    obtain ⟨rfl, hne⟩ := hereWay_some h
    refine ⟨Nat.le_refl _, hp, h, ?_⟩
    obtain ⟨c, h1, h2⟩ := H.each q hp
    cases hw : W q with
    | nil => exact absurd hw hne
    | cons τ rest =>
      rw [hw] at h2
      obtain ⟨b', e', h9, h10, h11, h12⟩ := startsWith_spanOK H.numbered q c hp h1 h2.1
      rw [whole_of_reports h2.2] at h9
      simp only [Slot.mk.injEq, Option.some.injEq, and_true] at h9
      obtain ⟨rfl, rfl⟩ := h9
      exact ⟨c, τ, rest, h1, rfl, h11, h12, h2.2⟩

theorem Trials.all (H : Trials C n s f r W) :
    ∃ l o, AllLoop (pick W) s.length 0 l o ∧ YieldsResults (searchAllNth C n s f r) W l o := by
  obtain ⟨it, l, o, h1, h2, h3⟩ := RIter.loops (dflt := initCaps r) H.search_steps (init_unmatched r) 0 (Nat.zero_le _)
  have e : searchAllNth C n s f r = RIter.after (searchAt C n s f r) s.length (initCaps r) it := funext (RIter.nth_after h1)
  exact ⟨l, o, h2.all, e ▸ h3⟩

theorem Trials.tokens (H : Trials C n s f r W) :
    ∃ l o, TokenLoop (pick W) s.length 0 l o ∧ YieldsResults (tokenizeNth C n s f r) W l o := by
  obtain ⟨it, l, o, h1, h2, h3⟩ := RIter.loops (dflt := initCaps r) H.token_steps (init_unmatched r) 0 (Nat.zero_le _)
  have e : tokenizeNth C n s f r = RIter.after (startsWithAt C n s f r) s.length (initCaps r) it := funext (RIter.nth_after h1)
  exact ⟨l, o, h2.tokens (Nat.zero_le _), e ▸ h3⟩

theorem Trials.pieces (H : Trials C n s f r W) (ha : startsWithAnchor f r = false) :
    ∃ l o, PieceLoop (pick W) s.length 0 l o ∧ YieldsPieces (splitNth C n s f r) l o := by
  obtain ⟨it, l, o, h1, h2, h3⟩ := SIter.loops (dflt := initCaps r) H.search_steps (init_unmatched r)
    (fun p c hp h hm => search_fail_end H.numbered ha hp h hm) 0 (Nat.zero_le _)
  have e : splitNth C n s f r = SIter.after (searchAt C n s f r) s.length (initCaps r) it := funext (SIter.nth_after h1)
  exact ⟨l, o, h2.pieces, e ▸ h3⟩

end
end Ctre
