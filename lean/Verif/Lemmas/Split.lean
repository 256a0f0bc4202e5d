import Verif.Spec.Cuts
import Verif.Lemmas.Iterate

/-
Iteration of `split`.
-/
namespace Ctre

theorem slice_append {s : List Ch} {a b c : Nat} (h1 : a ≤ b) (h2 : b ≤ c) :
    slice s (a, b) ++ slice s (b, c) = slice s (a, c) := by
  unfold slice
  simp only
  have h3 : s.drop b = (s.drop a).drop (b - a) := by rw [List.drop_drop]; congr 1; omega
  rw [h3, show c - a = (b - a) + (c - b) by omega, List.take_add]

theorem slice_all (s : List Ch) : slice s (0, s.length) = s := by simp [slice]

/-- The pieces and the text between them make up the rest of the subject. -/
theorem Cuts.joined {find : Nat → Option (Nat × Nat)} {len p : Nat} {l : List (Nat × Nat)} {s : List Ch}
    (hfind : ∀ p b e, p ≤ len → find p = some (b, e) → p ≤ b ∧ b ≤ e ∧ e ≤ len)
    (hp : p ≤ len) (h : Cuts find len p l) :
    Ctre.joined s l = slice s (p, len) ∧ ∃ q l', l = (p, q) :: l' := by
  induction h with
  | last p h => exact ⟨rfl, len, [], rfl⟩
  | sep p b e l h1 h2 ih =>
    obtain ⟨h3, h4, h5⟩ := hfind p b e hp h1
    obtain ⟨h6, q, l', rfl⟩ := ih h5
    refine ⟨?_, b, _, rfl⟩
    simp only [Ctre.joined]
    rw [h6, slice_append h3 h4, slice_append (by omega) h5]

/-- The span of a successful result. -/
def Exec.span : Exec → Option (Nat × Nat)
  | .done c =>
    if c.whole.matched then
      match c.whole.b, c.whole.e with
      | some b, some e => some (b, e)
      | _, _ => none
    else none
  | _ => none

/-- `k` increments of a split iterator. -/
def SIter.after (exec : Nat → Exec) (len : Nat) (dflt : Caps) (it : SIter) : Nat → Option SIter
  | 0 => some it
  | k+1 =>
    match SIter.after exec len dflt it k with
    | some it' => it'.next exec len dflt
    | none => none

section
variable {exec : Nat → Exec} {len : Nat} {dflt : Caps}

theorem SIter.after_succ {it it' : SIter} (h : it.next exec len dflt = some it') : ∀ k,
    SIter.after exec len dflt it (k+1) = SIter.after exec len dflt it' k
  | 0 => by simp [SIter.after, h]
  | k+1 => by
    have := SIter.after_succ h k
    simp only [SIter.after] at this ⊢
    rw [this]

theorem SIter.nth_after {it : SIter} (h : SIter.init exec = some it) : ∀ k,
    SIter.nth exec len dflt k = SIter.after exec len dflt it k
  | 0 => h
  | k+1 => by simp only [SIter.nth, SIter.after, SIter.nth_after h k]; rfl

theorem SIter.cuts (hs : SpanOK exec len) (hd : dflt.whole.matched = false)
    (hret : ∀ p, p ≤ len → ∃ c, exec p = .done c)
    (hfail : ∀ p c, p ≤ len → exec p = .done c → c.whole.matched = false → c.whole.e = some len)
    (hne : ∀ p c, p ≤ len → exec p = .done c → c.whole.matched = true → c.whole.b ≠ c.whole.e) :
    ∀ m p, p ≤ len → len - p ≤ m → ∃ it l, SIter.assign p false (exec p) = some it ∧
      Cuts (fun p => (exec p).span) len p l ∧
      (∀ i (hi : i < l.length), ∃ it', SIter.after exec len dflt it i = some it' ∧
        it'.result.whole = ⟨some (l[i]).1, some (l[i]).2, true⟩) ∧
      ∃ it', SIter.after exec len dflt it l.length = some it' ∧ it'.isEnd = true := by
  intro m
  induction m with
  | zero | succ m ih =>
    intro p hp hm
    obtain ⟨c, hc⟩ := hret p hp
    cases hmt : c.whole.matched with
    | false =>
      have he := hfail p c hp hc hmt
      refine ⟨{ current := len, result := (c.setStart p).setMatched, lastMatch := true }, [(p, len)], ?_, ?_, ?_, ?_⟩
      · simp [SIter.assign, hc, hmt, SIter.matchRest, he]
      · exact .last p (by simp [hc, Exec.span, hmt])
      · intro i hi
        simp only [List.length_singleton, Nat.lt_one_iff] at hi
        subst hi
        refine ⟨_, rfl, ?_⟩
        simp [Caps.setStart, Caps.setMatched, he]
      · refine ⟨{ current := len, result := dflt, lastMatch := true }, ?_, by simp [SIter.isEnd, hd]⟩
        simp [SIter.after, SIter.next]
    | true =>
      obtain ⟨b, e, h1, h2, h3, h4⟩ := hs p c hp hc hmt
      have hlt := hne p c hp hc hmt
      rw [h1] at hlt
      simp only [ne_eq, Option.some.injEq] at hlt
      first
      | omega
      | (obtain ⟨it, l, h5, h6, h7, it', h8, h9⟩ := ih e h4 (by omega)
         refine ⟨{ current := e, result := (c.setEnd b).setStart p, lastMatch := false }, (p, b) :: l, ?_, ?_, ?_, ?_⟩
         · simp [SIter.assign, hc, SIter.modifyMatch, h1]
         · exact .sep p b e l (by simp [hc, Exec.span, h1]) h6
         · have hnext : SIter.next exec len dflt
               { current := e, result := (c.setEnd b).setStart p, lastMatch := false } = some it := by
             simp only [SIter.next, Bool.false_eq_true, and_false, if_false]; exact h5
           intro i hi
           cases i with
           | zero => exact ⟨_, rfl, by simp [Caps.setStart, Caps.setEnd, h1]⟩
           | succ i =>
             rw [SIter.after_succ hnext]
             simp only [List.length_cons, Nat.add_lt_add_iff_right] at hi
             simpa using h7 i hi
         · have hnext : SIter.next exec len dflt
               { current := e, result := (c.setEnd b).setStart p, lastMatch := false } = some it := by
             simp only [SIter.next, Bool.false_eq_true, and_false, if_false]; exact h5
           exact ⟨it', by rw [List.length_cons, SIter.after_succ hnext]; exact h8, h9⟩)

end

theorem search_fail_end {C : Cfg} {n : Nat} {s : List Ch} {f : Flags} {r : Re} (hr : r.Numbered)
    (ha : startsWithAnchor f r = false) {p : Nat} {c : Caps} (hp : p ≤ s.length)
    (h : searchAt C n s f r p = .done c) (hm : c.whole.matched = false) : c.whole.e = some s.length := by
  unfold searchAt at h
  rw [ha] at h
  have h1 := (searchLoop_fail' hr (by simp; omega) h hm).1
  rw [h1]
  simp [Caps.setEnd]
  omega

end Ctre
