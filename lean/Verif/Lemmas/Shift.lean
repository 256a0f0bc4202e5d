import Verif.Lemmas.ZeroTerminated
import Verif.Lemmas.SafeApi
import Verif.Spec.Shift

/-
Evaluation from a position on is evaluation of the rest of the subject.
-/
namespace Ctre

mutual
theorem Re.forward_fits : (r : Re) → r.forward = true → r.fits ⟨false, true, false, false⟩ = true
  | .cc _, _ | .any, _ | .str _, _ | .empty, _ | .sEnd, _ | .sEndLine, _ | .lEnd, _ | .bref _, _ | .brefName _, _
  | .mode _, _ | .reject _, _ => rfl
  | .sel l, h => by
    simp only [Re.forward, Bool.and_eq_true] at h
    exact forwardAll_fits l h.2
  | .seq l, h | .rep _ _ _ l, h | .cap _ _ l, h | .ahead _ l, h | .atomic l, h => forwardAll_fits l h
  | .sBegin, h | .lBegin, h | .boundary _, h | .notBoundary _, h | .behind _ _, h => by cases h

theorem forwardAll_fits : (l : List Re) → forwardAll l = true → fitsList ⟨false, true, false, false⟩ l = true
  | [], _ => rfl
  | r :: l, h => by
    have h' : r.forward = true ∧ forwardAll l = true := by simpa [forwardAll] using h
    simp [fitsList, Re.forward_fits r h'.1, forwardAll_fits l h'.2]
end

mutual
theorem Re.forward_anchor (f : Flags) : (r : Re) → r.forward = true → anchorRe f false r = false
  | .cc _, _ | .any, _ | .str _, _ | .empty, _ | .sEnd, _ | .sEndLine, _ | .lEnd, _ | .bref _, _ | .brefName _, _
  | .mode _, _ | .reject _, _ | .ahead _ _, _ | .atomic _, _ => rfl
  | .sel l, h => by
    simp only [Re.forward, Bool.and_eq_true, Bool.not_eq_true', List.isEmpty_eq_false_iff] at h
    exact forwardAll_anchorSel f l h.1 h.2
  | .seq l, h => forwardAll_anchorSeq f l h
  | .rep k a b l, h => by simp only [anchorRe]; split <;> simp [forwardAll_anchorSeq f l h]
  | .cap _ none l, h => forwardAll_anchorSeq f l h
  | .cap _ (some _) _, _ => rfl
  | .sBegin, h | .lBegin, h | .boundary _, h | .notBoundary _, h | .behind _ _, h => by cases h

theorem forwardAll_anchorSeq (f : Flags) : (l : List Re) → forwardAll l = true → anchorSeq f false l = false
  | [], _ => rfl
  | r :: l, h => by
    have h' : r.forward = true ∧ forwardAll l = true := by simpa [forwardAll] using h
    simp only [anchorSeq]
    rw [forwardAll_anchorSeq f l h'.2]
    exact Re.forward_anchor f r h'.1

theorem forwardAll_anchorSel (f : Flags) : (l : List Re) → l ≠ [] → forwardAll l = true → anchorSel f false l = false
  | [], h, _ => (h rfl).elim
  | r :: l, _, h => by
    have h' : r.forward = true ∧ forwardAll l = true := by simpa [forwardAll] using h
    simp [anchorSel, Re.forward_anchor f r h'.1]
end

/-- The iterator of the subject, started at `k`, walks over the rest. -/
theorem rest_walks (s : List Ch) {k : Nat} (hk : k ≤ s.length) :
    Walks ⟨false, true, false, false⟩ (viewCursor s) (s.drop k) false (k + ·) where
  inj := fun i j _ _ h => by simpa using h
  size := by simp only [viewCursor, List.length_drop]; omega
  atBegin := fun h => by cases h
  atEnd := by
    intro i hi
    rw [List.length_drop] at hi ⊢
    simp only [viewCursor]
    congr 1
    exact decide_eq_decide.2 (by omega)
  deref := by
    intro i v hv
    rw [List.getElem?_drop] at hv
    exact hv
  next := by
    intro i hi
    rw [List.length_drop] at hi
    simp only [viewCursor]
    rw [if_pos (by omega)]
    rfl
  prev := fun h => by cases h
  narrow := fun _ v _ => rfl
  store := rfl
  refs := fun _ => rfl

theorem view_walks (s : List Ch) (o : Needs) : Walks o (viewCursor s) s false id where
  inj := fun i j _ _ h => h
  size := Nat.le_refl _
  atBegin := fun _ i _ => rfl
  atEnd := fun i _ => rfl
  deref := fun i v hv => hv
  next := fun i hi => by simp only [viewCursor, id, hi, if_true]
  prev := fun _ i _ => rfl
  narrow := fun _ v _ => rfl
  store := rfl
  refs := fun _ => rfl

theorem moved_done {k : Nat} {e : Exec} {c : Caps} (h : e.moved k = .done c) : ∃ d, e = .done d ∧ c = d.moved k := by
  cases e with
  | done d => simp only [Exec.moved, Exec.mapPos, Exec.done.injEq] at h; exact ⟨d, rfl, h.symm⟩
  | _ => simp [Exec.moved, Exec.mapPos] at h

theorem Caps.moved_matched (k : Nat) (c : Caps) : (c.moved k).whole.matched = c.whole.matched := rfl

theorem Exec.moved_success (k : Nat) (e : Exec) : (e.moved k).success = e.success := by cases e <;> rfl

theorem RIter.assign_moved (k p : Nat) (e : Exec) :
    RIter.assign (k + p) (e.moved k) = (RIter.assign p e).map (RIter.moved k) := by
  cases e with
  | done c =>
    simp only [RIter.assign, Exec.moved, Exec.mapPos]
    have h : (c.mapPos (k + ·)).whole.matched = c.whole.matched := rfl
    rw [h]
    have h2 : (c.mapPos (k + ·)).whole.e = c.whole.e.map (k + ·) := rfl
    rw [h2]
    cases c.whole.matched with
    | true => cases c.whole.e <;> rfl
    | false => rfl
  | _ => rfl

theorem SIter.assign_moved (k p : Nat) (b : Bool) (e : Exec) :
    SIter.assign (k + p) b (e.moved k) = (SIter.assign p b e).map (SIter.moved k) := by
  cases e with
  | done c =>
    simp only [SIter.assign, Exec.moved, Exec.mapPos]
    have h : (c.mapPos (k + ·)).whole.matched = c.whole.matched := rfl
    have h2 : (c.mapPos (k + ·)).whole.e = c.whole.e.map (k + ·) := rfl
    have h3 : (c.mapPos (k + ·)).whole.b = c.whole.b.map (k + ·) := rfl
    rw [h]
    cases c.whole.matched with
    | true =>
      simp only [SIter.modifyMatch, h2, h3, if_true]
      cases c.whole.e <;> cases c.whole.b <;> rfl
    | false =>
      simp only [SIter.matchRest, h2, Bool.false_eq_true, if_false]
      cases c.whole.e <;> rfl
  | _ => rfl

theorem RIter.next_moved {exec exec' : Nat → Exec} {len len' k : Nat} {dflt : Caps} (hl : len = k + len')
    (hx : ∀ i, i ≤ len' → exec (k + i) = (exec' i).moved k) (hd : dflt.moved k = dflt) (it : RIter)
    (hc : it.current ≤ len') :
    RIter.next exec len dflt (it.moved k) = (RIter.next exec' len' dflt it).map (RIter.moved k) := by
  unfold RIter.next
  show (if k + it.current = len then some { current := k + it.current, result := dflt }
    else RIter.assign (k + it.current) (exec (k + it.current))) = _
  by_cases h : it.current = len'
  · rw [if_pos (by omega), if_pos h]
    simp [RIter.moved, hd]
  · rw [if_neg (by omega), if_neg h, hx _ hc]
    exact RIter.assign_moved k it.current _

theorem SIter.next_moved {exec exec' : Nat → Exec} {len len' k : Nat} {dflt : Caps} (hl : len = k + len')
    (hx : ∀ i, i ≤ len' → exec (k + i) = (exec' i).moved k) (hd : dflt.moved k = dflt) (it : SIter)
    (hc : it.current ≤ len') :
    SIter.next exec len dflt (it.moved k) = (SIter.next exec' len' dflt it).map (SIter.moved k) := by
  unfold SIter.next
  show (if k + it.current = len ∧ it.lastMatch = true then
      some { current := k + it.current, result := dflt, lastMatch := it.lastMatch }
    else SIter.assign (k + it.current) it.lastMatch (exec (k + it.current))) = _
  by_cases h : it.current = len' ∧ it.lastMatch = true
  · rw [if_pos ⟨by omega, h.2⟩, if_pos h]
    simp [SIter.moved, hd]
  · rw [if_neg (fun h' => h ⟨by omega, h'.2⟩), if_neg h, hx _ hc]
    exact SIter.assign_moved k it.current _ _

/-- The iteration after a result is the iteration over the rest. -/
theorem RIter.nth_moved {exec exec' : Nat → Exec} {len len' k : Nat} {dflt : Caps} (hl : len = k + len')
    (hx : ∀ i, i ≤ len' → exec (k + i) = (exec' i).moved k) (hd : dflt.moved k = dflt)
    (hc : ∀ j it, RIter.nth exec' len' dflt j = some it → it.current ≤ len')
    {m : Nat} {a : RIter} (ha : RIter.nth exec len dflt m = some a) (hk : a.current = k) (hlt : k < len) :
    ∀ j, RIter.nth exec len dflt (m + 1 + j) = (RIter.nth exec' len' dflt j).map (RIter.moved k)
  | 0 => by
    show RIter.nth exec len dflt (m + 1) = _
    simp only [RIter.nth, ha, RIter.next, RIter.init]
    rw [if_neg (by omega), hk]
    have := RIter.assign_moved k 0 (exec' 0)
    rw [← hx 0 (Nat.zero_le _)] at this
    exact this
  | j + 1 => by
    have ih := RIter.nth_moved hl hx hd hc ha hk hlt j
    show RIter.nth exec len dflt (m + 1 + j + 1) = _
    simp only [RIter.nth]
    rw [ih]
    cases h : RIter.nth exec' len' dflt j with
    | none => rfl
    | some it => exact RIter.next_moved hl hx hd it (hc j it h)

theorem SIter.nth_moved {exec exec' : Nat → Exec} {len len' k : Nat} {dflt : Caps} (hl : len = k + len')
    (hx : ∀ i, i ≤ len' → exec (k + i) = (exec' i).moved k) (hd : dflt.moved k = dflt)
    (hc : ∀ j it, SIter.nth exec' len' dflt j = some it → it.current ≤ len')
    {m : Nat} {a : SIter} (ha : SIter.nth exec len dflt m = some a) (hk : a.current = k) (hlt : a.lastMatch = false) :
    ∀ j, SIter.nth exec len dflt (m + 1 + j) = (SIter.nth exec' len' dflt j).map (SIter.moved k)
  | 0 => by
    show SIter.nth exec len dflt (m + 1) = _
    simp only [SIter.nth, ha, SIter.next, SIter.init]
    rw [if_neg (by simp [hlt]), hk, hlt]
    have := SIter.assign_moved k 0 false (exec' 0)
    rw [← hx 0 (Nat.zero_le _)] at this
    exact this
  | j + 1 => by
    have ih := SIter.nth_moved hl hx hd hc ha hk hlt j
    show SIter.nth exec len dflt (m + 1 + j + 1) = _
    simp only [SIter.nth]
    rw [ih]
    cases h : SIter.nth exec' len' dflt j with
    | none => rfl
    | some it => exact SIter.next_moved hl hx hd it (hc j it h)

theorem SIter.assign_le {len p : Nat} {b : Bool} {e : Exec} {it : SIter}
    (he : ∀ c q, e = .done c → c.whole.e = some q → q ≤ len) (h : SIter.assign p b e = some it) : it.current ≤ len := by
  cases e with
  | done c =>
    simp only [SIter.assign] at h
    split at h
    · simp only [SIter.modifyMatch] at h
      split at h
      · rename_i q _ hq _
        simp only [Option.some.injEq] at h
        subst h
        exact he c q rfl hq
      · cases h
    · simp only [SIter.matchRest] at h
      split at h
      · rename_i q hq
        simp only [Option.some.injEq] at h
        subst h
        exact he c q rfl hq
      · cases h
  | _ => simp [SIter.assign] at h

theorem SIter.nth_le {exec : Nat → Exec} {len : Nat} {dflt : Caps}
    (he : ∀ p c q, p ≤ len → exec p = .done c → c.whole.e = some q → q ≤ len) : ∀ j it,
    SIter.nth exec len dflt j = some it → it.current ≤ len
  | 0, it, h => SIter.assign_le (fun c q => he 0 c q (Nat.zero_le _)) h
  | j + 1, it, h => by
    simp only [SIter.nth] at h
    split at h
    · rename_i it' h'
      have := SIter.nth_le he j it' h'
      simp only [SIter.next] at h
      split at h
      · simp only [Option.some.injEq] at h
        subst h
        exact this
      · exact SIter.assign_le (fun c q => he it'.current c q this) h
    · cases h

end Ctre
