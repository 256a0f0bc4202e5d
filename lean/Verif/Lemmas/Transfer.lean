import Verif.Lemmas.Mono
import Verif.Spec.Runs

/-
Results of the entry points from outcomes of the attempts.
-/
namespace Ctre

/-- Every attempt of the first call that comes to an end has the same outcome in the second call. -/
structure SameAttempts (C C' : Cfg) (s s' : List Ch) (f f' : Flags) (r r' : Re) : Prop where
  caps : initCaps r = initCaps r'
  part : ∀ it o, it ≤ s.length → Runs C s false it f (initCaps r) [.startMark, .re r, .endMark, .accept] o →
    Runs C' s' false it f' (initCaps r') [.startMark, .re r', .endMark, .accept] o
  whole : ∀ it o, it ≤ s.length →
    Runs C s false it f (initCaps r) [.startMark, .re r, .re .sEnd, .endMark, .accept] o →
    Runs C' s' false it f' (initCaps r') [.startMark, .re r', .re .sEnd, .endMark, .accept] o

theorem Out.toExec_timeout {r : Re} {o : Out} : o.toExec r = .timeout ↔ o = .timeout := by
  cases o <;> simp [Out.toExec]

theorem Out.toExec_caps {r r' : Re} (h : initCaps r = initCaps r') (o : Out) : o.toExec r = o.toExec r' := by
  cases o <;> simp [Out.toExec, h]

theorem searchLoop_mono (C : Cfg) {n n' : Nat} (hn : n ≤ n') (s : List Ch) (f : Flags) (r : Re) : ∀ k it,
    searchLoop C n s f r k it = .timeout ∨ searchLoop C n s f r k it = searchLoop C n' s f r k it := by
  intro k
  induction k with
  | zero =>
    intro it
    unfold searchLoop attempt
    rcases eval_mono C hn s false it f (initCaps r) [.startMark, .re r, .endMark, .accept] with h | h
    · rw [h]; exact .inl rfl
    · rw [h]; exact .inr rfl
  | succ k ih =>
    intro it
    unfold searchLoop attempt
    rcases eval_mono C hn s false it f (initCaps r) [.startMark, .re r, .endMark, .accept] with h | h
    · rw [h]; exact .inl rfl
    · rw [h]
      split
      · exact ih _
      · exact .inr rfl

variable {C C' : Cfg} {s s' : List Ch} {f f' : Flags} {r r' : Re}

theorem SameAttempts.search (H : SameAttempts C C' s s' f f' r r') {e : Exec} : ∀ {k it : Nat}, it + k ≤ s.length →
    Returns (fun n => searchLoop C n s f r k it) e → Returns (fun n => searchLoop C' n s' f' r' k it) e := by
  intro k
  induction k with
  | zero =>
    rintro it hk ⟨he, n, hn⟩
    dsimp only at hn
    refine ⟨he, ?_⟩
    unfold searchLoop at hn ⊢
    cases ho : attempt C n s f r it with
    | timeout => rw [ho] at hn; exact absurd hn.symm he
    | _ =>
      obtain ⟨_, n', hn'⟩ := H.part it _ (by omega) ⟨by simp, n, ho⟩
      refine ⟨n', ?_⟩
      simp only [attempt, hn']
      rw [ho] at hn
      simpa only [Out.toExec, H.caps] using hn
  | succ k ih =>
    rintro it hk ⟨he, n, hn⟩
    dsimp only at hn
    refine ⟨he, ?_⟩
    unfold searchLoop at hn
    cases ho : attempt C n s f r it with
    | timeout => rw [ho] at hn; exact absurd hn.symm he
    | fail =>
      rw [ho] at hn
      obtain ⟨_, n', hn'⟩ := H.part it _ (by omega) ⟨by simp, n, ho⟩
      obtain ⟨_, n2, hn2⟩ := ih (it := it + 1) (by omega) ⟨he, n, hn⟩
      refine ⟨max n' n2, ?_⟩
      dsimp only at hn2 ⊢
      unfold searchLoop attempt
      rw [eval_of_le C' (Nat.le_max_left n' n2) hn' (by simp)]
      dsimp only
      rcases searchLoop_mono C' (Nat.le_max_right n' n2) s' f' r' k (it+1) with h | h
      · rw [hn2] at h; exact absurd h he
      · rw [← h, hn2]
    | _ =>
      obtain ⟨_, n', hn'⟩ := H.part it _ (by omega) ⟨by simp, n, ho⟩
      refine ⟨n', ?_⟩
      unfold searchLoop
      simp only [attempt, hn']
      rw [ho] at hn
      simpa only [Out.toExec] using hn

theorem SameAttempts.startsWithAt (H : SameAttempts C C' s s' f f' r r') {e : Exec} {it : Nat} (hit : it ≤ s.length)
    (h : Returns (fun n => startsWithAt C n s f r it) e) : Returns (fun n => startsWithAt C' n s' f' r' it) e := by
  obtain ⟨he, n, hn⟩ := h
  refine ⟨he, ?_⟩
  dsimp only [Ctre.startsWithAt] at hn ⊢
  have ho : attempt C n s f r it ≠ .timeout := fun h => he (by rw [← hn, h]; rfl)
  obtain ⟨_, n', hn'⟩ := H.part it _ hit ⟨ho, n, rfl⟩
  refine ⟨n', ?_⟩
  rw [← hn]
  unfold attempt
  rw [hn', Out.toExec_caps H.caps]; rfl

theorem SameAttempts.matchAt (H : SameAttempts C C' s s' f f' r r') {e : Exec} {it : Nat} (hit : it ≤ s.length)
    (h : Returns (fun n => matchAt C n s f r it) e) : Returns (fun n => matchAt C' n s' f' r' it) e := by
  obtain ⟨he, n, hn⟩ := h
  refine ⟨he, ?_⟩
  dsimp only [Ctre.matchAt] at hn ⊢
  have ho : attemptFull C n s f r it ≠ .timeout := fun h => he (by rw [← hn, h]; rfl)
  obtain ⟨_, n', hn'⟩ := H.whole it _ hit ⟨ho, n, rfl⟩
  refine ⟨n', ?_⟩
  rw [← hn]
  unfold attemptFull
  rw [hn', Out.toExec_caps H.caps]; rfl

theorem SameAttempts.searchAt (H : SameAttempts C C' s s' f f' r r') (hl : s.length = s'.length)
    (ha : startsWithAnchor f r = startsWithAnchor f' r') {e : Exec} {it : Nat} (hit : it ≤ s.length)
    (h : Returns (fun n => searchAt C n s f r it) e) : Returns (fun n => searchAt C' n s' f' r' it) e := by
  unfold Ctre.searchAt at h ⊢
  rw [← ha, ← hl]
  refine H.search ?_ h
  split <;> omega

end Ctre
