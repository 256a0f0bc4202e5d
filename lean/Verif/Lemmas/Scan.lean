import Verif.Spec.Scan
import Verif.Lemmas.Split
import Verif.Props.Search
import Verif.Props.Preference

/-
Results of iteration from the results of the single attempts.
-/
namespace Ctre

theorem Scan.unique {pick : Nat → Option Nat} {len : Nat} {p : Nat} {l : List (Nat × Nat)} (h : Scan pick len p l) :
    ∀ {l'}, Scan pick len p l' → l = l' := by
  induction h with
  | stop p h1 =>
    intro l' h'
    cases h' with
    | stop _ _ => rfl
    | found _ b e l h2 h3 h4 h5 h6 h7 => rw [h1 b h2 (by omega)] at h4; cases h4
  | found p b e l h2 h3 h4 h5 h6 h7 ih =>
    intro l' h'
    cases h' with
    | stop _ h1 => rw [h1 b h2 (by omega)] at h4; cases h4
    | found _ b' e' l h2' h3' h4' h5' h6' h7' =>
      have hb : b = b' := by
        rcases Nat.lt_trichotomy b b' with hlt | rfl | hlt
        · rw [h3' b h2 hlt] at h4; cases h4
        · rfl
        · rw [h3 b' h2' hlt] at h4'; cases h4'
      subst hb
      rw [h4] at h4'
      cases h4'
      rw [ih h7']

theorem Tokens.unique {pick : Nat → Option Nat} {len : Nat} {p : Nat} {l : List (Nat × Nat)} (h : Tokens pick len p l) :
    ∀ {l'}, Tokens pick len p l' → l = l' := by
  induction h with
  | stop p h1 =>
    intro l' h'
    cases h' with
    | stop _ _ => rfl
    | token _ e l h2 h3 h4 h5 => rw [h1] at h2; cases h2
  | token p e l h2 h3 h4 h5 ih =>
    intro l' h'
    cases h' with
    | stop _ h1 => rw [h1] at h2; cases h2
    | token _ e' l h2' h3' h4' h5' =>
      rw [h2] at h2'
      cases h2'
      rw [ih h5']

/-- `Finds find p l`: repeated use of `find` from `p` gives `l`. -/
inductive Finds (find : Nat → Option (Nat × Nat)) : Nat → List (Nat × Nat) → Prop
  | stop (p : Nat) : find p = none → Finds find p []
  | step (p b e : Nat) (l : List (Nat × Nat)) : find p = some (b, e) → Finds find e l → Finds find p ((b, e) :: l)

theorem Finds.cuts {find : Nat → Option (Nat × Nat)} {len p : Nat} {l : List (Nat × Nat)} (h : Finds find p l) :
    ∀ {pieces}, Cuts find len p pieces → pieces = gaps len p l := by
  induction h with
  | stop p h1 =>
    intro l' h'
    cases h' with
    | last _ _ => rfl
    | sep _ b e l h2 h3 => rw [h1] at h2; cases h2
  | step p b e l h2 h3 ih =>
    intro l' h'
    cases h' with
    | last _ h1 => rw [h1] at h2; cases h2
    | sep _ b' e' l h2' h3' =>
      rw [h2] at h2'
      cases h2'
      rw [ih h3']; rfl

/-- `k` increments of an iterator. -/
def RIter.after (exec : Nat → Exec) (len : Nat) (dflt : Caps) (it : RIter) : Nat → Option RIter
  | 0 => some it
  | k+1 =>
    match RIter.after exec len dflt it k with
    | some it' => it'.next exec len dflt
    | none => none

section
variable {exec : Nat → Exec} {len : Nat} {dflt : Caps}

theorem RIter.after_succ {it it' : RIter} (h : it.next exec len dflt = some it') : ∀ k,
    RIter.after exec len dflt it (k+1) = RIter.after exec len dflt it' k
  | 0 => by simp [RIter.after, h]
  | k+1 => by
    have := RIter.after_succ h k
    simp only [RIter.after] at this ⊢
    rw [this]

theorem RIter.nth_after {it : RIter} (h : RIter.init exec = some it) : ∀ k,
    RIter.nth exec len dflt k = RIter.after exec len dflt it k
  | 0 => h
  | k+1 => by simp only [RIter.nth, RIter.after, RIter.nth_after h k]; rfl

theorem RIter.finds (hs : SpanOK exec len) (hd : dflt.whole.matched = false)
    (hret : ∀ p, p ≤ len → ∃ c, exec p = .done c)
    (hne : ∀ p c, p ≤ len → exec p = .done c → c.whole.matched = true → c.whole.b ≠ c.whole.e) :
    ∀ m p, p ≤ len → len - p ≤ m → ∃ it l, RIter.assign p (exec p) = some it ∧ Finds (fun p => (exec p).span) p l ∧
      (∀ i (hi : i < l.length), ∃ it' q, RIter.after exec len dflt it i = some it' ∧ q ≤ len ∧ exec q = .done it'.result ∧
        it'.result.whole = ⟨some (l[i]).1, some (l[i]).2, true⟩) ∧
      ∃ it', RIter.after exec len dflt it l.length = some it' ∧ it'.isEnd = true := by
  intro m
  induction m with
  | zero | succ m ih =>
    intro p hp hm
    obtain ⟨c, hc⟩ := hret p hp
    cases hmt : c.whole.matched with
    | false =>
      refine ⟨{ current := p, result := c }, [], by simp [RIter.assign, hc, hmt], .stop p (by simp [hc, Exec.span, hmt]),
        fun i hi => by simp at hi, _, rfl, by simp [RIter.isEnd, hmt]⟩
    | true =>
      obtain ⟨b, e, h1, h2, h3, h4⟩ := hs p c hp hc hmt
      have hlt := hne p c hp hc hmt
      rw [h1] at hlt
      simp only [ne_eq, Option.some.injEq] at hlt
      have hfind : (exec p).span = some (b, e) := by simp [hc, Exec.span, h1]
      first
      | omega
      | (by_cases hel : e = len
         · subst hel
           obtain ⟨d, hd'⟩ := hret e (Nat.le_refl _)
           have hdm : d.whole.matched = false := by
             cases hdm : d.whole.matched with
             | false => rfl
             | true =>
               obtain ⟨x, y, h5, h6, h7, h8⟩ := hs e d (Nat.le_refl _) hd' hdm
               have := hne e d (Nat.le_refl _) hd' hdm
               rw [h5] at this
               simp only [ne_eq, Option.some.injEq] at this
               omega
           refine ⟨{ current := e, result := c }, [(b, e)], by simp [RIter.assign, hc, h1],
             .step p b e [] hfind (.stop e (by simp [hd', Exec.span, hdm])), ?_, ?_⟩
           · intro i hi
             simp only [List.length_singleton, Nat.lt_one_iff] at hi
             subst hi
             exact ⟨_, p, rfl, hp, hc, h1⟩
           · exact ⟨{ current := e, result := dflt }, by simp [RIter.after, RIter.next], by simp [RIter.isEnd, hd]⟩
         · obtain ⟨it, l, h5, h6, h7, it', h8, h9⟩ := ih e h4 (by omega)
           have hnext : RIter.next exec len dflt { current := e, result := c } = some it := by
             simp only [RIter.next, if_neg hel]; exact h5
           refine ⟨{ current := e, result := c }, (b, e) :: l, by simp [RIter.assign, hc, h1], .step p b e l hfind h6, ?_, ?_⟩
           · intro i hi
             cases i with
             | zero => exact ⟨_, p, rfl, hp, hc, by simp [h1]⟩
             | succ i =>
               rw [RIter.after_succ hnext]
               simp only [List.length_cons, Nat.add_lt_add_iff_right] at hi
               simpa using h7 i hi
           · exact ⟨it', by rw [List.length_cons, RIter.after_succ hnext]; exact h8, h9⟩)

end

/-- The attempts at all positions return and report the first of the given ways. -/
structure Tries (C : Cfg) (n : Nat) (s : List Ch) (f : Flags) (r : Re) (W : Nat → List MState) : Prop where
  numbered : r.Numbered
  free : startsWithAnchor f r = false
  each : ∀ p, p ≤ s.length → ∃ c, startsWithAt C n s f r p = .done c ∧ ReportsFirst c p (W p)

/-- Moreover, none of the ways is empty. -/
structure Attempts (C : Cfg) (n : Nat) (s : List Ch) (f : Flags) (r : Re) (W : Nat → List MState) : Prop extends Tries C n s f r W where
  full : ∀ p, p ≤ s.length → ∀ τ ∈ W p, τ.pos ≠ p

/-- The end of the first way. -/
def pick (W : Nat → List MState) (p : Nat) : Option Nat := (W p).head?.map (·.pos)

section
variable {C : Cfg} {n : Nat} {s : List Ch} {f : Flags} {r : Re} {W : Nat → List MState}

theorem pick_none {p : Nat} (h : W p = []) : pick W p = none := by simp [pick, h]

theorem Tries.returns (H : Tries C n s f r W) : ∀ k it, it + k ≤ s.length → ∃ c, searchLoop C n s f r k it = .done c := by
  have key : ∀ p, p ≤ s.length → attempt C n s f r p = .fail ∨ ∃ c, attempt C n s f r p = .ok c := by
    intro p hp
    obtain ⟨c, h1, _⟩ := H.each p hp
    unfold startsWithAt at h1
    cases h2 : attempt C n s f r p <;> rw [h2] at h1 <;> simp [Out.toExec] at h1 ⊢
  intro k
  induction k with
  | zero =>
    intro it hit
    rcases key it (by omega) with h | ⟨c, h⟩ <;> simp [searchLoop, h, Out.toExec]
  | succ k ih =>
    intro it hit
    rcases key it (by omega) with h | ⟨c, h⟩
    · simp only [searchLoop, h]; exact ih _ (by omega)
    · simp [searchLoop, h, Out.toExec]

theorem Tries.search (H : Tries C n s f r W) {p : Nat} (hp : p ≤ s.length) :
    ∃ c, searchAt C n s f r p = .done c ∧
      ((c.whole.matched = true ∧ ∃ q τ rest, p ≤ q ∧ q ≤ s.length ∧ W q = τ :: rest ∧ Reports c q τ ∧ ∀ i, p ≤ i → i < q → W i = []) ∨
        (c.whole.matched = false ∧ ∀ i, p ≤ i → i ≤ s.length → W i = [])) := by
  have hnil : ∀ i, i ≤ s.length → (∀ c', startsWithAt C n s f r i = .done c' → c'.whole.matched = false) → W i = [] := by
    intro i hi h
    obtain ⟨c', h1, h2⟩ := H.each i hi
    have h3 := h c' h1
    cases hw : W i with
    | nil => rfl
    | cons τ l => rw [hw] at h2; rw [h2.1] at h3; cases h3
  obtain ⟨c, hc⟩ : ∃ c, searchAt C n s f r p = .done c := by
    unfold searchAt; rw [H.free]; exact H.returns _ _ (by simp; omega)
  refine ⟨c, hc, ?_⟩
  cases hm : c.whole.matched with
  | true =>
    obtain ⟨q, h1, h2, h3, h4, h5⟩ := C05_search_leftmost H.numbered hp hc hm
    obtain ⟨c', h6, h7⟩ := H.each q h3
    rw [h4] at h6
    cases h6
    refine .inl ⟨rfl, q, ?_⟩
    cases hw : W q with
    | nil => rw [hw] at h7; simp only [ReportsFirst] at h7; rw [hm] at h7; cases h7
    | cons τ l =>
      rw [hw] at h7
      exact ⟨τ, l, h2, h3, rfl, h7.2, fun i hi hi' => hnil i (by omega) fun c' => h5 i c' hi hi'⟩
  | false =>
    refine .inr ⟨rfl, fun i hi hi' => hnil i hi' fun c' h => ?_⟩
    have := C05_search_failure H.numbered hp H.free hc hm i hi hi'
    rw [h] at this
    exact this

theorem Attempts.returns_search (H : Attempts C n s f r W) : ∀ p, p ≤ s.length → ∃ c, searchAt C n s f r p = .done c :=
  fun _ hp => let ⟨c, h, _⟩ := H.search hp; ⟨c, h⟩

theorem Attempts.full_result (H : Attempts C n s f r W) : ∀ p c, p ≤ s.length → startsWithAt C n s f r p = .done c →
    c.whole.matched = true → c.whole.b ≠ c.whole.e := by
  intro p c hp h hm
  obtain ⟨c', h1, h2⟩ := H.each p hp
  rw [h] at h1
  cases h1
  cases hw : W p with
  | nil => rw [hw] at h2; simp only [ReportsFirst] at h2; rw [hm] at h2; cases h2
  | cons τ l =>
    rw [hw] at h2
    have h3 := h2.2.whole
    have h4 := H.full p hp τ (by simp [hw])
    simp only [Caps.get, if_true, Option.some.injEq] at h3
    rw [h3]
    simp only [ne_eq, Option.some.injEq]
    omega

theorem Attempts.full_search (H : Attempts C n s f r W) : ∀ p c, p ≤ s.length → searchAt C n s f r p = .done c →
    c.whole.matched = true → c.whole.b ≠ c.whole.e := by
  intro p c hp h hm
  obtain ⟨b, _, _, h2, h3, _⟩ := C05_search_leftmost H.numbered hp h hm
  exact H.full_result b c h2 h3 hm

theorem whole_of_reports {c : Caps} {q : Nat} {τ : MState} (h : Reports c q τ) : c.whole = ⟨some q, some τ.pos, true⟩ := by
  simpa [Caps.get] using h.whole

theorem Attempts.scan (H : Attempts C n s f r W) {p : Nat} {l : List (Nat × Nat)}
    (h : Finds (fun p => (searchAt C n s f r p).span) p l) (hp : p ≤ s.length) : Scan (pick W) s.length p l := by
  induction h with
  | stop p h1 =>
    obtain ⟨c, h2, ⟨h3, q, τ, rest, h4, h5, h6, h7, h8⟩ | ⟨h3, h4⟩⟩ := H.search hp
    · simp [h2, Exec.span, whole_of_reports h7] at h1
    · exact .stop p fun i hi hi' => pick_none (h4 i hi hi')
  | step p b e l h1 _ ih =>
    obtain ⟨c, h2, ⟨h3, q, τ, rest, h4, h5, h6, h7, h8⟩ | ⟨h3, h4⟩⟩ := H.search hp
    · simp only [h2, Exec.span, whole_of_reports h7, if_true, Option.some.injEq, Prod.mk.injEq] at h1
      obtain ⟨rfl, rfl⟩ := h1
      obtain ⟨b', e', h9, h10, h11, h12⟩ := search_spanOK H.numbered p c hp h2 h3
      rw [whole_of_reports h7] at h9
      simp only [Slot.mk.injEq, Option.some.injEq, and_true] at h9
      obtain ⟨rfl, rfl⟩ := h9
      have := H.full q h5 τ (by simp [h6])
      exact .found p q τ.pos l h4 (fun i hi hi' => pick_none (h8 i hi hi')) (by simp [pick, h6]) (by omega) h12 (ih h12)
    · simp [h2, Exec.span, h3] at h1

theorem Attempts.tokens (H : Attempts C n s f r W) {p : Nat} {l : List (Nat × Nat)}
    (h : Finds (fun p => (startsWithAt C n s f r p).span) p l) (hp : p ≤ s.length) : Tokens (pick W) s.length p l := by
  induction h with
  | stop p h1 =>
    obtain ⟨c, h2, h3⟩ := H.each p hp
    cases hw : W p with
    | nil => exact .stop p (pick_none hw)
    | cons τ rest => rw [hw] at h3; simp [h2, Exec.span, whole_of_reports h3.2] at h1
  | step p b e l h1 _ ih =>
    obtain ⟨c, h2, h3⟩ := H.each p hp
    cases hw : W p with
    | nil => rw [hw] at h3; simp only [ReportsFirst] at h3; simp [h2, Exec.span, h3] at h1
    | cons τ rest =>
      rw [hw] at h3
      simp only [h2, Exec.span, whole_of_reports h3.2, if_true, Option.some.injEq, Prod.mk.injEq] at h1
      obtain ⟨rfl, rfl⟩ := h1
      obtain ⟨b', e', h9, h10, h11, h12⟩ := startsWith_spanOK H.numbered p c hp h2 h3.1
      rw [whole_of_reports h3.2] at h9
      simp only [Slot.mk.injEq, Option.some.injEq, and_true] at h9
      obtain ⟨rfl, rfl⟩ := h9
      have := H.full p hp τ (by simp [hw])
      exact .token p τ.pos l (by simp [pick, hw]) (by omega) h12 (ih h12)

/-- The result of the iterator is the first way from the beginning of its span. -/
theorem Attempts.reports_search (H : Attempts C n s f r W) {q b e : Nat} {c : Caps} (hq : q ≤ s.length)
    (h : searchAt C n s f r q = .done c) (hw : c.whole = ⟨some b, some e, true⟩) : ∃ τ rest, W b = τ :: rest ∧ Reports c b τ := by
  obtain ⟨c', h2, ⟨h3, q', τ, rest, h4, h5, h6, h7, h8⟩ | ⟨h3, h4⟩⟩ := H.search hq
  · rw [h] at h2
    cases h2
    rw [whole_of_reports h7] at hw
    simp only [Slot.mk.injEq, Option.some.injEq, and_true] at hw
    obtain ⟨rfl, rfl⟩ := hw
    exact ⟨τ, rest, h6, h7⟩
  · rw [h] at h2
    cases h2
    rw [hw] at h3; cases h3

theorem Attempts.reports_starts (H : Attempts C n s f r W) {q b e : Nat} {c : Caps} (hq : q ≤ s.length)
    (h : startsWithAt C n s f r q = .done c) (hw : c.whole = ⟨some b, some e, true⟩) : ∃ τ rest, W b = τ :: rest ∧ Reports c b τ := by
  obtain ⟨c', h2, h3⟩ := H.each q hq
  rw [h] at h2
  cases h2
  cases hW : W q with
  | nil => rw [hW] at h3; simp only [ReportsFirst] at h3; rw [hw] at h3; cases h3
  | cons τ rest =>
    rw [hW] at h3
    have := whole_of_reports h3.2
    rw [this] at hw
    simp only [Slot.mk.injEq, Option.some.injEq, and_true] at hw
    obtain ⟨rfl, rfl⟩ := hw
    exact ⟨τ, rest, hW, h3.2⟩

end
end Ctre
