import Verif.Lemmas.Scan
import Verif.Props.Iteration
import Verif.Props.TextLanguage

/-
C80: what `search_all`, `split` and `tokenize` yield follows from the text of the pattern.
-/
namespace Ctre
open Parse Surface

variable {P : PropTable} {t : List Nat} {r : Re} {b : Body}

/-- No match of the text is empty. -/
def Surface.Body.NeverEmpty (C : Cfg) (s : List Ch) (f : Flags) (b : Body) : Prop :=
  ∀ p, p ≤ s.length → ∀ τ ∈ textWays C s f b p, τ.pos ≠ p

/-- The end of the match that is preferred, according to the text of the pattern, among those that begin at `p`. -/
def textPick (C : Cfg) (s : List Ch) (f : Flags) (b : Body) (p : Nat) : Option Nat := pick (textWays C s f b) p

theorem Orderly.attempts (h : build P t = .pattern r) (hb : Orderly P.find t b) (hbeg : b.noBegin = true) {C : Cfg}
    (hC : C.greedyOpt = false) {n : Nat} {s : List Ch} {f : Flags} (he : b.NeverEmpty C s f) (hn : r.weight + s.length + 7 ≤ n) :
    Attempts C n s f r (textWays C s f b) where
  numbered := by rw [hb.tree h]; exact (body_wellNumbered hb.reading.1 hb.faithful hb.selfFree).numbered
  free := by rw [hb.tree h]; exact body_noAnchor hbeg f
  each p hp := (C75_match h hb hC (f := f) hp hn).2
  full := he

theorem Rational.attempts (h : build P t = .pattern r) (hb : Rational P.find t b) (hm : b.small = true) {C : Cfg} {n : Nat}
    {s : List Ch} (hs : ∀ v ∈ s, IsCh v) {f : Flags} (hblk : f.blk = false) (hci : b.caseSafe f.ci = true) (he : b.NeverEmpty C s f)
    (hn : r.weight + s.length + 7 ≤ n) : Attempts C n s f r (textWays C s f b) where
  numbered := by rw [hb.orderly.tree h]; exact (body_wellNumbered hb.reading.1 hb.faithful hb.orderly.selfFree).numbered
  free := by rw [hb.orderly.tree h]; exact body_noAnchor (Body.regular_noBegin b hb.regular) f
  each p hp := by
    have he : r.easy = true := by
      rw [hb.orderly.tree h]
      exact body_easy b hb.faithful (by have := hb.size; simp only [szMod]; omega) hb.regular hb.firm hm
    exact (C75_match_optimised h hb.orderly (.inr (easy_scannable he)) (easy_steady true false he) (f := f) hs hblk
      (by rw [hb.orderly.tree h]; exact body_caseSafe hb.faithful hci) (fun _ => rfl) hp hn).2
  full := he

/-- What is claimed about the three iterations, given the lists of matches: the results of `search_all` are the matches from left to
right, with the groups of the preferred way; `split` yields what is between them; the tokens are the matches without a gap.  Each ends
after the last result. -/
structure Iterates (C : Cfg) (n : Nat) (s : List Ch) (f : Flags) (r : Re) (b : Body) (found tokens : List (Nat × Nat)) : Prop where
  all : ∀ i (hi : i < found.length), ∃ it τ rest, searchAllNth C n s f r i = some it ∧
    it.result.get 0 = some ⟨some (found[i]).1, some (found[i]).2, true⟩ ∧
    textWays C s f b (found[i]).1 = τ :: rest ∧ Reports it.result (found[i]).1 τ
  all_end : ∃ it, searchAllNth C n s f r found.length = some it ∧ it.isEnd = true
  split : ∀ i (hi : i < (gaps s.length 0 found).length), ∃ it, splitNth C n s f r i = some it ∧
    it.result.get 0 = some ⟨some ((gaps s.length 0 found)[i]).1, some ((gaps s.length 0 found)[i]).2, true⟩
  split_end : ∃ it, splitNth C n s f r (gaps s.length 0 found).length = some it ∧ it.isEnd = true
  token : ∀ i (hi : i < tokens.length), ∃ it τ rest, tokenizeNth C n s f r i = some it ∧
    it.result.get 0 = some ⟨some (tokens[i]).1, some (tokens[i]).2, true⟩ ∧
    textWays C s f b (tokens[i]).1 = τ :: rest ∧ Reports it.result (tokens[i]).1 τ
  token_end : ∃ it, tokenizeNth C n s f r tokens.length = some it ∧ it.isEnd = true

theorem Attempts.iterates {C : Cfg} {n : Nat} {s : List Ch} {f : Flags} (H : Attempts C n s f r (textWays C s f b)) :
    ∃ found tokens, Scan (textPick C s f b) s.length 0 found ∧ Tokens (textPick C s f b) s.length 0 tokens ∧
      Iterates C n s f r b found tokens := by
  obtain ⟨it, l, h1, h2, h3, h4⟩ := RIter.finds (dflt := initCaps r) (search_spanOK H.numbered) (init_unmatched r) H.returns_search
    H.full_search s.length 0 (Nat.zero_le _) (by omega)
  obtain ⟨jt, m, k1, k2, k3, k4⟩ := RIter.finds (dflt := initCaps r) (startsWith_spanOK H.numbered) (init_unmatched r)
    (fun p hp => let ⟨c, h, _⟩ := H.each p hp; ⟨c, h⟩) H.full_result s.length 0 (Nat.zero_le _) (by omega)
  obtain ⟨pieces, p1, p2, p3⟩ := C22_split_pieces H.numbered H.free H.returns_search H.full_result
  have e := h2.cuts p1
  subst e
  have h6 := RIter.nth_after (exec := searchAt C n s f r) (len := s.length) (dflt := initCaps r) h1
  have k6 := RIter.nth_after (exec := startsWithAt C n s f r) (len := s.length) (dflt := initCaps r) k1
  refine ⟨l, m, H.scan h2 (Nat.zero_le _), H.tokens k2 (Nat.zero_le _), ?_, ?_, p2, p3, ?_, ?_⟩
  · intro i hi
    obtain ⟨x, q, h7, h8, h9, h10⟩ := h3 i hi
    obtain ⟨τ, rest, h11, h12⟩ := H.reports_search h8 h9 h10
    exact ⟨x, τ, rest, by show RIter.nth _ _ _ _ = _; rw [h6]; exact h7, by simp [Caps.get, h10], h11, h12⟩
  · obtain ⟨x, h7, h8⟩ := h4
    exact ⟨x, by show RIter.nth _ _ _ _ = _; rw [h6]; exact h7, h8⟩
  · intro i hi
    obtain ⟨x, q, h7, h8, h9, h10⟩ := k3 i hi
    obtain ⟨τ, rest, h11, h12⟩ := H.reports_starts h8 h9 h10
    exact ⟨x, τ, rest, by show RIter.nth _ _ _ _ = _; rw [k6]; exact h7, by simp [Caps.get, h10], h11, h12⟩
  · obtain ⟨x, h7, h8⟩ := k4
    exact ⟨x, by show RIter.nth _ _ _ _ = _; rw [k6]; exact h7, h8⟩

/-- C80: if no match of the text is empty and `^` and `\A` do not occur, `search_all` yields the matches that are preferred according to
the text, from left to right, `split` what is between them, and `tokenize` the matches that follow each other from the beginning; then
they end. -/
theorem C80_iterates (h : build P t = .pattern r) (hb : Orderly P.find t b) (hbeg : b.noBegin = true) {C : Cfg}
    (hC : C.greedyOpt = false) {n : Nat} {s : List Ch} {f : Flags} (he : b.NeverEmpty C s f) (hn : r.weight + s.length + 7 ≤ n) :
    ∃ found tokens, Scan (textPick C s f b) s.length 0 found ∧ Tokens (textPick C s f b) s.length 0 tokens ∧
      Iterates C n s f r b found tokens :=
  (hb.attempts h hbeg hC he hn).iterates

/-- C80: the lists are determined by the text of the pattern and the subject. -/
theorem C80_unique {C : Cfg} {s : List Ch} {f : Flags} {l l' m m' : List (Nat × Nat)} (h : Scan (textPick C s f b) s.length 0 l)
    (h' : Scan (textPick C s f b) s.length 0 l') (k : Tokens (textPick C s f b) s.length 0 m) (k' : Tokens (textPick C s f b) s.length 0 m') :
    l = l' ∧ m = m' := ⟨h.unique h', k.unique k'⟩

theorem Rational.neverEmpty (hb : Rational P.find t b) {C : Cfg} {s : List Ch} {f : Flags} (he : ¬ b.Accepts C f []) :
    b.NeverEmpty C s f := by
  intro p hp τ hτ e
  refine he ?_
  have := (hb.ways (Nat.le_refl p) hp).1 ⟨τ, hτ, e⟩
  simpa [text] using this

/-- C80 with the optimisation of greedy repetitions, under the conditions of C79; that the empty text is no word of the language takes
the place of the condition on matches. -/
theorem C80_iterates_optimised (h : build P t = .pattern r) (hb : Rational P.find t b) (hm : b.small = true) {C : Cfg} {n : Nat}
    {s : List Ch} (hs : ∀ v ∈ s, IsCh v) {f : Flags} (hblk : f.blk = false) (hci : b.caseSafe f.ci = true) (he : ¬ b.Accepts C f [])
    (hn : r.weight + s.length + 7 ≤ n) :
    ∃ found tokens, Scan (textPick C s f b) s.length 0 found ∧ Tokens (textPick C s f b) s.length 0 tokens ∧
      Iterates C n s f r b found tokens :=
  (hb.attempts h hm hs hblk hci (hb.neverEmpty he) hn).iterates

theorem Rational.pick_none_iff (hb : Rational P.find t b) {C : Cfg} {s : List Ch} {f : Flags} {p : Nat} (hp : p ≤ s.length) :
    textPick C s f b p = none ↔ ∀ e, p ≤ e → e ≤ s.length → ¬ b.Accepts C f (text s p e) := by
  unfold textPick pick
  constructor
  · intro h e h1 h2 h3
    obtain ⟨τ, h4, _⟩ := (hb.ways h1 h2).2 h3
    cases hw : textWays C s f b p <;> rw [hw] at h h4 <;> simp at h h4
  · intro h
    cases hw : textWays C s f b p with
    | nil => rfl
    | cons τ rest =>
      have hτ : τ ∈ textWays C s f b p := by simp [hw]
      have hi := hb.inside hp hτ
      exact absurd ((hb.ways hi.1 hi.2).1 ⟨τ, hτ, rfl⟩) (h _ hi.1 hi.2)

theorem Rational.pick_some (hb : Rational P.find t b) {C : Cfg} {s : List Ch} {f : Flags} {p e : Nat} (hp : p ≤ s.length)
    (h : textPick C s f b p = some e) : b.Accepts C f (text s p e) := by
  unfold textPick pick at h
  cases hw : textWays C s f b p with
  | nil => rw [hw] at h; simp at h
  | cons τ rest =>
    rw [hw] at h
    simp only [List.head?_cons, Option.map_some, Option.some.injEq] at h
    have hτ : τ ∈ textWays C s f b p := by simp [hw]
    have hi := hb.inside hp hτ
    subst h
    exact (hb.ways hi.1 hi.2).1 ⟨τ, hτ, rfl⟩

/-- C80, in terms of the language: everything found is a word, and wherever a word of the language begins, something found begins
there or covers the place. -/
theorem C80_words (hb : Rational P.find t b) {C : Cfg} {s : List Ch} {f : Flags} {l : List (Nat × Nat)} {p : Nat}
    (h : Scan (textPick C s f b) s.length p l) :
    (∀ x ∈ l, p ≤ x.1 ∧ x.1 < x.2 ∧ x.2 ≤ s.length ∧ b.Accepts C f (text s x.1 x.2)) ∧
    ∀ i e, p ≤ i → i ≤ e → e ≤ s.length → b.Accepts C f (text s i e) → ∃ x ∈ l, x.1 ≤ i ∧ i < x.2 := by
  induction h with
  | stop p h1 =>
    refine ⟨fun x hx => by simp at hx, fun i e h2 h3 h4 h5 => ?_⟩
    exact absurd h5 ((hb.pick_none_iff (by omega)).1 (h1 i h2 (by omega)) e h3 h4)
  | found p q e l h2 h3 h4 h5 h6 _ ih =>
    refine ⟨fun x hx => ?_, fun i e' h8 h9 h10 h11 => ?_⟩
    · rcases List.mem_cons.1 hx with rfl | hx
      · exact ⟨h2, h5, h6, hb.pick_some (by show q ≤ _; omega) h4⟩
      · obtain ⟨k1, k2⟩ := ih.1 x hx
        exact ⟨by omega, k2⟩
    · by_cases hi : i < q
      · exact absurd h11 ((hb.pick_none_iff (by omega)).1 (h3 i h8 hi) e' h9 h10)
      · by_cases hi' : i < e
        · exact ⟨(q, e), by simp, by show q ≤ i; omega, hi'⟩
        · obtain ⟨x, hx, k⟩ := ih.2 i e' (by omega) h9 h10 h11
          exact ⟨x, by simp [hx], k⟩

/-- C80: no piece of `split` contains a word of the language. -/
theorem C80_pieces (hb : Rational P.find t b) {C : Cfg} {s : List Ch} {f : Flags} (he : ¬ b.Accepts C f []) {l : List (Nat × Nat)} {p : Nat}
    (h : Scan (textPick C s f b) s.length p l) (hp : p ≤ s.length) :
    ∀ x ∈ gaps s.length p l, p ≤ x.1 ∧ x.1 ≤ x.2 ∧ x.2 ≤ s.length ∧ ∀ u v w, text s x.1 x.2 = u ++ v ++ w → ¬ b.Accepts C f v := by
  have key : ∀ p q, p ≤ q → q ≤ s.length → (∀ i, p ≤ i → i < q → textPick C s f b i = none) →
      ∀ u v w, text s p q = u ++ v ++ w → ¬ b.Accepts C f v := by
    intro p q hpq hq h u v w huvw hv
    have hlen : (text s p q).length = q - p := by simp [text]; omega
    have hl : u.length + v.length + w.length = q - p := by
      rw [← hlen, huvw]; simp; omega
    have hv0 : v ≠ [] := fun e => he (e ▸ hv)
    have hv1 : 0 < v.length := List.length_pos_iff.2 hv0
    have e1 : text s (p + u.length) (p + u.length + v.length) = v := by
      have : v = ((text s p q).drop u.length).take v.length := by rw [huvw]; simp [List.append_assoc]
      rw [this]
      simp only [text, List.drop_take, List.drop_drop, List.take_take]
      congr 1
      simp; omega
    refine (hb.pick_none_iff (by omega)).1 (h (p + u.length) (by omega) (by omega)) (p + u.length + v.length) (by omega) (by omega) ?_
    rw [e1]; exact hv
  induction h with
  | stop p h1 =>
    intro x hx
    simp only [gaps, List.mem_singleton] at hx
    subst hx
    exact ⟨Nat.le_refl _, hp, Nat.le_refl _, key p s.length hp (Nat.le_refl _) fun i h2 h3 => h1 i h2 (by omega)⟩
  | found p q e l h2 h3 h4 h5 h6 _ ih =>
    intro x hx
    rcases List.mem_cons.1 hx with rfl | hx
    · exact ⟨Nat.le_refl _, h2, by show q ≤ _; omega, key p q h2 (by omega) h3⟩
    · obtain ⟨k1, k2⟩ := ih h6 x hx
      exact ⟨by omega, k2⟩

/-- C80: `tokenize` reaches the end of the subject only if the subject is a concatenation of words of the language. -/
theorem C80_tokens (hb : Rational P.find t b) {C : Cfg} {s : List Ch} {f : Flags} {l : List (Nat × Nat)} {p : Nat}
    (h : Tokens (textPick C s f b) s.length p l) (hp : p ≤ s.length) :
    ∃ q, p ≤ q ∧ q ≤ s.length ∧ (∀ e, q ≤ e → e ≤ s.length → ¬ b.Accepts C f (text s q e)) ∧
      text s p q ∈ (b.lang C.uni f.ml f.ci) ^ l.length := by
  induction h with
  | stop p h1 =>
    refine ⟨p, Nat.le_refl _, hp, (hb.pick_none_iff hp).1 h1, ?_⟩
    simp [text]
  | token p e l h2 h3 h4 _ ih =>
    obtain ⟨q, h5, h6, h7, h8⟩ := ih h4
    refine ⟨q, by omega, h6, h7, ?_⟩
    rw [List.length_cons, pow_succ']
    exact Language.mem_mul.2 ⟨text s p e, hb.pick_some (by omega) h2, text s e q, h8, stretch_append (by omega) h5⟩

/-! ### Cases -/

theorem sampleRational_nonempty (C : Cfg) (f : Flags) : ¬ sampleRational.Accepts C f [] := by
  intro h
  obtain ⟨τ, hτ, _⟩ := (sampleRational_rational.ways (s := []) (p := 0) (e := 0) (Nat.le_refl _) (Nat.le_refl _)).2 h
  have : textWays C [] f sampleRational 0 = [] := rfl
  rw [this] at hτ
  cases hτ

/-- `(?:ab|c)*(d)?[e-f]{2,3}` on "xabdeffef": the matches are "abdeff" and "ef". -/
example : Scan (textPick {} [120, 97, 98, 100, 101, 102, 102, 101, 102] {} sampleRational) 9 0 [(1, 7), (7, 9)] := by
  refine .found 0 1 7 _ (by omega) ?_ (by decide +kernel) (by omega) (by omega)
    (.found 7 7 9 _ (by omega) (fun i h1 h2 => by omega) (by decide +kernel) (by omega) (by omega) (.stop 9 ?_))
  · intro i h1 h2
    obtain rfl : i = 0 := by omega
    decide +kernel
  · intro i h1 h2
    obtain rfl : i = 9 := by omega
    decide +kernel

example : ∃ r, build {} sampleRationalText = .pattern r ∧
    (searchAllNth {} 90 [120, 97, 98, 100, 101, 102, 102, 101, 102] {} r 1).map (·.result.whole) = some ⟨some 7, some 9, true⟩ ∧
    (splitNth {} 90 [120, 97, 98, 100, 101, 102, 102, 101, 102] {} r 0).map (·.result.whole) = some ⟨some 0, some 1, true⟩ :=
  ⟨_, rfl, by decide +kernel⟩

/-- `a*` -/
def sampleEmptyMatch : Body := .alt (.one (.one (.ch (.plain 97)) (.star .greedy)))

/-- The condition on empty matches is needed: `search_all` with `a*` on "b" yields the empty match at the beginning forever, and never
reaches the end. -/
theorem C80_fails_empty : (textWays {} [98] {} sampleEmptyMatch 0).map (·.pos) = [0] ∧
    ∃ r, build {} sampleEmptyMatch.print = .pattern r ∧
      ∀ k, ∃ it, searchAllNth {} 20 [98] {} r k = some it ∧ it.isEnd = false ∧ it.result.get 0 = some ⟨some 0, some 0, true⟩ := by
  refine ⟨by decide +kernel, .rep .greedy 0 0 [.cc (.chr 97)], rfl, ?_⟩
  have h0 : searchAllNth {} 20 [98] {} (.rep .greedy 0 0 [.cc (.chr 97)]) 0 = some ⟨0, { whole := ⟨some 0, some 0, true⟩ }⟩ := by decide +kernel
  intro k
  refine ⟨⟨0, { whole := ⟨some 0, some 0, true⟩ }⟩, ?_, rfl, rfl⟩
  have := C21_empty_result_repeats (p := 0) ⟨by decide, by decide⟩ h0 rfl (by decide) k
  rw [Nat.zero_add] at this
  exact this

end Ctre
