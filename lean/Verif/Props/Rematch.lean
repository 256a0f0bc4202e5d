import Verif.Lemmas.Inner
import Verif.Props.Regular
import Verif.Props.Shift
import Verif.Props.Iteration

/-
C73: found text is matched again.  `Re.inner` is in Spec/Inner.lean.
-/
namespace Ctre

mutual
theorem Re.inner_forward : (r : Re) → r.inner = true → r.forward = true
  | .cc _, _ | .any, _ | .str _, _ | .empty, _ | .bref _, _ | .brefName _, _ | .mode _, _ | .reject _, _ => rfl
  | .sel l, h => by
    simp only [Re.inner, Re.forward, Bool.and_eq_true] at h ⊢
    exact ⟨h.1, innerList_forward l h.2⟩
  | .seq l, h => by simp only [Re.inner, Re.forward] at h ⊢; exact innerList_forward l h
  | .rep _ _ _ l, h => by simp only [Re.inner, Re.forward] at h ⊢; exact innerList_forward l h
  | .cap _ _ l, h => by simp only [Re.inner, Re.forward] at h ⊢; exact innerList_forward l h
  | .atomic l, h => by simp only [Re.inner, Re.forward] at h ⊢; exact innerList_forward l h
  | .ahead _ _, h | .behind _ _, h | .boundary _, h | .notBoundary _, h | .sBegin, h | .sEnd, h | .sEndLine, h
  | .lBegin, h | .lEnd, h => by cases h

theorem innerList_forward : (l : List Re) → innerList l = true → forwardAll l = true
  | [], _ => rfl
  | r :: l, h => by
    simp only [innerList, forwardAll, Bool.and_eq_true] at h ⊢
    exact ⟨Re.inner_forward r h.1, innerList_forward l h.2⟩
end

mutual
theorem Re.inner_noNegLook : (r : Re) → r.inner = true → r.noNegLook = true
  | .cc _, _ | .any, _ | .str _, _ | .empty, _ | .bref _, _ | .brefName _, _ | .mode _, _ | .reject _, _ => rfl
  | .sel l, h => by
    simp only [Re.inner, Re.noNegLook, Bool.and_eq_true] at h ⊢
    exact innerList_noNegLook l h.2
  | .seq l, h => by simp only [Re.inner, Re.noNegLook] at h ⊢; exact innerList_noNegLook l h
  | .rep _ _ _ l, h => by simp only [Re.inner, Re.noNegLook] at h ⊢; exact innerList_noNegLook l h
  | .cap _ _ l, h => by simp only [Re.inner, Re.noNegLook] at h ⊢; exact innerList_noNegLook l h
  | .atomic l, h => by simp only [Re.inner, Re.noNegLook] at h ⊢; exact innerList_noNegLook l h
  | .ahead _ _, h | .behind _ _, h | .boundary _, h | .notBoundary _, h | .sBegin, h | .sEnd, h | .sEndLine, h
  | .lBegin, h | .lEnd, h => by cases h

theorem innerList_noNegLook : (l : List Re) → innerList l = true → noNegLookList l = true
  | [], _ => rfl
  | r :: l, h => by
    simp only [innerList, noNegLookList, Bool.and_eq_true] at h ⊢
    exact ⟨Re.inner_noNegLook r h.1, innerList_noNegLook l h.2⟩
end

/-- The subject as what is before, between and after two positions. -/
theorem cut_three (s : List Ch) {b e : Nat} (hb : b ≤ e) : s = s.take b ++ text s b e ++ s.drop e := by
  unfold text
  rw [List.append_assoc]
  have : s.drop e = (s.drop b).drop (e - b) := by rw [List.drop_drop]; congr 1; omega
  rw [this, List.take_append_drop, List.take_append_drop]

theorem text_len {s : List Ch} {b e : Nat} (hb : b ≤ e) (he : e ≤ s.length) : (text s b e).length = e - b := by
  unfold text
  rw [List.length_take, List.length_drop]
  omega

/-- A match of an inner pattern is a match of the text it covers. -/
theorem inner_match {E : Env} {r : Re} (hi : r.inner = true) {s : List Ch} {b : Nat} {f : Flags} {τ : MState}
    (h : r.Match E s (MState.start b f) τ) (hb : b ≤ s.length) :
    b ≤ τ.pos ∧ τ.pos ≤ s.length ∧ ∃ ρ, r.Match E (text s b τ.pos) (MState.start 0 f) ρ ∧ ρ.pos = τ.pos - b := by
  have h0 := Re.embeds (u := []) (v := s) (w := []) E r hi
  have h1 := (h0.mono' _ _ h)
  have hle : b ≤ τ.pos := h1.1
  have hlen : τ.pos ≤ s.length := h1.2 hb
  refine ⟨hle, hlen, ?_⟩
  have hs := cut_three s hle
  have ht := text_len hle hlen
  have hu : (s.take b).length = b := by rw [List.length_take]; omega
  have hE := Re.embeds (u := s.take b) (v := text s b τ.pos) (w := s.drop τ.pos) E r hi
  rw [← hs] at hE
  obtain ⟨ρ, e1, e2, _⟩ := hE.down (MState.start 0 f) τ (start_fit 0 f)
    (by rw [start_up, hu, Nat.zero_add]; exact h) (by rw [hu, ht]; omega)
  refine ⟨ρ, e2, ?_⟩
  have : τ.pos = ρ.pos + b := by rw [e1]; simp [MState.up, hu]
  omega

/-- A match of a part of the subject is a match of the subject. -/
theorem inner_embed {E : Env} {r : Re} (hi : r.inner = true) {u v w : List Ch} {b : Nat} {f : Flags} {τ : MState}
    (h : r.Match E v (MState.start b f) τ) (hb : b ≤ v.length) :
    r.Match E (u ++ v ++ w) (MState.start (b + u.length) f) (τ.up u.length) :=
  ((Re.embeds (u := u) (v := v) (w := w) E r hi).up _ _ (start_fit b f) hb h).1

/-- C73: what `starts_with` or a token reports is matched by the pattern. -/
theorem C73_starts_with {C : Cfg} {n n' : Nat} {s : List Ch} {f : Flags} {r : Re} {p b e : Nat} {c c' : Caps} (hr : r.WellNumbered)
    (hi : r.inner = true) (hc : Complete C r) (hp : p ≤ s.length) (h : startsWithAt C n s f r p = .done c)
    (hg : c.get 0 = some ⟨some b, some e, true⟩) (h' : cMatch C n' (text s b e) f r = .done c') : c'.whole.matched = true := by
  have hm : c.whole = ⟨some b, some e, true⟩ := by simpa [Caps.get] using hg
  obtain ⟨τ, h1, h2⟩ := C01_starts_with_sound hr (.inl (Re.inner_noNegLook r hi)) hp h (by rw [hm])
  have h3 := h2.whole
  rw [hg] at h3
  simp only [Option.some.injEq, Slot.mk.injEq, and_true] at h3
  obtain ⟨rfl, rfl⟩ := h3
  obtain ⟨a1, a2, ρ, a3, a4⟩ := inner_match hi h1 hp
  exact C02_match_complete hr hc (Nat.zero_le _) h' a3 (by rw [text_len a1 a2]; exact a4)

/-- C73: what `search`, `search_all` or a separator reports is matched by the pattern. -/
theorem C73_search {C : Cfg} {n n' : Nat} {s : List Ch} {f : Flags} {r : Re} {p b e : Nat} {c c' : Caps} (hr : r.WellNumbered)
    (hi : r.inner = true) (hc : Complete C r) (hp : p ≤ s.length) (h : searchAt C n s f r p = .done c)
    (hg : c.get 0 = some ⟨some b, some e, true⟩) (h' : cMatch C n' (text s b e) f r = .done c') : c'.whole.matched = true := by
  have hm : c.whole = ⟨some b, some e, true⟩ := by simpa [Caps.get] using hg
  obtain ⟨b', τ, _, h0, h1, h2⟩ := C01_search_sound hr (.inl (Re.inner_noNegLook r hi)) hp h (by rw [hm])
  have h3 := h2.whole
  rw [hg] at h3
  simp only [Option.some.injEq, Slot.mk.injEq, and_true] at h3
  obtain ⟨rfl, rfl⟩ := h3
  obtain ⟨a1, a2, ρ, a3, a4⟩ := inner_match hi h1 h0
  exact C02_match_complete hr hc (Nat.zero_le _) h' a3 (by rw [text_len a1 a2]; exact a4)

/-- C73: what is found in a text is found, not later, in every text that contains it. -/
theorem C73_context {C : Cfg} {n n' : Nat} {u v w : List Ch} {f : Flags} {r : Re} {c c' : Caps} (hr : r.WellNumbered)
    (hi : r.inner = true) (hc : Complete C r) (h : cSearch C n v f r = .done c) (hm : c.whole.matched = true)
    (h' : cSearch C n' (u ++ v ++ w) f r = .done c')
    (hret : ∀ p, p ≤ (u ++ v ++ w).length → ∃ x, startsWithAt C n' (u ++ v ++ w) f r p = .done x) :
    c'.whole.matched = true ∧ ∃ b b' e e', c.get 0 = some ⟨some b, some e, true⟩ ∧ c'.get 0 = some ⟨some b', some e', true⟩ ∧
      b' ≤ u.length + b := by
  obtain ⟨b, τ, _, h0, h1, h2⟩ := C01_search_sound hr (.inl (Re.inner_noNegLook r hi)) (Nat.zero_le _) h hm
  have h3 := inner_embed (u := u) (w := w) hi h1 h0
  have hb : b + u.length ≤ (u ++ v ++ w).length := by simp only [List.length_append]; omega
  have hm' := C02_search_complete hr hc (Re.forward_anchor f r (Re.inner_forward r hi)) h' (Nat.zero_le _) hb h3
  obtain ⟨b', h4, h5, h6, h7, h8⟩ := C05_search_leftmost hr.numbered (Nat.zero_le _) h' hm'
  obtain ⟨b'', τ', _, g0, g1, g2⟩ := C01_search_sound hr (.inl (Re.inner_noNegLook r hi)) (Nat.zero_le _) h' hm'
  have e2 := g2.whole
  have hw : c'.whole = ⟨some b'', some τ'.pos, true⟩ := by simpa [Caps.get] using e2
  have : b' = b'' := by rw [hw] at h4; simpa using h4.symm
  subst this
  refine ⟨hm', b, b', τ.pos, τ'.pos, h2.whole, e2, ?_⟩
  rcases Nat.lt_or_ge (b + u.length) b' with hlt | hge
  · obtain ⟨x, hx⟩ := hret _ hb
    have := h8 _ x (Nat.zero_le _) hlt hx
    have h9 := C02_starts_with_complete hr hc hb hx h3
    rw [this] at h9
    cases h9
  · omega

/-- The empty match of an inner pattern is possible everywhere. -/
theorem inner_empty {E : Env} {r : Re} (hi : r.inner = true) {s t : List Ch} {b p : Nat} {f : Flags} {τ : MState}
    (h : r.Match E s (MState.start b f) τ) (hb : b ≤ s.length) (he : τ.pos = b) (hp : p ≤ t.length) :
    ∃ τ', r.Match E t (MState.start p f) τ' := by
  obtain ⟨_, _, ρ, h1, _⟩ := inner_match hi h hb
  rw [he] at h1
  have e : text s b b = [] := by simp [text]
  rw [e] at h1
  have h2 := inner_embed (u := t.take p) (v := []) (w := t.drop p) hi h1 (Nat.zero_le _)
  rw [List.append_nil, List.take_append_drop, List.length_take, Nat.min_eq_left hp, Nat.zero_add] at h2
  exact ⟨_, h2⟩

/-- C73: no piece of `split`, unless it is empty, contains a separator. -/
theorem C73_split {C : Cfg} {n n' : Nat} {s : List Ch} {f : Flags} {r : Re} (hr : r.WellNumbered) (hi : r.inner = true)
    (hc : Complete C r) (hret : ∀ p, p ≤ s.length → ∃ x, searchAt C n s f r p = .done x)
    (hret' : ∀ p, p ≤ s.length → ∃ x, startsWithAt C n s f r p = .done x) {p : Nat} (hp : p ≤ s.length) {pieces : List (Nat × Nat)}
    (h : Cuts (separator C n s f r) s.length p pieces) : ∀ x ∈ pieces, slice s x ≠ [] → ∀ {c : Caps},
      cSearch C n' (slice s x) f r = .done c → c.whole.matched = false := by
  have ha := Re.forward_anchor f r (Re.inner_forward r hi)
  -- a match inside the piece from `p` to `q` is a match at a position from `p` to before `q`
  have key : ∀ p q, p < q → q ≤ s.length → ∀ c, cSearch C n' (text s p q) f r = .done c → c.whole.matched = true →
      ∃ i τ, p ≤ i ∧ i < q ∧ r.Match (envOf C r) s (MState.start i f) τ := by
    intro p q hpq hq c hcs hm
    obtain ⟨b, τ, _, h0, h1, _⟩ := C01_search_sound hr (.inl (Re.inner_noNegLook r hi)) (Nat.zero_le _) hcs hm
    have hl := text_len (s := s) (Nat.le_of_lt hpq) hq
    obtain ⟨a1, a2, _⟩ := inner_match hi h1 h0
    rcases Nat.lt_or_ge b (q - p) with hlt | hge
    · have h2 := inner_embed (u := s.take p) (w := s.drop q) hi h1 h0
      rw [← cut_three s (Nat.le_of_lt hpq), List.length_take, Nat.min_eq_left (by omega)] at h2
      exact ⟨b + p, _, by omega, by omega, h2⟩
    · obtain ⟨τ', h2⟩ := inner_empty (t := s) (p := p) hi h1 h0 (by omega) (by omega)
      exact ⟨p, τ', Nat.le_refl _, hpq, h2⟩
  induction h with
  | last p hn =>
    intro x hx hne c hcs
    rw [List.mem_singleton] at hx
    subst hx
    cases hm : c.whole.matched with
    | false => rfl
    | true =>
      exfalso
      have hpl : p < s.length := by
        rcases Nat.lt_or_ge p s.length with h | h
        · exact h
        · exact absurd (by unfold slice; rw [show s.length - p = 0 by omega]; simp) hne
      obtain ⟨i, τ, h1, h2, h3⟩ := key p s.length hpl (Nat.le_refl _) c hcs hm
      obtain ⟨y, hy⟩ := hret p hp
      have hy' := C02_search_complete hr hc ha hy h1 (Nat.le_of_lt h2) h3
      obtain ⟨b, e, h5, _⟩ := search_spanOK hr.numbered p y hp hy hy'
      unfold separator Exec.span at hn
      simp [hy, hy', h5] at hn
  | sep p b e l hs hcut ih =>
    obtain ⟨h1, h2, h3⟩ := separator_span hr.numbered p b e hp hs
    intro x hx hne c hcs
    rcases List.mem_cons.1 hx with rfl | hx
    · cases hm : c.whole.matched with
      | false => rfl
      | true =>
        exfalso
        have hpb : p < b := by
          rcases Nat.lt_or_ge p b with h | h
          · exact h
          · exact absurd (by unfold slice; simp only [show b - p = 0 by omega, List.take_zero]) hne
        obtain ⟨i, τ, g1, g2, g3⟩ := key p b hpb (by omega) c hcs hm
        obtain ⟨y, hy⟩ := hret p hp
        have hy' : y.whole.matched = true ∧ y.whole.b = some b := by
          unfold separator Exec.span at hs
          rw [hy] at hs
          simp only at hs
          split at hs
          · rename_i hm'
            obtain ⟨b', e', h5, _⟩ := search_spanOK hr.numbered p y hp hy hm'
            rw [h5] at hs ⊢
            simp only [Option.some.injEq, Prod.mk.injEq] at hs
            exact ⟨rfl, by rw [hs.1]⟩
          · cases hs
        obtain ⟨b', k1, _, _, _, k2⟩ := C05_search_leftmost hr.numbered hp hy hy'.1
        rw [hy'.2] at k1
        cases k1
        obtain ⟨z, hz⟩ := hret' i (by omega)
        have := C02_starts_with_complete hr hc (by omega) hz g3
        rw [k2 i z g1 g2 hz] at this
        cases this
    · exact ih h3 x hx hne hcs

theorem mem_text {s : List Ch} {b e : Nat} {v : Ch} (h : v ∈ text s b e) : v ∈ s :=
  List.mem_of_mem_drop (List.mem_of_mem_take h)

/-- C73 for the configuration as it is: for patterns that compile all these calls return, and what a search finds is matched
by the pattern. -/
theorem C73_checked {C : Cfg} {ml : Bool} {n : Nat} {s : List Ch} {f : Flags} {r : Re} (hr : r.WellNumbered) (hi : r.inner = true)
    (hc : Compiles C r) (hpl : r.plain = true) (hst : r.steady ml false false = true) (hs : ∀ v ∈ s, IsCh v) (hb : f.blk = false)
    (hci : r.CaseSafe f.ci) (hml : f.ml = true → ml = true) (hn : r.weight + s.length + 7 ≤ n) {p : Nat} (hp : p ≤ s.length) :
    (∃ c, searchAt C n s f r p = .done c ∧ ∀ b e, c.get 0 = some ⟨some b, some e, true⟩ →
      ∃ c', cMatch C n (text s b e) f r = .done c' ∧ c'.whole.matched = true) ∧
    (∃ c, startsWithAt C n s f r p = .done c ∧ ∀ b e, c.get 0 = some ⟨some b, some e, true⟩ →
      ∃ c', cMatch C n (text s b e) f r = .done c' ∧ c'.whole.matched = true) := by
  obtain ⟨_, e2, e3⟩ := C34_same_results hc hr.numbered hst hs hb hci hml hp hn
  obtain ⟨_, ⟨c2, h2⟩, ⟨c3, h3⟩⟩ :=
    C44_every_call_yields_a_result hc.plain hr.numbered (Re.steady.progressive r hst) s f hp hn
  have hcp : Complete C.plain r := C02_fragment rfl (Re.tame_capsIn hc.tame) hpl
  have ret : ∀ b e, ∃ c', cMatch C n (text s b e) f r = .done c' ∧ cMatch C.plain n (text s b e) f r = .done c' := by
    intro b e
    have hl : (text s b e).length ≤ s.length := by
      unfold text
      rw [List.length_take, List.length_drop]
      omega
    obtain ⟨e1, _⟩ := C34_same_results (s := text s b e) hc hr.numbered hst (fun v hv => hs v (mem_text hv)) hb hci hml
      (Nat.zero_le _) (by omega : r.weight + (text s b e).length + 7 ≤ n)
    obtain ⟨⟨c1, h1⟩, _⟩ := C44_every_call_yields_a_result hc.plain hr.numbered (Re.steady.progressive r hst) (text s b e) f
      (Nat.zero_le _) (by omega : r.weight + (text s b e).length + 7 ≤ n)
    exact ⟨c1, e1.trans h1, h1⟩
  refine ⟨⟨c3, e3.trans h3, fun b e hg => ?_⟩, ⟨c2, e2.trans h2, fun b e hg => ?_⟩⟩
  · obtain ⟨c', g1, g2⟩ := ret b e
    exact ⟨c', g1, C73_search (C := C.plain) hr hi hcp hp h3 hg g2⟩
  · obtain ⟨c', g1, g2⟩ := ret b e
    exact ⟨c', g1, C73_starts_with (C := C.plain) hr hi hcp hp h2 hg g2⟩

theorem Cuts.congr {find find' : Nat → Option (Nat × Nat)} {len : Nat} (he : ∀ p, p ≤ len → find p = find' p)
    (hb : ∀ p b e, p ≤ len → find p = some (b, e) → e ≤ len) {p : Nat} {l : List (Nat × Nat)} (hp : p ≤ len)
    (h : Cuts find len p l) : Cuts find' len p l := by
  induction h with
  | last p hn => exact .last p (by rw [← he p hp]; exact hn)
  | sep p b e l hs _ ih => exact .sep p b e l (by rw [← he p hp]; exact hs) (ih (hb p b e hp hs))

/-- C73 for the configuration as it is: no piece of `split`, unless it is empty, contains a separator. -/
theorem C73_split_checked {C : Cfg} {ml : Bool} {n : Nat} {s : List Ch} {f : Flags} {r : Re} (hr : r.WellNumbered)
    (hi : r.inner = true) (hc : Compiles C r) (hpl : r.plain = true) (hst : r.steady ml false false = true) (hs : ∀ v ∈ s, IsCh v)
    (hb : f.blk = false) (hci : r.CaseSafe f.ci) (hml : f.ml = true → ml = true) (hn : r.weight + s.length + 7 ≤ n)
    {pieces : List (Nat × Nat)} (h : Cuts (separator C n s f r) s.length 0 pieces) :
    ∀ x ∈ pieces, slice s x ≠ [] → ∃ c, cSearch C n (slice s x) f r = .done c ∧ c.whole.matched = false := by
  have hcp : Complete C.plain r := C02_fragment rfl (Re.tame_capsIn hc.tame) hpl
  have ret := fun p (hp : p ≤ s.length) =>
    C44_every_call_yields_a_result hc.plain hr.numbered (Re.steady.progressive r hst) s f hp hn
  have h' : Cuts (separator C.plain n s f r) s.length 0 pieces := by
    refine h.congr (fun p hp => ?_) (fun p b e hp hf => (separator_span hr.numbered p b e hp hf).2.2) (Nat.zero_le _)
    unfold separator
    rw [(C34_same_results hc hr.numbered hst hs hb hci hml hp hn).2.2]
  intro x hx hne
  have hl : (slice s x).length ≤ s.length := by
    unfold slice
    rw [List.length_take, List.length_drop]
    omega
  have hm : ∀ v ∈ slice s x, IsCh v := fun v hv => hs v (List.mem_of_mem_drop (List.mem_of_mem_take hv))
  obtain ⟨_, _, e3⟩ := C34_same_results (s := slice s x) hc hr.numbered hst hm hb hci hml
    (Nat.zero_le _) (by omega : r.weight + (slice s x).length + 7 ≤ n)
  obtain ⟨_, _, c3, h3⟩ := C44_every_call_yields_a_result hc.plain hr.numbered (Re.steady.progressive r hst) (slice s x) f
    (Nat.zero_le _) (by omega : r.weight + (slice s x).length + 7 ≤ n)
  exact ⟨c3, e3.trans h3, C73_split (C := C.plain) hr hi hcp (fun p hp => (ret p hp).2.2) (fun p hp => (ret p hp).2.1)
    (Nat.zero_le _) h' x hx hne h3⟩

/-- C73 fails for patterns that look further: `a(?=b)` finds "a" in "ab", but does not match it. -/
theorem C73_fails_lookahead :
    cSearch {} 40 [97, 98] {} (.seq [.cc (.chr 97), .ahead true [.cc (.chr 98)]]) = .done { whole := ⟨some 0, some 1, true⟩ } ∧
    (cMatch {} 40 [97] {} (.seq [.cc (.chr 97), .ahead true [.cc (.chr 98)]])).success = false := by decide +kernel

/-- `(?>(?>aab|a)a|a)a` -/
def sampleAtomic : Re := .seq [.atomic [.sel [.seq [.atomic [.sel [.str [97, 97, 98], .cc (.chr 97)]], .cc (.chr 97)], .cc (.chr 97)]],
  .cc (.chr 97)]

/-- C73 fails for atomic groups: `(?>(?>aab|a)a|a)a` finds "aa" in "aabx", but does not match it. -/
theorem C73_fails_atomic : sampleAtomic.inner = true ∧
    cSearch {} 60 [97, 97, 98, 120] {} sampleAtomic = .done { whole := ⟨some 0, some 2, true⟩ } ∧
    (cMatch {} 60 [97, 97] {} sampleAtomic).success = false := by decide +kernel

/-- `(a|bc)\1d?` -/
def sampleInner : Re := .seq [.cap 1 none [.sel [.cc (.chr 97), .str [98, 99]]], .bref 1, .rep .greedy 0 1 [.cc (.chr 100)]]

example : sampleInner.inner = true := by decide
example : sampleInner.WellNumbered := ⟨by decide, by decide, by decide +kernel⟩
example : Compiles {} sampleInner := ⟨by decide +kernel, .inr (by decide +kernel)⟩
example : sampleInner.plain = true := by decide +kernel
example : sampleInner.steady false false false = true := by decide +kernel
-- "xbcbcdy": found from 1 to 6, and "bcbcd" is matched
example : (cSearch {} 60 [120, 98, 99, 98, 99, 100, 121] {} sampleInner).success = true ∧
    (cMatch {} 60 (text [120, 98, 99, 98, 99, 100, 121] 1 6) {} sampleInner).success = true := by decide +kernel
-- the pieces of "xaay" are "x" and "y"
example : Cuts (separator {} 60 [120, 97, 97, 121] {} sampleInner) 4 0 [(0, 1), (3, 4)] :=
  .sep 0 1 3 _ (by decide +kernel) (.last 3 (by decide +kernel))

end Ctre
