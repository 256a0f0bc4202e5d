import Verif.Lemmas.WaysReport
import Verif.Lemmas.WaysFirm
import Verif.Props.GreedyOpt

/-
C46: the reported match is the first one in the order of preference.
-/
namespace Ctre

/-- The call reports the first of the ways `M` of matching from `p`, or failure if there is none. -/
def ReportsFirst (c : Caps) (p : Nat) : List MState → Prop
  | [] => c.whole.matched = false
  | τ :: _ => c.whole.matched = true ∧ Reports c p τ

/-- The ways of matching from `p`. -/
def waysFrom (once : Bool) (C : Cfg) (s : List Ch) (f : Flags) (r : Re) (p : Nat) : List MState :=
  r.ways once (envOf C r) s (MState.start p f)

/-- The ways of matching everything from `p` to the end. -/
def waysFull (once : Bool) (C : Cfg) (s : List Ch) (f : Flags) (r : Re) (p : Nat) : List MState :=
  (waysFrom once C s f r p).filter fun τ => decide (τ.pos = s.length)

theorem attempt_way {C : Cfg} (hC : C.greedyOpt = false) {n : Nat} {s : List Ch} {f : Flags} {r : Re} {p : Nat}
    (hr : r.WellNumbered) (hg : r.capsIn (groupIds r.captures) = true) (ha : r.attentive = true) (hp : p ≤ s.length) :
    (attempt C n s f r p = .fail → waysFrom true C s f r p = []) ∧
      ∀ c, attempt C n s f r p = .ok c → c.whole.matched = true ∧ ∃ τ rest, waysFrom true C s f r p = τ :: rest ∧ Reports c p τ :=
  report_first hr (attempt_first hC hp (Re.fit_of hr.noSelf ha)) (fun _ h => h)
    (Re.lsim (E := envOf C r) hr.noSelf hg _ _ (rel_start C hr f hp))

theorem attemptFull_way {C : Cfg} (hC : C.greedyOpt = false) {n : Nat} {s : List Ch} {f : Flags} {r : Re} {p : Nat}
    (hr : r.WellNumbered) (hg : r.capsIn (groupIds r.captures) = true) (ha : r.attentive = true) (hp : p ≤ s.length) :
    (attemptFull C n s f r p = .fail → waysFull true C s f r p = []) ∧
      ∀ c, attemptFull C n s f r p = .ok c → c.whole.matched = true ∧ ∃ τ rest, waysFull true C s f r p = τ :: rest ∧ Reports c p τ :=
  report_first hr (attemptFull_first hC hp (Re.fit_of hr.noSelf ha)) (fun _ h => (List.mem_filter.1 h).1)
    ((Re.lsim (E := envOf C r) hr.noSelf hg _ _ (rel_start C hr f hp)).filterEq _)

/-- C46 for `starts_with`. -/
theorem C46_starts_with {C : Cfg} (hC : C.greedyOpt = false) {n : Nat} {s : List Ch} {f : Flags} {r : Re} {p : Nat} {c : Caps}
    (hr : r.WellNumbered) (hg : r.capsIn (groupIds r.captures) = true) (ha : r.attentive = true) (hp : p ≤ s.length)
    (h : startsWithAt C n s f r p = .done c) : ReportsFirst c p (waysFrom true C s f r p) := by
  obtain ⟨h1, h2⟩ := attempt_way (n := n) (s := s) (f := f) hC hr hg ha hp
  unfold startsWithAt at h
  cases ho : attempt C n s f r p with
  | fail =>
    rw [ho] at h
    simp only [Out.toExec, Exec.done.injEq] at h
    subst h
    rw [h1 ho]; rfl
  | ok c' =>
    rw [ho] at h
    simp only [Out.toExec, Exec.done.injEq] at h
    subst h
    obtain ⟨h3, τ, rest, h4, h5⟩ := h2 c' ho
    rw [h4]; exact ⟨h3, h5⟩
  | _ => simp [ho, Out.toExec] at h

/-- C46 for `match`. -/
theorem C46_match {C : Cfg} (hC : C.greedyOpt = false) {n : Nat} {s : List Ch} {f : Flags} {r : Re} {p : Nat} {c : Caps}
    (hr : r.WellNumbered) (hg : r.capsIn (groupIds r.captures) = true) (ha : r.attentive = true) (hp : p ≤ s.length)
    (h : matchAt C n s f r p = .done c) : ReportsFirst c p (waysFull true C s f r p) := by
  obtain ⟨h1, h2⟩ := attemptFull_way (n := n) (s := s) (f := f) hC hr hg ha hp
  unfold matchAt at h
  cases ho : attemptFull C n s f r p with
  | fail =>
    rw [ho] at h
    simp only [Out.toExec, Exec.done.injEq] at h
    subst h
    rw [h1 ho]; rfl
  | ok c' =>
    rw [ho] at h
    simp only [Out.toExec, Exec.done.injEq] at h
    subst h
    obtain ⟨h3, τ, rest, h4, h5⟩ := h2 c' ho
    rw [h4]; exact ⟨h3, h5⟩
  | _ => simp [ho, Out.toExec] at h

/-- C46 for `search`: a successful search reports the first way of matching from the first position with any; a failed
one means that there is none from the first position and, unless the pattern is treated as anchored, from any later one. -/
theorem C46_search {C : Cfg} (hC : C.greedyOpt = false) {n : Nat} {s : List Ch} {f : Flags} {r : Re} {p : Nat} {c : Caps}
    (hr : r.WellNumbered) (hg : r.capsIn (groupIds r.captures) = true) (ha : r.attentive = true) (hp : p ≤ s.length)
    (h : searchAt C n s f r p = .done c) :
    (c.whole.matched = true ∧ ∃ q, p ≤ q ∧ q ≤ s.length ∧ (startsWithAnchor f r = true → q = p) ∧
      (∃ τ rest, waysFrom true C s f r q = τ :: rest ∧ Reports c q τ) ∧ ∀ i, p ≤ i → i < q → waysFrom true C s f r i = []) ∨
    (c.whole.matched = false ∧ ∀ i, p ≤ i → i ≤ s.length → (startsWithAnchor f r = true → i = p) → waysFrom true C s f r i = []) := by
  unfold searchAt at h
  cases hm : c.whole.matched with
  | true =>
    left
    obtain ⟨j, hj, h1, h2⟩ := searchLoop_ok h hm
    have hj' : p + j ≤ s.length := by split at hj <;> omega
    refine ⟨rfl, p + j, by omega, hj', ?_, ?_, ?_⟩
    · intro e; rw [if_pos e] at hj; omega
    · exact ((attempt_way hC hr hg ha hj').2 c h1).2
    · intro i hi hi'
      obtain ⟨k, rfl⟩ : ∃ k, i = p + k := ⟨i - p, by omega⟩
      exact (attempt_way hC hr hg ha (by omega)).1 (h2 k (by omega))
  | false =>
    right
    refine ⟨rfl, ?_⟩
    intro i hi hi' he
    have h1 := (searchLoop_fail' hr.numbered (by split <;> omega) h hm).2 (i - p) (by
      split
      · rename_i e; have := he e; omega
      · omega)
    rw [show p + (i - p) = i by omega] at h1
    exact (attempt_way hC hr hg ha hi').1 h1

/-- C46: for patterns that compile and make progress, every call returns the first way. -/
theorem C46_first_way {C : Cfg} (hC : C.greedyOpt = false) {n : Nat} {s : List Ch} {f : Flags} {r : Re} {p : Nat}
    (hr : r.WellNumbered) (hc : Compiles C r) (hpr : r.progressive = true) (ha : r.attentive = true) (hp : p ≤ s.length)
    (hn : r.weight + s.length + 7 ≤ n) :
    (∃ c, matchAt C n s f r p = .done c ∧ ReportsFirst c p (waysFull true C s f r p)) ∧
    (∃ c, startsWithAt C n s f r p = .done c ∧ ReportsFirst c p (waysFrom true C s f r p)) := by
  obtain ⟨⟨a, h1⟩, ⟨b, h2⟩, _⟩ := C44_every_call_yields_a_result hc hr.numbered hpr s f hp hn
  have hg := Re.tame_capsIn hc.tame
  exact ⟨⟨a, h1, C46_match hC hr hg ha hp h1⟩, ⟨b, h2, C46_starts_with hC hr hg ha hp h2⟩⟩

/-- C46 with the optimisation of greedy repetitions, for patterns it is harmless for (see C34). -/
theorem C46_first_way_optimised {C : Cfg} {ml : Bool} {n : Nat} {s : List Ch} {f : Flags} {r : Re} {p : Nat}
    (hr : r.WellNumbered) (hc : Compiles C r) (hst : r.steady ml false false = true) (hs : ∀ v ∈ s, IsCh v) (hb : f.blk = false)
    (hci : r.CaseSafe f.ci) (hml : f.ml = true → ml = true) (ha : r.attentive = true) (hp : p ≤ s.length) (hn : r.weight + s.length + 7 ≤ n) :
    (∃ c, matchAt C n s f r p = .done c ∧ ReportsFirst c p (waysFull true C s f r p)) ∧
    (∃ c, startsWithAt C n s f r p = .done c ∧ ReportsFirst c p (waysFrom true C s f r p)) := by
  obtain ⟨e1, e2, _⟩ := C34_same_results hc hr.numbered hst hs hb hci hml hp hn
  rw [e1, e2]
  exact C46_first_way (C := C.plain) rfl hr hc.plain (Re.steady.progressive r hst) ha hp hn

/-- C46 for `search` with the optimisation. -/
theorem C46_search_optimised {C : Cfg} {ml : Bool} {n : Nat} {s : List Ch} {f : Flags} {r : Re} {p : Nat}
    (hr : r.WellNumbered) (hc : Compiles C r) (hst : r.steady ml false false = true) (hs : ∀ v ∈ s, IsCh v) (hb : f.blk = false)
    (hci : r.CaseSafe f.ci) (hml : f.ml = true → ml = true) (ha : r.attentive = true) (hp : p ≤ s.length) (hn : r.weight + s.length + 7 ≤ n) :
    ∃ c, searchAt C n s f r p = .done c ∧
      ((c.whole.matched = true ∧ ∃ q, p ≤ q ∧ q ≤ s.length ∧ (startsWithAnchor f r = true → q = p) ∧
        (∃ τ rest, waysFrom true C s f r q = τ :: rest ∧ Reports c q τ) ∧ ∀ i, p ≤ i → i < q → waysFrom true C s f r i = []) ∨
      (c.whole.matched = false ∧ ∀ i, p ≤ i → i ≤ s.length → (startsWithAnchor f r = true → i = p) → waysFrom true C s f r i = [])) := by
  obtain ⟨_, _, e3⟩ := C34_same_results hc hr.numbered hst hs hb hci hml hp hn
  obtain ⟨_, _, c, h⟩ := C44_every_call_yields_a_result hc.plain hr.numbered (Re.steady.progressive r hst) s f hp hn
  exact ⟨c, e3.trans h, C46_search (C := C.plain) rfl hr (Re.tame_capsIn hc.tame) ha hp h⟩

/-- C46: if the content of every repetition matches in at most one way (or the repetition is possessive), the order of
preference is the usual one, in which a repetition tries all the ways of its content. -/
theorem C46_usual_order {C : Cfg} {s : List Ch} {f : Flags} {r : Re} {p : Nat} (hf : r.firm = true) (hp : p ≤ s.length) :
    waysFrom true C s f r p = waysFrom false C s f r p := Re.firm_ways hf hp

/-- C46: without atomic groups, possessive repetitions and groups in lookarounds, the ways in the usual order are the matches. -/
theorem C46_ways_are_matches {C : Cfg} {s : List Ch} {f : Flags} {r : Re} {p : Nat} (hl : r.loose = true) (hp : p ≤ s.length)
    (τ : MState) : τ ∈ waysFrom false C s f r p ↔ r.Match (envOf C r) s (MState.start p f) τ := Re.loose_iff hl hp

/-- C46 for patterns both firm and loose: success is the same as the existence of a match, and the match reported is one
of them. -/
theorem C46_match_iff {C : Cfg} (hC : C.greedyOpt = false) {n : Nat} {s : List Ch} {f : Flags} {r : Re} {p : Nat} {c : Caps}
    (hr : r.WellNumbered) (hg : r.capsIn (groupIds r.captures) = true) (ha : r.attentive = true) (hf : r.firm = true)
    (hl : r.loose = true) (hp : p ≤ s.length) (h : matchAt C n s f r p = .done c) :
    c.whole.matched = true ↔ ∃ τ, r.Match (envOf C r) s (MState.start p f) τ ∧ τ.pos = s.length := by
  have h1 := C46_match hC hr hg ha hp h
  have h2 : ∀ τ, τ ∈ waysFull true C s f r p ↔ r.Match (envOf C r) s (MState.start p f) τ ∧ τ.pos = s.length := by
    intro τ
    rw [waysFull, List.mem_filter, C46_usual_order hf hp, C46_ways_are_matches hl hp, decide_eq_true_eq]
  cases hM : waysFull true C s f r p with
  | nil =>
    rw [hM] at h1 h2
    simp only [ReportsFirst] at h1
    rw [h1]
    simp only [Bool.false_eq_true, false_iff]
    rintro ⟨τ, ht⟩
    exact absurd ((h2 τ).2 ht) (by simp)
  | cons τ rest =>
    rw [hM] at h1 h2
    exact ⟨fun _ => ⟨τ, (h2 τ).1 (by simp)⟩, fun _ => h1.1⟩

/-! ### Cases -/

/-- `(a|ab)(c|bcd)(d*)` -/
def samplePref : Re := .seq [.cap 1 none [.sel [.cc (.chr 97), .str [97, 98]]], .cap 2 none [.sel [.cc (.chr 99), .str [98, 99, 100]]],
  .cap 3 none [.rep .greedy 0 0 [.cc (.chr 100)]]]

/-- `(?:(a|b)+?|x)++(?=(b*))(?<!b)c` -/
def samplePref2 : Re := .seq [.rep .poss 1 0 [.sel [.rep .lazy 1 0 [.cap 1 none [.sel [.cc (.chr 97), .cc (.chr 98)]]], .cc (.chr 120)]],
  .ahead true [.cap 2 none [.rep .greedy 0 0 [.cc (.chr 98)]]], .behind false [.cc (.chr 98)], .cc (.chr 99)]

example : samplePref.WellNumbered := ⟨by decide, by decide, by decide⟩
example : Compiles {} samplePref := ⟨by decide +kernel, .inr (by decide +kernel)⟩
example : samplePref.attentive = true ∧ samplePref.progressive = true ∧ samplePref.firm = true ∧ samplePref.loose = true ∧
    samplePref.steady false false false = true := by decide +kernel
example : samplePref2.WellNumbered := ⟨by decide, by decide, by decide⟩
example : Compiles { greedyOpt := false } samplePref2 := ⟨by decide +kernel, .inl rfl⟩
example : samplePref2.attentive = true ∧ samplePref2.progressive = true ∧ samplePref2.firm = true := by decide +kernel

-- on "abcd": three ways; the first alternative of group 1 is preferred although the second leads to more in group 3
example : (waysFrom false {} [97, 98, 99, 100] {} samplePref 0).map (fun τ => (τ.pos, τ.cap 1, τ.cap 2, τ.cap 3)) =
    [(4, some (0, 1), some (1, 4), some (4, 4)), (4, some (0, 2), some (2, 3), some (3, 4)), (3, some (0, 2), some (2, 3), some (3, 3))] := by
  decide +kernel
example : (match cMatch {} 40 [97, 98, 99, 100] {} samplePref with | .done c => c.get 3 | _ => none) = some ⟨some 4, some 4, true⟩ := by
  decide +kernel

/-- `(?:a|ab)*c` on "abc": there is a way in the usual order, but the library does not find it. -/
theorem C46_fails_usual_order :
    (waysFull false { greedyOpt := false } [97, 98, 99] {} sampleAmbiguous 0).map (·.pos) = [3] ∧
    (cMatch { greedyOpt := false } 40 [97, 98, 99] {} sampleAmbiguous).success = false := by decide +kernel

/-- `(a|ab){2}` on "aba": the first iteration takes `a`, the second one finds none, and the other way of the first iteration
is not tried. -/
theorem C46_fails_fixed_count :
    (waysFrom false { greedyOpt := false } [97, 98, 97] {} (.rep .greedy 2 2 [.cap 1 none [.sel [.cc (.chr 97), .str [97, 98]]]]) 0).map (·.pos) = [3] ∧
    (cStartsWith { greedyOpt := false } 40 [97, 98, 97] {} (.rep .greedy 2 2 [.cap 1 none [.sel [.cc (.chr 97), .str [97, 98]]]])).success = false := by
  decide +kernel

end Ctre
