import Verif.Props.Default

/-
C85: calls of the default build succeed exactly when the meaning of the text says so.  The meaning, `Body.Match`, is in Spec/Surface.lean.
-/
namespace Ctre
open Parse Surface

variable {P : PropTable} {C : Cfg} {n : Nat} {ml : Bool} {mods : List Mode} {lit : PatLit} {x : Subject}
  {t s : List Nat} {φ : Nat → Nat} {r : Re} {b : Body} {f : Flags}

/-- According to the meaning of the text the pattern can match from `p` to `e`. -/
def Surface.Body.Can (C : Cfg) (s : List Ch) (f : Flags) (b : Body) (p e : Nat) : Prop :=
  ∃ τ, b.Match (b.env C) s (MState.start p f) τ ∧ τ.pos = e

/-- The text is `Steadfast`, and nothing in it keeps to its first choice. -/
structure Candid (find : List Nat → Option (List Nat) → Option Nat) (t : List Nat) (b : Body) (f : Flags) : Prop where
  steadfast : Steadfast find t b f
  firm : b.firm = true
  loose : b.loose = true

theorem Candid.ways (hb : Candid P.find t b f) {s : List Ch} {p : Nat} (hp : p ≤ s.length) (τ : MState) :
    τ ∈ textWays C s f b p ↔ b.Match (b.env C) s (MState.start p f) τ := by
  rw [C75_usual_order hb.steadfast.orderly.faithful hb.firm hp]
  exact C75_ways_are_matches hb.steadfast.orderly.faithful hb.loose hp τ

theorem Candid.full (hb : Candid P.find t b f) {s : List Ch} {c : Caps} (h : ReportsFirst c 0 (textWaysFull C s f b 0)) :
    c.whole.matched = true ↔ b.Can C s f 0 s.length := by
  rw [reportsFirst_iff h]
  simp only [textWaysFull, List.mem_filter, decide_eq_true_eq, hb.ways (Nat.zero_le _), Body.Can]

theorem Candid.front (hb : Candid P.find t b f) {s : List Ch} {p : Nat} (hp : p ≤ s.length) {c : Caps}
    (h : ReportsFirst c p (textWays C s f b p)) : c.whole.matched = true ↔ ∃ e, b.Can C s f p e := by
  rw [reportsFirst_iff h]
  simp only [hb.ways hp, Body.Can]
  exact ⟨fun ⟨τ, h⟩ => ⟨_, τ, h, rfl⟩, fun ⟨_, τ, h, _⟩ => ⟨τ, h⟩⟩

theorem Candid.nil (hb : Candid P.find t b f) {s : List Ch} {p : Nat} (hp : p ≤ s.length) :
    textWays C s f b p = [] ↔ ∀ e, ¬ b.Can C s f p e := by
  rw [List.eq_nil_iff_forall_not_mem]
  simp only [hb.ways hp, Body.Can]
  exact ⟨fun h e ⟨τ, h1, _⟩ => h τ h1, fun h τ h1 => h _ ⟨τ, h1, rfl⟩⟩

/-- What a call has reported is a match according to the meaning of the text, from the index `p`, with its groups. -/
def ReportsMatch (C : Cfg) (s : List Ch) (f : Flags) (b : Body) (φ : Nat → Nat) (y : Caps) (p : Nat) : Prop :=
  ∃ c τ, y = c.mapPos φ ∧ b.Match (b.env C) s (MState.start p f) τ ∧ Reports c p τ

theorem Candid.reports (hb : Candid P.find t b f) {s : List Ch} {p : Nat} (hp : p ≤ s.length) {y : Caps}
    (h : ReportsAt φ y p (textWays C s f b p)) (hm : y.whole.matched = true) : ReportsMatch C s f b φ y p := by
  obtain ⟨c, rfl, h⟩ := h
  cases hw : textWays C s f b p with
  | nil => rw [hw] at h; exact absurd (hm.symm.trans (show (c.mapPos φ).whole.matched = false from h)) (by simp)
  | cons τ l =>
    rw [hw] at h
    exact ⟨c, τ, rfl, (hb.ways hp τ).1 (by simp [hw]), h.2⟩

/-- C85 for `match`: the call returns; it succeeds exactly if the pattern, according to the meaning of its text, can match the whole
subject; and what it reports is such a match. -/
theorem C85_match (hb : Candid P.find t b (callFlags ml mods)) (hl : lit.Spells t) (ht : ∀ c ∈ t, IsScalar c) (hx : x.Holds s φ)
    (hs : ∀ c ∈ s, IsScalar c) (hf : (∃ u, x = .u8 u) → b.forward = true) : ∃ N, ∀ n, N ≤ n →
      ∃ y, call P C n ml .match_ mods lit x = some (.one (.done y)) ∧
        (y.whole.matched = true ↔ b.Can C (codePoints s) (callFlags ml mods) 0 s.length) ∧
        (y.whole.matched = true → ∃ c τ, y = c.mapPos φ ∧ b.Match (b.env C) (codePoints s) (MState.start 0 (callFlags ml mods)) τ ∧
          τ.pos = s.length ∧ Reports c 0 τ) := by
  obtain ⟨N, h⟩ := C83_calls (C := C) hb.steadfast hl ht hx hs hf
  refine ⟨N, fun n hn => ?_⟩
  obtain ⟨⟨y, h1, c, rfl, h2⟩, _⟩ := h n hn
  have key := hb.full h2
  rw [codePoints_length] at key
  refine ⟨_, h1, key, fun hm => ?_⟩
  cases hw : textWaysFull C (codePoints s) (callFlags ml mods) b 0 with
  | nil => rw [hw] at h2; exact absurd (hm.symm.trans (show (c.mapPos φ).whole.matched = false from h2)) (by simp)
  | cons τ l =>
    have hτ : τ ∈ textWaysFull C (codePoints s) (callFlags ml mods) b 0 := by simp [hw]
    simp only [textWaysFull, List.mem_filter, decide_eq_true_eq, hb.ways (Nat.zero_le _), codePoints_length] at hτ
    rw [hw] at h2
    exact ⟨c, τ, rfl, hτ.1, hτ.2, h2.2⟩

/-- C85 for `starts_with`. -/
theorem C85_starts_with (hb : Candid P.find t b (callFlags ml mods)) (hl : lit.Spells t) (ht : ∀ c ∈ t, IsScalar c) (hx : x.Holds s φ)
    (hs : ∀ c ∈ s, IsScalar c) (hf : (∃ u, x = .u8 u) → b.forward = true) : ∃ N, ∀ n, N ≤ n →
      ∃ y, call P C n ml .startsWith mods lit x = some (.one (.done y)) ∧
        (y.whole.matched = true ↔ ∃ e, b.Can C (codePoints s) (callFlags ml mods) 0 e) ∧
        (y.whole.matched = true → ReportsMatch C (codePoints s) (callFlags ml mods) b φ y 0) := by
  obtain ⟨N, h⟩ := C83_calls (C := C) hb.steadfast hl ht hx hs hf
  refine ⟨N, fun n hn => ?_⟩
  obtain ⟨_, y, h1, h2⟩ := h n hn
  refine ⟨_, h1, ?_, hb.reports (Nat.zero_le _) h2⟩
  obtain ⟨c, rfl, h2⟩ := h2
  exact (hb.front (Nat.zero_le _) h2 : c.whole.matched = true ↔ _)

/-- C85 for `search`: it succeeds exactly if the pattern can match somewhere, and reports a match from the first such place. -/
theorem C85_search (hb : Candid P.find t b (callFlags ml mods))
    (hbeg : b.placed (callFlags ml mods).ml = true ∨ b.begins (callFlags ml mods).ml = true)
    (hl : lit.Spells t) (ht : ∀ c ∈ t, IsScalar c) (hx : x.Holds s φ)
    (hs : ∀ c ∈ s, IsScalar c) (hf : (∃ u, x = .u8 u) → b.forward = true) : ∃ N, ∀ n, N ≤ n →
      ∃ y, call P C n ml .search mods lit x = some (.one (.done y)) ∧
        (y.whole.matched = true ↔ ∃ p e, p ≤ s.length ∧ b.Can C (codePoints s) (callFlags ml mods) p e) ∧
        (y.whole.matched = true → ∃ p, p ≤ s.length ∧ ReportsMatch C (codePoints s) (callFlags ml mods) b φ y p ∧
          ∀ i, i < p → ∀ e, ¬ b.Can C (codePoints s) (callFlags ml mods) i e) := by
  obtain ⟨N, h⟩ := C83_search_call (C := C) hb.steadfast hbeg hl ht hx hs hf
  refine ⟨N, fun n hn => ?_⟩
  have hlen := codePoints_length s
  obtain ⟨y, h1, h2⟩ := h n hn
  refine ⟨y, h1, ?_⟩
  rcases h2 with ⟨k1, q, k2, k3, k4, k5⟩ | ⟨k1, k2⟩
  · refine ⟨⟨fun _ => ?_, fun _ => k1⟩, fun hm => ⟨q, k2, hb.reports (by omega) k4 hm, fun i hi => ?_⟩⟩
    · by_contra hno
      exact k3 ((hb.nil (by omega)).2 fun e he => hno ⟨q, e, k2, he⟩)
    · exact (hb.nil (by omega)).1 (k5 i hi)
  · refine ⟨⟨fun hm => absurd (k1.symm.trans hm) (by simp), fun ⟨p, e, hp, he⟩ => ?_⟩, fun hm => absurd (k1.symm.trans hm) (by simp)⟩
    exact absurd he ((hb.nil (by omega)).1 (k2 p hp) e)

/-! ### Beyond regular languages: `(a*)b\1` -/

/-- `(a*)b\1` -/
def sampleTwice : Body := .alt (.one (
  .cons (.cap 1 (.alt (.one (.one (.ch (.plain 97)) (.star .greedy))))) .none
  (.cons (.ch (.plain 98)) .none (.one (.ref 49) .none))))

def sampleTwiceText : List Nat := [40, 97, 42, 41, 98, 92, 49]

theorem sampleTwice_candid : Candid (PropTable.find {}) sampleTwiceText sampleTwice (callFlags false []) where
  steadfast := {
    orderly := {
      reading := by
        refine ⟨?_, rfl⟩
        simp [sampleTwice, Body.WF, Alt.WF, Cat.WF, Atom.WF, Char1.WF, special, Quant.WF, Atom.groups, Cat.groups, Alt.groups, Body.groups,
          Atom.leadsName, Cat.leadsName, Body.leadsName, Alt.leadsName]
      faithful := by
        simp [sampleTwice, Body.Faithful, Alt.Faithful, Cat.Faithful, Atom.Faithful, Quant.Faithful, Char1.Faithful, possessiveItem,
          Atom.possessive, Cat.leadsPossessive, Quant.kind]
      size := by decide +kernel
      inOrder := by decide +kernel
      selfFree := by simp [sampleTwice, Body.selfFree, Alt.selfFree, Cat.selfFree, Atom.selfFree]
      known := by decide +kernel
      attentive := by decide +kernel }
    robust := ⟨false, by decide, by decide +kernel⟩
    blk := rfl
    ci := rfl }
  firm := by decide +kernel
  loose := by decide +kernel

example : sampleTwice.unanchored false = true := by decide +kernel

theorem inClass_plain {U : Uni} {u : List Nat} (hu : ∀ c ∈ u, IsScalar c) {i c : Nat} (hc : c < 2147483648) :
    inClass U false (codePoints u) i (.chr c) ↔ u[i]? = some c := by
  simp only [inClass, CC.matchChar]
  constructor
  · rintro ⟨v, h1, h2⟩
    have hv : v ∈ codePoints u := List.mem_of_getElem? h1
    have := (matchCharacter_sens (codePoints_isCh hu v hv) hc).1 h2
    subst this
    simp only [codePoints, List.getElem?_map, Option.map_eq_some_iff] at h1
    obtain ⟨d, h1, h3⟩ := h1
    rw [h1, Int.ofNat_inj.1 h3]
  · intro h
    have hv : (c : Int) ∈ codePoints u := by
      simp only [codePoints, List.mem_map]; exact ⟨c, List.mem_of_getElem? h, rfl⟩
    exact ⟨c, by simp [codePoints, h], (matchCharacter_sens (codePoints_isCh hu _ hv) hc).2 rfl⟩

theorem iterate_a {E : Env} {u : List Nat} (hu : ∀ c ∈ u, IsScalar c) {m : Bool} {cap : Nat → Option (Nat × Nat)} : ∀ {k p : Nat} {τ : MState},
    Iterate (fun σ τ => ∃ ρ, (Atom.ch (.plain 97)).Match E (codePoints u) σ ρ ∧ τ = withModes σ ρ) k ⟨p, m, false, cap⟩ τ ↔
      τ = ⟨p + k, m, false, cap⟩ ∧ ∀ i, i < k → u[p + i]? = some 97
  | 0, p, τ => by
    constructor
    · intro h; cases h; exact ⟨rfl, by simp⟩
    · rintro ⟨rfl, _⟩; exact .zero _
  | k + 1, p, τ => by
    have one : ∀ π, (∃ ρ, (Atom.ch (.plain 97)).Match E (codePoints u) ⟨p, m, false, cap⟩ ρ ∧ π = withModes ⟨p, m, false, cap⟩ ρ) ↔
        π = ⟨p + 1, m, false, cap⟩ ∧ u[p]? = some 97 := by
      intro π
      simp only [Atom.Match, Char1.code, inClass_plain hu (show 97 < 2147483648 by decide)]
      constructor
      · rintro ⟨ρ, ⟨h1, rfl⟩, rfl⟩; exact ⟨rfl, h1⟩
      · rintro ⟨rfl, h⟩; exact ⟨_, ⟨h, rfl⟩, rfl⟩
    constructor
    · intro h
      cases h with
      | succ h1 h2 =>
        obtain ⟨rfl, h3⟩ := (one _).1 h1
        obtain ⟨rfl, h4⟩ := (iterate_a hu).1 h2
        refine ⟨by rw [show p + 1 + k = p + (k + 1) by omega], fun i hi => ?_⟩
        cases i with
        | zero => exact h3
        | succ i => rw [show p + (i + 1) = p + 1 + i by omega]; exact h4 i (by omega)
    · rintro ⟨rfl, h⟩
      refine .succ ((one _).2 ⟨rfl, h 0 (by omega)⟩) ((iterate_a hu).2 ⟨by rw [show p + 1 + k = p + (k + 1) by omega], fun i hi => ?_⟩)
      rw [show p + 1 + i = p + (i + 1) by omega]; exact h (i + 1) (by omega)

/-- The meaning of `(a*)b\1`: as many a after the b as before it. -/
theorem sampleTwice_can {u : List Nat} (hu : ∀ c ∈ u, IsScalar c) :
    sampleTwice.Can C (codePoints u) (callFlags false []) 0 u.length ↔ ∃ k, u = List.replicate k 97 ++ 98 :: List.replicate k 97 := by
  have hlen := codePoints_length u
  have key : ∀ τ, sampleTwice.Match (sampleTwice.env C) (codePoints u) (MState.start 0 (callFlags false [])) τ ↔
      ∃ k, (∀ i, i < k → u[i]? = some 97) ∧ u[k]? = some 98 ∧
        Again (codePoints u) ⟨k + 1, false, false, fun i => if i = 1 then some (0, k) else none⟩ τ 1 := by
    intro τ
    simp only [sampleTwice, Body.Match, Alt.Match, Cat.Match, Atom.Match, Quant.admits, true_and, Char1.code, MState.start]
    constructor
    · rintro ⟨ρ, ⟨π, ⟨k, h1⟩, rfl⟩, σ, ⟨h2, rfl⟩, h3⟩
      obtain ⟨rfl, h4⟩ := (iterate_a hu).1 h1
      simp only [MState.setCap, Nat.zero_add] at h2 h3 h4
      exact ⟨k, h4, (inClass_plain hu (by decide)).1 h2, h3⟩
    · rintro ⟨k, h1, h2, h3⟩
      refine ⟨_, ⟨_, ⟨k, (iterate_a hu).2 ⟨rfl, by simpa using h1⟩⟩, rfl⟩, _, ⟨?_, rfl⟩, ?_⟩
      · simp only [MState.setCap, Nat.zero_add]; exact (inClass_plain hu (by decide)).2 h2
      · simp only [MState.setCap, Nat.zero_add]; exact h3
  unfold Body.Can
  simp only [key, Again, if_true, Option.some.injEq, Prod.mk.injEq]
  constructor
  · rintro ⟨τ, ⟨k, h1, h2, i, j, ⟨rfl, rfl⟩, _, h4, h5, rfl⟩, h6⟩
    simp only [Nat.sub_zero] at h4 h5 h6
    refine ⟨k, List.ext_getElem? fun i => ?_⟩
    rcases Nat.lt_trichotomy i k with hi | rfl | hi
    · rw [h1 i hi, List.getElem?_append_left (by simpa using hi)]; simp [hi]
    · rw [h2]; simp
    · by_cases hi2 : i < k + 1 + k
      · have h7 : (text (codePoints u) 0 k)[i - k - 1]? = (text (codePoints u) (k + 1) (k + 1 + k))[i - k - 1]? := by rw [h5]
        simp only [text, List.drop_zero, Nat.sub_zero, Nat.add_sub_cancel_left, List.getElem?_take, List.getElem?_drop,
          if_pos (show i - k - 1 < k by omega), codePoints, List.getElem?_map] at h7
        rw [h1 _ (by omega), show k + 1 + (i - k - 1) = i by omega] at h7
        have h8 : u[i]? = some 97 := by
          obtain ⟨d, h8, h9⟩ := Option.map_eq_some_iff.1 h7.symm
          rw [h8, Int.ofNat_inj.1 h9]
        rw [h8, List.getElem?_append_right (by simp; omega), List.length_replicate, List.getElem?_cons, if_neg (by omega),
          List.getElem?_replicate, if_pos (by omega)]
      · rw [List.getElem?_eq_none (by omega), List.getElem?_eq_none (by simp; omega)]
  · rintro ⟨k, hk⟩
    have hl : u.length = k + 1 + k := by rw [hk]; simp; omega
    refine ⟨_, ⟨k, fun i hi => ?_, ?_, 0, k, ⟨rfl, rfl⟩, Nat.zero_le _, ?_, ?_, rfl⟩, ?_⟩
    · rw [hk, List.getElem?_append_left (by simpa using hi)]; simp [hi]
    · rw [hk]; simp
    · simp only [Nat.sub_zero]; omega
    · have e : codePoints u = (List.replicate k 97 ++ [98]) ++ List.replicate k 97 := by rw [hk]; simp [codePoints]
      simp only [text, e, Nat.sub_zero, List.drop_zero, Nat.add_sub_cancel_left]
      rw [List.append_assoc, List.take_left' (by simp), ← List.append_assoc, List.drop_left' (by simp), List.take_of_length_le (by simp)]
    · simp only [Nat.sub_zero]; omega

/-- `match` succeeds on the view of these code points. -/
def MatchSucceeds (P : PropTable) (C : Cfg) (ml : Bool) (mods : List Mode) (lit : PatLit) (s : List Nat) : Prop :=
  ∃ N, ∀ n, N ≤ n → ∃ y, call P C n ml .match_ mods lit (.view (s.map fun c : Nat => (c : Int))) = some (.one (.done y)) ∧ y.whole.matched = true

theorem succeeds_iff {Q : Prop} (h : ∃ N, ∀ n, N ≤ n → ∃ y, call P C n ml .match_ mods lit (.view (s.map fun c : Nat => (c : Int))) = some (.one (.done y)) ∧
    (y.whole.matched = true ↔ Q)) : MatchSucceeds P C ml mods lit s ↔ Q := by
  obtain ⟨N, h⟩ := h
  constructor
  · rintro ⟨M, h'⟩
    obtain ⟨y, h1, h2⟩ := h (max N M) (by omega)
    obtain ⟨z, h3, h4⟩ := h' (max N M) (by omega)
    rw [h1] at h3
    simp only [Option.some.injEq, Answer.one.injEq, Exec.done.injEq] at h3
    exact h2.1 (h3 ▸ h4)
  · intro hQ
    refine ⟨N, fun n hn => ?_⟩
    obtain ⟨y, h1, h2⟩ := h n hn
    exact ⟨y, h1, h2.2 hQ⟩

/-- C85 for `(a*)b\1`: it matches exactly the subjects with as many a after the b as before it. -/
theorem C85_twice (hl : lit.Spells sampleTwiceText) (hs : ∀ c ∈ s, IsScalar c) :
    MatchSucceeds {} C false [] lit s ↔ ∃ k, s = List.replicate k 97 ++ 98 :: List.replicate k 97 := by
  rw [← sampleTwice_can (C := C) hs]
  obtain ⟨N, h⟩ := C85_match (C := C) sampleTwice_candid hl (by decide) (.view s) hs (by simp)
  exact succeeds_iff ⟨N, fun n hn => (h n hn).imp fun y hy => ⟨hy.1, hy.2.1⟩⟩

/-- A pattern text of the syntax of regular languages: in long subjects that are matched there is a part, near the beginning, that can be
repeated or left out. -/
theorem C85_pumping (hb : Rational P.find t b) (hm : b.small = true) (hl : lit.Spells t) (ht : ∀ c ∈ t, IsScalar c)
    (hblk : (callFlags ml mods).blk = false) (hci : b.caseSafe (callFlags ml mods).ci = true) :
    ∃ k, ∀ s : List Nat, (∀ c ∈ s, IsScalar c) → k ≤ s.length → MatchSucceeds P C ml mods lit s →
      ∃ u v w, s = u ++ v ++ w ∧ u.length + v.length ≤ k ∧ v ≠ [] ∧
        ∀ i, MatchSucceeds P C ml mods lit (u ++ (List.replicate i v).flatten ++ w) := by
  have dec : ∀ s : List Nat, (∀ c ∈ s, IsScalar c) → (MatchSucceeds P C ml mods lit s ↔ b.Accepts C (callFlags ml mods) (codePoints s)) := by
    intro s hs
    obtain ⟨N, h⟩ := C81_decides (C := C) hb hm hl ht (.view s) hs hblk hci
    exact succeeds_iff ⟨N, fun n hn => (h n hn).1⟩
  obtain ⟨σ, hσ, M, hM⟩ := Body.lang_isRegular C.uni (callFlags ml mods).ml (callFlags ml mods).ci b
  refine ⟨Fintype.card σ, fun s hs hk hmat => ?_⟩
  have h1 : codePoints s ∈ M.accepts := by rw [hM]; exact (dec s hs).1 hmat
  obtain ⟨u', v', w', h2, h3, h4, h5⟩ := M.pumping_lemma h1 (by rw [codePoints_length]; exact hk)
  obtain ⟨uv, w, rfl, h6, rfl⟩ := List.map_eq_append_iff.1 h2
  obtain ⟨u, v, rfl, rfl, rfl⟩ := List.map_eq_append_iff.1 h6
  refine ⟨u, v, w, rfl, by simpa using h3, by simpa using h4, fun i => ?_⟩
  have hs' : ∀ c ∈ u ++ (List.replicate i v).flatten ++ w, IsScalar c := by
    intro c hc
    simp only [List.mem_append, List.mem_flatten, List.mem_replicate] at hc
    rcases hc with (hc | ⟨l, ⟨_, rfl⟩, hc⟩) | hc <;> exact hs c (by simp [hc])
  refine (dec _ hs').2 ?_
  unfold Surface.Body.Accepts
  rw [← hM]
  refine h5 (Language.mem_mul.2 ⟨codePoints u ++ codePoints (List.replicate i v).flatten, Language.mem_mul.2 ⟨codePoints u, rfl, _, ?_, rfl⟩,
    codePoints w, rfl, by simp [codePoints]⟩)
  refine Language.mem_kstar.2 ⟨List.replicate i (codePoints v), by simp [codePoints, List.map_flatten], fun y hy => ?_⟩
  exact (List.mem_replicate.1 hy).2

/-- C85: back references cannot be dispensed with: no pattern of the syntax of regular languages matches the same subjects as
`(a*)b\1`. -/
theorem C85_beyond_regular (hb : Rational P.find t b) (hm : b.small = true) (hl : lit.Spells t) (ht : ∀ c ∈ t, IsScalar c)
    (hblk : (callFlags ml mods).blk = false) (hci : b.caseSafe (callFlags ml mods).ci = true) {lit' : PatLit} (hl' : lit'.Spells sampleTwiceText) :
    ∃ s : List Nat, (∀ c ∈ s, IsScalar c) ∧ ¬ (MatchSucceeds P C ml mods lit s ↔ MatchSucceeds {} C false [] lit' s) := by
  by_contra hno
  have all : ∀ s : List Nat, (∀ c ∈ s, IsScalar c) → (MatchSucceeds P C ml mods lit s ↔ MatchSucceeds {} C false [] lit' s) :=
    fun s hs => by_contra fun h => hno ⟨s, hs, h⟩
  obtain ⟨k, hk⟩ := C85_pumping (C := C) hb hm hl ht hblk hci
  have hab : ∀ i j : Nat, ∀ c ∈ List.replicate i 97 ++ 98 :: List.replicate j 97, IsScalar c := by
    intro i j c hc
    simp only [List.mem_append, List.mem_cons, List.mem_replicate] at hc
    rcases hc with ⟨_, rfl⟩ | rfl | ⟨_, rfl⟩ <;> decide
  obtain ⟨u, v, w, h1, h2, h3, h4⟩ := hk _ (hab k k) (by simp) ((all _ (hab k k)).2 ((C85_twice hl' (hab k k)).2 ⟨k, rfl⟩))
  -- the part is in front of the b
  have hu : u ++ v = List.replicate (u.length + v.length) 97 := by
    have := congrArg (List.take (u.length + v.length)) h1
    rw [List.take_append_of_le_length (by simpa using h2), List.take_replicate, Nat.min_eq_left h2,
      List.take_left' (by simp)] at this
    exact this.symm
  have hw : w = List.replicate (k - (u.length + v.length)) 97 ++ 98 :: List.replicate k 97 := by
    have := congrArg (List.drop (u.length + v.length)) h1
    rw [List.drop_append_of_le_length (by simpa using h2), List.drop_replicate, List.drop_left' (by simp)] at this
    exact this.symm
  have hu' : u = List.replicate u.length 97 := by
    have := congrArg (List.take u.length) hu
    rwa [List.take_left' rfl, List.take_replicate, Nat.min_eq_left (by omega)] at this
  have h5 := h4 0
  have e : u ++ (List.replicate 0 v).flatten ++ w = List.replicate (u.length + (k - (u.length + v.length))) 97 ++ 98 :: List.replicate k 97 := by
    rw [hw, hu', List.length_replicate, List.replicate_add]; simp only [List.replicate_zero, List.flatten_nil, List.append_nil, List.append_assoc]
  rw [e, all _ (hab _ _), C85_twice hl' (hab _ _)] at h5
  obtain ⟨j, h6⟩ := h5
  have hv : 0 < v.length := List.length_pos_iff.2 h3
  have c98 := congrArg (List.idxOf 98) h6
  have hlen := congrArg List.length h6
  simp only [List.length_append, List.length_replicate, List.length_cons] at hlen
  have idx : ∀ i j : Nat, (List.replicate i 97 ++ 98 :: List.replicate j 97).idxOf 98 = i := by
    intro i j
    rw [List.idxOf_append_of_notMem (by simp)]; simp
  rw [idx, idx] at c98
  omega

example : (PatLit.narrow (sampleTwiceText.map fun c : Nat => (c : Int))).Spells sampleTwiceText := .ascii _ (by decide)

/-! ### The conditions are needed -/

/-- `(?:a|ab)*c` -/
def sampleChoice85 : Body := .alt (.one (.cons (.group (.alt (.bar (.one (.ch (.plain 97)) .none) (.one (.cons (.ch (.plain 97)) .none (.one (.ch (.plain 98)) .none)))))) (.star .greedy) (.one (.ch (.plain 99)) .none)))

theorem sampleChoice85_faithful : sampleChoice85.Faithful := by
  simp [sampleChoice85, Body.Faithful, Alt.Faithful, Cat.Faithful, Atom.Faithful, Quant.Faithful, Char1.Faithful, possessiveItem,
    Atom.possessive, Cat.leadsPossessive, Quant.kind]

/-- Without `firm`: according to its meaning `(?:a|ab)*c` can match "abc"; `match` fails. -/
theorem C85_fails_choice : Reading (PropTable.find {}) [40, 63, 58, 97, 124, 97, 98, 41, 42, 99] sampleChoice85 ∧ sampleChoice85.robust false false false true = true ∧
    sampleChoice85.firm = false ∧ sampleChoice85.loose = true ∧ sampleChoice85.Can {} [97, 98, 99] (callFlags false []) 0 3 ∧
    ∃ r, build {} [40, 63, 58, 97, 124, 97, 98, 41, 42, 99] = .pattern r ∧ cMatch {} 60 [97, 98, 99] (callFlags false []) r = .done {} := by
  refine ⟨⟨?_, rfl⟩, by decide +kernel, by decide +kernel, by decide +kernel, ?_, _, rfl, by decide +kernel⟩
  · simp [sampleChoice85, Body.WF, Alt.WF, Cat.WF, Atom.WF, Char1.WF, special, Quant.WF]
  · have h3 : 3 ∈ (usualWays {} [97, 98, 99] (callFlags false []) sampleChoice85 0).map (·.pos) := by decide +kernel
    obtain ⟨τ, hτ, e3⟩ := List.mem_map.1 h3
    exact ⟨τ, (C75_ways_are_matches sampleChoice85_faithful (by decide +kernel) (by decide) _).1 hτ, e3⟩

/-- `a|ab` -/
def sampleInner85 : Body :=
  .alt (.bar (.one (.ch (.plain 97)) .none) (.one (.cons (.ch (.plain 97)) .none (.one (.ch (.plain 98)) .none))))

theorem sampleInner85_faithful : sampleInner85.Faithful := by
  simp [sampleInner85, Body.Faithful, Alt.Faithful, Cat.Faithful, Atom.Faithful, Quant.Faithful, Char1.Faithful, possessiveItem,
    Atom.possessive, Cat.leadsPossessive, Quant.kind]

/-- `(?>a|ab)c` -/
def sampleAtomic85 : Body := .alt (.one (.cons (.atomic (.alt (.bar (.one (.ch (.plain 97)) .none) (.one (.cons (.ch (.plain 97)) .none (.one (.ch (.plain 98)) .none)))))) .none (.one (.ch (.plain 99)) .none)))

theorem sampleAtomic85_faithful : sampleAtomic85.Faithful := by
  simp [sampleAtomic85, Body.Faithful, Alt.Faithful, Cat.Faithful, Atom.Faithful, Quant.Faithful, Char1.Faithful, possessiveItem,
    Atom.possessive, Cat.leadsPossessive, Quant.kind]

/-- Without `loose`: according to its meaning `(?>a|ab)c` can match "abc"; `match` fails. -/
theorem C85_fails_atomic : Reading (PropTable.find {}) [40, 63, 62, 97, 124, 97, 98, 41, 99] sampleAtomic85 ∧ sampleAtomic85.robust false false false true = true ∧
    sampleAtomic85.firm = true ∧ sampleAtomic85.loose = false ∧ sampleAtomic85.Can {} [97, 98, 99] (callFlags false []) 0 3 ∧
    ∃ r, build {} [40, 63, 62, 97, 124, 97, 98, 41, 99] = .pattern r ∧ cMatch {} 60 [97, 98, 99] (callFlags false []) r = .done {} := by
  refine ⟨⟨?_, rfl⟩, by decide +kernel, by decide +kernel, by decide +kernel, ?_, _, rfl, by decide +kernel⟩
  · simp [sampleAtomic85, Body.WF, Alt.WF, Cat.WF, Atom.WF, Char1.WF, special, Quant.WF]
  · have h2 : 2 ∈ (usualWays {} [97, 98, 99] (callFlags false []) sampleInner85 0).map (·.pos) := by decide +kernel
    obtain ⟨ρ, hρ, e2⟩ := List.mem_map.1 h2
    have hm := (C75_ways_are_matches sampleInner85_faithful (by decide +kernel) (by decide) _).1 hρ
    refine ⟨{ withModes (MState.start 0 (callFlags false [])) ρ with pos := 3 }, ⟨withModes (MState.start 0 (callFlags false [])) ρ, ⟨ρ, hm, rfl⟩, ?_⟩, rfl⟩
    refine ⟨?_, ?_⟩
    · simp [withModes, e2, inClass, Char1.code, CC.matchChar, matchCharacter]
      exact Or.inr (by decide)
    · simp [withModes, e2]

end Ctre
