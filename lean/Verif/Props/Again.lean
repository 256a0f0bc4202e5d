import Verif.Lemmas.Embed
import Verif.Props.Default

/-
C84: found text, taken out of the subject and matched again, has the same groups.  `Body.within` is in Spec/Within.lean.
-/
namespace Ctre
open Parse Surface

variable {P : PropTable} {C : Cfg} {n : Nat} {ml : Bool} {m : Method} {mods : List Mode} {lit : PatLit} {x : Subject}
  {t s : List Nat} {φ : Nat → Nat} {r : Re} {b : Body} {f : Flags}

/-- The text is `Steadfast`, looks only at what it matches, and nothing in it keeps to its first choice. -/
structure Confined (find : List Nat → Option (List Nat) → Option Nat) (t : List Nat) (b : Body) (f : Flags) : Prop where
  steadfast : Steadfast find t b f
  firm : b.firm = true
  loose : b.loose = true
  within : b.within = true

/-- The results `c` and `c'` agree: the span reported by `c` begins at the index `k`, that of `c'` at 0, and the same groups are matched,
from there at the same indices.  `φ` and `φ'` are the positions that belong to the indices. -/
structure Echoes (φ φ' : Nat → Nat) (k l : Nat) (c c' : Caps) : Prop where
  whole : c.get 0 = some ⟨some (φ k), some (φ (k + l)), true⟩
  whole' : c'.get 0 = some ⟨some (φ' 0), some (φ' l), true⟩
  group : ∀ id sl sl', id ≠ 0 → c.get id = some sl → c'.get id = some sl' →
    (sl.matched = false ∧ sl'.matched = false) ∨
      ∃ a e, sl = ⟨some (φ (k + a)), some (φ (k + e)), true⟩ ∧ sl' = ⟨some (φ' a), some (φ' e), true⟩

/-- C84, the order: the ways of matching inside a part `v` of a text are the ways of matching in the whole text that stay in the part, in
the same order and with the same groups. -/
theorem C84_ways (hb : Confined P.find t b f) {u v w : List Ch} {p : Nat} (hp : p ≤ v.length) :
    (textWays C v f b p).map (MState.up u.length) =
      (textWays C (u ++ v ++ w) f b (p + u.length)).filter fun τ => decide (τ.pos ≤ v.length + u.length) := by
  rw [C75_usual_order hb.steadfast.orderly.faithful hb.firm hp,
    C75_usual_order hb.steadfast.orderly.faithful hb.firm (by simp only [List.length_append]; omega)]
  exact (body_lifts b hb.within hb.loose).eq (MState.start p f) (start_fit p f) hp

theorem part_eq {s : List Ch} {q e : Nat} (h : q ≤ e) : s = s.take q ++ Ctre.text s q e ++ s.drop e := by
  have : s.drop e = (s.drop q).drop (e - q) := by rw [List.drop_drop]; congr 1; omega
  rw [Ctre.text, this, List.append_assoc, List.take_append_drop, List.take_append_drop]

theorem take_length' {s : List Ch} {q : Nat} (h : q ≤ s.length) : (s.take q).length = q := by
  rw [List.length_take]; omega

/-- The same for the part from `q` to `e`. -/
theorem ways_part (hb : Confined P.find t b f) {s : List Ch} {q e p : Nat} (hq : q ≤ e) (he : e ≤ s.length) (hp : p ≤ e - q) :
    (textWays C (Ctre.text s q e) f b p).map (MState.up q) = (textWays C s f b (p + q)).filter fun τ => decide (τ.pos ≤ e) := by
  have h := C84_ways (C := C) hb (u := s.take q) (v := Ctre.text s q e) (w := s.drop e) (p := p) (by rw [text_length he]; exact hp)
  rw [← part_eq hq, take_length' (by omega), text_length he, Nat.sub_add_cancel hq] at h
  exact h

theorem textWays_bound {s : List Ch} {q : Nat} (hq : q ≤ s.length) {τ : MState} (h : τ ∈ textWays C s f b q) : q ≤ τ.pos ∧ τ.pos ≤ s.length :=
  body_fwd h hq

/-- The first way from `q`, to `e`, is the first of the ways of matching the text from `q` to `e`. -/
theorem first_again (hb : Confined P.find t b f) {s : List Ch} {q : Nat} (hq : q ≤ s.length) {τ : MState} {rest : List MState}
    (h : textWays C s f b q = τ :: rest) :
    ∃ τ' rest', textWaysFull C (Ctre.text s q τ.pos) f b 0 = τ' :: rest' ∧ τ'.up q = τ := by
  have hτ := textWays_bound (C := C) (f := f) (b := b) hq (h ▸ List.mem_cons_self)
  have key := ways_part (C := C) hb hτ.1 hτ.2 (Nat.zero_le _)
  rw [Nat.zero_add, h, List.filter_cons, if_pos (by simp)] at key
  cases hw : textWays C (Ctre.text s q τ.pos) f b 0 with
  | nil => rw [hw] at key; cases key
  | cons τ' rest' =>
    rw [hw, List.map_cons, List.cons.injEq] at key
    have hpos : τ'.pos = τ.pos - q := by
      have := congrArg MState.pos key.1
      simp only [MState.up] at this; omega
    refine ⟨τ', rest'.filter fun τ'' => decide (τ''.pos = (Ctre.text s q τ.pos).length), ?_, key.1⟩
    rw [textWaysFull, hw, List.filter_cons, if_pos (by rw [hpos, text_length hτ.2]; simp)]

theorem agree_of {φ φ' : Nat → Nat} {q : Nat} {c c' : Caps} {τ τ' : MState} (h : Reports c q τ) (h' : Reports c' 0 τ') (he : τ'.up q = τ) :
    Echoes φ φ' q τ'.pos (c.mapPos φ) (c'.mapPos φ') where
  whole := by
    have := getWhole_mapPos (φ := φ) h.whole
    rw [this, ← he]; simp only [MState.up, Slot.mapPos, Option.map_some]; rw [Nat.add_comm]
  whole' := getWhole_mapPos (φ := φ') h'.whole
  group id sl sl' hid hg hg' := by
    rw [get_mapPos] at hg hg'
    obtain ⟨a, ha, rfl⟩ := Option.map_eq_some_iff.1 hg
    obtain ⟨a', ha', rfl⟩ := Option.map_eq_some_iff.1 hg'
    have k := h.group id a hid ha
    have k' := h'.group id a' hid ha'
    have hc : τ.cap id = (τ'.cap id).map fun z => (z.1 + q, z.2 + q) := by rw [← he]; rfl
    cases hz : τ'.cap id with
    | none => rw [hc, hz] at k; rw [hz] at k'; exact .inl ⟨k, k'⟩
    | some z =>
      obtain ⟨i, j⟩ := z
      rw [hc, hz] at k; rw [hz] at k'
      simp only [Option.map_some] at k k'
      refine .inr ⟨i, j, ?_, ?_⟩
      · rw [k]; simp [Slot.mapPos, Nat.add_comm]
      · rw [k']; simp [Slot.mapPos]

/-- C84 on sequences of code points: what is reported as the first way from `q` is reported by `match` on that text alone, with the same
groups. -/
theorem C84_match (hb : Confined P.find t b f) {s : List Ch} (hs : ∀ v ∈ s, IsCh v) {q : Nat} (hq : q ≤ s.length)
    (hn : (bodyTree b).weight + s.length + 7 ≤ n) {c : Caps} (hc : ReportsFirst c q (textWays C s f b q)) (hm : c.whole.matched = true) :
    ∃ l c', q + l ≤ s.length ∧ cMatch C n (Ctre.text s q (q + l)) f (bodyTree b) = .done c' ∧ Echoes id id q l c c' := by
  cases hw : textWays C s f b q with
  | nil => rw [hw] at hc; rw [hc] at hm; cases hm
  | cons τ rest =>
    rw [hw] at hc
    obtain ⟨τ', rest', h1, h2⟩ := first_again hb hq hw
    have hτ := textWays_bound (C := C) (f := f) (b := b) hq (hw ▸ List.mem_cons_self)
    have hpos : q + τ'.pos = τ.pos := by rw [← h2, Nat.add_comm]; rfl
    obtain ⟨⟨c', k1, k2⟩, _⟩ := C83_match (C := C) (n := n) hb.steadfast (s := Ctre.text s q τ.pos)
      (fun v hv => hs v (List.mem_of_mem_drop (List.mem_of_mem_take hv))) (Nat.zero_le _) (by rw [text_length hτ.2]; omega)
    rw [h1] at k2
    have := agree_of (φ := id) (φ' := id) hc.2 k2.2 h2
    rw [caps_mapPos_id, caps_mapPos_id] at this
    exact ⟨τ'.pos, c', by omega, by rw [hpos]; exact k1, this⟩

theorem text_codePoints (s : List Nat) (i j : Nat) : Ctre.text (codePoints s) i j = codePoints ((s.drop i).take (j - i)) := by
  simp only [Ctre.text, codePoints, List.map_drop, List.map_take]

/-- What the whole call of `match` reports on a subject with the text from `q` to `q + l`. -/
theorem again_call (hb : Confined P.find t b (callFlags ml mods)) (hl : lit.Spells t) (ht : ∀ c ∈ t, IsScalar c)
    (hs : ∀ c ∈ s, IsScalar c) {q : Nat} (hq : q ≤ s.length) (hn : (bodyTree b).weight + s.length + 7 ≤ n) {y : Caps}
    (hy : ReportsAt φ y q (textWays C (codePoints s) (callFlags ml mods) b q)) (hm : y.whole.matched = true) :
    ∃ l, textPick C (codePoints s) (callFlags ml mods) b q = some (q + l) ∧ q + l ≤ s.length ∧ ∀ (x' : Subject) (φ' : Nat → Nat),
      x'.Holds ((s.drop q).take l) φ' → ((∃ u, x' = .u8 u) → b.forward = true) →
      ∃ y', call P C n ml .match_ mods lit x' = some (.one (.done y')) ∧ Echoes φ φ' q l y y' := by
  obtain ⟨c, rfl, hc⟩ := hy
  have hlen := codePoints_length s
  cases hw : textWays C (codePoints s) (callFlags ml mods) b q with
  | nil => rw [hw] at hc; exact absurd (hm.symm.trans (show (c.mapPos φ).whole.matched = false from hc)) (by simp)
  | cons τ rest =>
    rw [hw] at hc
    obtain ⟨τ', rest', h1, h2⟩ := first_again hb (by omega) hw
    have hτ := textWays_bound (C := C) (f := callFlags ml mods) (b := b) (s := codePoints s) (by omega) (hw ▸ List.mem_cons_self)
    have hpos : q + τ'.pos = τ.pos := by rw [← h2, Nat.add_comm]; rfl
    refine ⟨τ'.pos, by simp [textPick, pick, hw, hpos], by omega, fun x' φ' hx' hf => ?_⟩
    have hs' : ∀ c ∈ (s.drop q).take τ'.pos, IsScalar c := fun v hv => hs v (List.mem_of_mem_drop (List.mem_of_mem_take hv))
    obtain ⟨⟨c', k1, k2⟩, _⟩ := C83_match (C := C) (n := n) hb.steadfast (codePoints_isCh hs') (Nat.zero_le _)
      (by rw [codePoints_length, List.length_take]; omega)
    rw [text_codePoints, show τ.pos - q = τ'.pos by omega] at h1
    rw [h1] at k2
    refine ⟨c'.mapPos φ', ?_, agree_of hc.2 k2.2 h2⟩
    rw [hb.steadfast.call_eq hl ht hx' hs' hf]
    simp only [Method.plain, Answer.mapPos]
    rw [cMatch, k1]; rfl

/-- C84, whole calls: if `search` succeeds, `match` on the found text, taken out of the subject and represented in any way, succeeds and
reports the same groups. -/
theorem C84_search (hb : Confined P.find t b (callFlags ml mods))
    (hbeg : b.placed (callFlags ml mods).ml = true ∨ b.begins (callFlags ml mods).ml = true) (hl : lit.Spells t)
    (ht : ∀ c ∈ t, IsScalar c) (hx : x.Holds s φ) (hs : ∀ c ∈ s, IsScalar c) (hf : (∃ u, x = .u8 u) → b.forward = true) :
    ∃ N, ∀ n, N ≤ n → ∃ y, call P C n ml .search mods lit x = some (.one (.done y)) ∧
      (y.whole.matched = true → ∃ q l, q + l ≤ s.length ∧ ∀ (x' : Subject) (φ' : Nat → Nat), x'.Holds ((s.drop q).take l) φ' →
        ((∃ u, x' = .u8 u) → b.forward = true) →
        ∃ y', call P C n ml .match_ mods lit x' = some (.one (.done y')) ∧ Echoes φ φ' q l y y') := by
  obtain ⟨N, h⟩ := C83_search_call (C := C) hb.steadfast hbeg hl ht hx hs hf
  refine ⟨max N ((bodyTree b).weight + s.length + 7), fun n hn => ?_⟩
  obtain ⟨y, h1, h2⟩ := h n (by omega)
  refine ⟨y, h1, fun hm => ?_⟩
  rcases h2 with ⟨_, q, k1, _, k2, _⟩ | ⟨k1, _⟩
  · obtain ⟨l, _, h3, h4⟩ := again_call (n := n) hb hl ht hs k1 (by omega) k2 hm
    exact ⟨q, l, h3, h4⟩
  · rw [k1] at hm; cases hm

/-- C84 for `starts_with`. -/
theorem C84_starts_with (hb : Confined P.find t b (callFlags ml mods)) (hl : lit.Spells t)
    (ht : ∀ c ∈ t, IsScalar c) (hx : x.Holds s φ) (hs : ∀ c ∈ s, IsScalar c) (hf : (∃ u, x = .u8 u) → b.forward = true) :
    ∃ N, ∀ n, N ≤ n → ∃ y, call P C n ml .startsWith mods lit x = some (.one (.done y)) ∧
      (y.whole.matched = true → ∃ l, l ≤ s.length ∧ ∀ (x' : Subject) (φ' : Nat → Nat), x'.Holds (s.take l) φ' →
        ((∃ u, x' = .u8 u) → b.forward = true) →
        ∃ y', call P C n ml .match_ mods lit x' = some (.one (.done y')) ∧ Echoes φ φ' 0 l y y') := by
  obtain ⟨N, h⟩ := C83_calls (C := C) hb.steadfast hl ht hx hs hf
  refine ⟨max N ((bodyTree b).weight + s.length + 7), fun n hn => ?_⟩
  obtain ⟨_, y, h1, h2⟩ := h n (by omega)
  refine ⟨y, h1, fun hm => ?_⟩
  obtain ⟨l, _, h3, h4⟩ := again_call (n := n) hb hl ht hs (Nat.zero_le _) (by omega) h2 hm
  exact ⟨l, by omega, h4⟩

theorem Scan.mem {pick : Nat → Option Nat} {len p : Nat} {l : List (Nat × Nat)} (h : Scan pick len p l) :
    ∀ x ∈ l, p ≤ x.1 ∧ x.1 < x.2 ∧ pick x.1 = some x.2 ∧ x.2 ≤ len := by
  induction h with
  | stop p _ => simp
  | found p b e l h1 h2 h3 h4 h5 _ ih =>
    intro x hx
    rcases List.mem_cons.1 hx with rfl | hx
    · exact ⟨h1, h4, h3, h5⟩
    · have := ih x hx
      exact ⟨by omega, this.2⟩

theorem Tokens.mem {pick : Nat → Option Nat} {len p : Nat} {l : List (Nat × Nat)} (h : Tokens pick len p l) :
    ∀ x ∈ l, p ≤ x.1 ∧ x.1 < x.2 ∧ pick x.1 = some x.2 ∧ x.2 ≤ len := by
  induction h with
  | stop p _ => simp
  | token p e l h3 h4 h5 _ ih =>
    intro x hx
    rcases List.mem_cons.1 hx with rfl | hx
    · exact ⟨Nat.le_refl _, h4, h3, h5⟩
    · have := ih x hx
      exact ⟨by omega, this.2⟩

/-- C84 for every match that `search_all` and `tokenize` yield. -/
theorem C84_iterates (hb : Confined P.find t b (callFlags ml mods)) (hbeg : b.unanchored (callFlags ml mods).ml = true)
    (hc : b.consumes = true) (hl : lit.Spells t) (ht : ∀ c ∈ t, IsScalar c) (hx : x.Holds s φ)
    (hs : ∀ c ∈ s, IsScalar c) (hf : (∃ u, x = .u8 u) → b.forward = true) (hm : m = .searchAll ∨ m = .tokenize) :
    ∃ spans : List (Nat × Nat), (m = .searchAll → Scan (textPick C (codePoints s) (callFlags ml mods) b) s.length 0 spans) ∧
      (m = .tokenize → Tokens (textPick C (codePoints s) (callFlags ml mods) b) s.length 0 spans) ∧
      ∃ N, ∀ n, N ≤ n → ∃ it, call P C n ml m mods lit x = some (.many it) ∧ (∃ y, it spans.length = some y ∧ y.isEnd = true) ∧
        ∀ i (hi : i < spans.length), ∃ y, it i = some y ∧ ∀ (x' : Subject) (φ' : Nat → Nat),
          x'.Holds ((s.drop (spans[i]).1).take ((spans[i]).2 - (spans[i]).1)) φ' → ((∃ u, x' = .u8 u) → b.forward = true) →
          ∃ y', call P C n ml .match_ mods lit x' = some (.one (.done y')) ∧
            Echoes φ φ' (spans[i]).1 ((spans[i]).2 - (spans[i]).1) y.result y' := by
  obtain ⟨found, tokens, h1, h2, N, h⟩ := C83_iterates (C := C) hb.steadfast hbeg hc hl ht hx hs hf
  have key : ∀ n, (bodyTree b).weight + s.length + 7 ≤ n → ∀ q e (y : Caps), q ≤ s.length →
      textPick C (codePoints s) (callFlags ml mods) b q = some e →
      ReportsAt φ y q (textWays C (codePoints s) (callFlags ml mods) b q) → ∀ (x' : Subject) (φ' : Nat → Nat),
      x'.Holds ((s.drop q).take (e - q)) φ' → ((∃ u, x' = .u8 u) → b.forward = true) →
      ∃ y', call P C n ml .match_ mods lit x' = some (.one (.done y')) ∧ Echoes φ φ' q (e - q) y y' := by
    intro n hn q e y hq hpick hy
    cases hw : textWays C (codePoints s) (callFlags ml mods) b q with
    | nil => simp [textPick, pick, hw] at hpick
    | cons τ rest =>
      obtain ⟨c, rfl, hr⟩ := id hy
      rw [hw] at hr
      obtain ⟨l, h3, h4, h5⟩ := again_call (n := n) hb hl ht hs hq hn hy (show (c.mapPos φ).whole.matched = true from hr.1)
      rw [hpick, Option.some.injEq] at h3
      subst h3
      rw [Nat.add_sub_cancel_left]
      exact h5
  rcases hm with rfl | rfl
  · refine ⟨found, fun _ => h1, (by simp), max N ((bodyTree b).weight + s.length + 7), fun n hn => ?_⟩
    obtain ⟨⟨it, k1, k2, k3⟩, _, _⟩ := h n (by omega)
    refine ⟨it, k1, k3, fun i hi => ?_⟩
    obtain ⟨y, k4, k5⟩ := k2 i hi
    have := h1.mem _ (List.getElem_mem hi)
    exact ⟨y, k4, key n (by omega) _ _ _ (by omega) this.2.2.1 k5⟩
  · refine ⟨tokens, (by simp), fun _ => h2, max N ((bodyTree b).weight + s.length + 7), fun n hn => ?_⟩
    obtain ⟨_, _, it, k1, k2, k3⟩ := h n (by omega)
    refine ⟨it, k1, k3, fun i hi => ?_⟩
    obtain ⟨y, k4, k5⟩ := k2 i hi
    have := h2.mem _ (List.getElem_mem hi)
    exact ⟨y, k4, key n (by omega) _ _ _ (by omega) this.2.2.1 k5⟩

/-- The ways inside a part from `q` to `e`, from the index `p` of the part. -/
theorem ways_part_nil (hb : Confined P.find t b f) {s : List Ch} {q e p : Nat} (hq : q ≤ e) (he : e ≤ s.length) (hp : p ≤ e - q)
    (h : textWays C s f b (p + q) = []) : textWays C (Ctre.text s q e) f b p = [] := by
  have := ways_part (C := C) hb hq he hp
  rw [h] at this
  exact List.map_eq_nil_iff.1 this

/-- C84: what is found in a text is found, not later, in every text that contains it. -/
theorem C84_context (hb : Confined P.find t b f) (hbeg : b.unanchored f.ml = true) {u v w : List Ch} (hs : ∀ c ∈ u ++ v ++ w, IsCh c)
    (hn : (bodyTree b).weight + (u ++ v ++ w).length + 7 ≤ n) :
    ∃ c c', cSearch C n v f (bodyTree b) = .done c ∧ cSearch C n (u ++ v ++ w) f (bodyTree b) = .done c' ∧
      (c.whole.matched = true → c'.whole.matched = true ∧ ∃ i j i' j', c.get 0 = some ⟨some i, some j, true⟩ ∧
        c'.get 0 = some ⟨some i', some j', true⟩ ∧ i' ≤ u.length + i) := by
  simp only [List.length_append] at hn
  obtain ⟨c, h1, h2⟩ := C83_search (C := C) (n := n) hb.steadfast (.inl (body_unanchored_placed b hbeg)) (s := v) (fun c hc => hs c (by simp [hc])) (by omega)
  obtain ⟨c', h1', h2'⟩ := C83_search (C := C) (n := n) hb.steadfast (.inl (body_unanchored_placed b hbeg)) (s := u ++ v ++ w) hs (by simp only [List.length_append]; omega)
  refine ⟨c, c', h1, h1', fun hm => ?_⟩
  rcases h2 with ⟨_, i, τ, rest, k1, k2, k3, _⟩ | ⟨k, _⟩
  · have key := C84_ways (C := C) hb (u := u) (v := v) (w := w) k1
    rw [k2, List.map_cons] at key
    have hne : textWays C (u ++ v ++ w) f b (i + u.length) ≠ [] := fun e => by rw [e] at key; cases key
    rcases h2' with ⟨g0, i', τ', rest', g1, g2, g3, g4⟩ | ⟨_, g⟩
    · refine ⟨g0, i, τ.pos, i', τ'.pos, k3.whole, g3.whole, ?_⟩
      by_contra hlt
      exact hne (g4 _ (by omega))
    · exact absurd (g _ (by simp only [List.length_append]; omega)) hne
  · rw [k] at hm; cases hm

/-- C84: `search` finds nothing in a piece of `split`, taken out of the subject and represented in any way. -/
theorem C84_pieces (hb : Confined P.find t b (callFlags ml mods)) (hbeg : b.unanchored (callFlags ml mods).ml = true)
    (hc : b.consumes = true) (hl : lit.Spells t) (ht : ∀ c ∈ t, IsScalar c) (hx : x.Holds s φ)
    (hs : ∀ c ∈ s, IsScalar c) (hf : (∃ u, x = .u8 u) → b.forward = true) :
    ∃ pieces : List (Nat × Nat), (∀ z ∈ pieces, z.1 ≤ z.2 ∧ z.2 ≤ s.length) ∧ ∃ N, ∀ n, N ≤ n →
      (∃ it, call P C n ml .split mods lit x = some (.pieces it) ∧
        (∀ i (hi : i < pieces.length), ∃ y, it i = some y ∧
          y.result.get 0 = some ⟨some (φ (pieces[i]).1), some (φ (pieces[i]).2), true⟩) ∧
        ∃ y, it pieces.length = some y ∧ y.isEnd = true) ∧
      ∀ z ∈ pieces, ∀ (x' : Subject) (φ' : Nat → Nat), x'.Holds ((s.drop z.1).take (z.2 - z.1)) φ' →
        ((∃ u, x' = .u8 u) → b.forward = true) →
        ∃ y', call P C n ml .search mods lit x' = some (.one (.done y')) ∧ y'.whole.matched = false := by
  obtain ⟨found, tokens, h1, _, N, h⟩ := C83_iterates (C := C) hb.steadfast hbeg hc hl ht hx hs hf
  have hlen := codePoints_length s
  -- from no position before the end of a piece is there a way
  have key : ∀ p l, Scan (textPick C (codePoints s) (callFlags ml mods) b) s.length p l → p ≤ s.length → ∀ z ∈ gaps s.length p l,
      z.1 ≤ z.2 ∧ z.2 ≤ s.length ∧ ∀ i, z.1 ≤ i → i < z.2 → textPick C (codePoints s) (callFlags ml mods) b i = none := by
    intro p l hsc
    induction hsc with
    | stop p g1 =>
      intro hp z hz
      simp only [gaps, List.mem_singleton] at hz
      subst hz
      exact ⟨hp, Nat.le_refl _, fun i k1 k2 => g1 i k1 (by simp only at k2; omega)⟩
    | found p b e l g1 g2 g3 g4 g5 _ ih =>
      intro hp z hz
      simp only [gaps, List.mem_cons] at hz
      rcases hz with rfl | hz
      · exact ⟨g1, by simp only; omega, g2⟩
      · exact ih g5 z hz
  refine ⟨gaps s.length 0 found, fun z hz => ?_, max N ((bodyTree b).weight + s.length + 7), fun n hn => ⟨(h n (by omega)).2.1, ?_⟩⟩
  · have := key 0 found h1 (Nat.zero_le _) z hz
    exact ⟨this.1, this.2.1⟩
  · intro z hz x' φ' hx' hf'
    obtain ⟨k1, k2, k3⟩ := key 0 found h1 (Nat.zero_le _) z hz
    have hs' : ∀ c ∈ (s.drop z.1).take (z.2 - z.1), IsScalar c := fun v hv => hs v (List.mem_of_mem_drop (List.mem_of_mem_take hv))
    have hl' : ((s.drop z.1).take (z.2 - z.1)).length = z.2 - z.1 := by simp only [List.length_take, List.length_drop]; omega
    have none : ∀ i, i ≤ z.2 - z.1 → textWays C (codePoints ((s.drop z.1).take (z.2 - z.1))) (callFlags ml mods) b i = [] := by
      intro i hi
      by_cases hlt : i < z.2 - z.1
      · have h0 := k3 (i + z.1) (by omega) (by omega)
        have h0' : textWays C (codePoints s) (callFlags ml mods) b (i + z.1) = [] := by
          simpa [textPick, pick] using h0
        have := ways_part_nil (C := C) hb k1 (by omega) hi h0'
        rwa [text_codePoints] at this
      · refine List.eq_nil_iff_forall_not_mem.2 fun τ hτ => ?_
        have e1 := textWays_bound (by rw [codePoints_length, hl']; exact hi) hτ
        have e2 := body_lt (σ := MState.start i (callFlags ml mods)) hc (by rw [codePoints_length, hl']; exact hi) hτ
        rw [codePoints_length, hl'] at e1
        simp only [MState.start] at e2
        omega
    obtain ⟨c, g1, g2⟩ := C83_search (C := C) (n := n) hb.steadfast (.inl (body_unanchored_placed b hbeg)) (codePoints_isCh hs') (by rw [codePoints_length, hl']; omega)
    refine ⟨c.mapPos φ', ?_, ?_⟩
    · rw [hb.steadfast.call_eq hl ht hx' hs' hf']
      simp only [Method.plain, Answer.mapPos]
      rw [g1]; rfl
    · rcases g2 with ⟨_, q, τ, rest, e1, e2, _⟩ | ⟨e, _⟩
      · rw [codePoints_length, hl'] at e1
        rw [none q e1] at e2; cases e2
      · exact e

/-! ### Cases -/

/-- `(a|bc)\1d?` -/
def sampleAgain : Body := .alt (.one (
  .cons (.cap 1 (.alt (.bar (.one (.ch (.plain 97)) .none) (.one (.cons (.ch (.plain 98)) .none (.one (.ch (.plain 99)) .none)))))) .none
  (.cons (.ref 49) .none
  (.one (.ch (.plain 100)) (.opt .greedy)))))

def sampleAgainText : List Nat := [40, 97, 124, 98, 99, 41, 92, 49, 100, 63]

theorem sampleAgain_orderly : Orderly (PropTable.find {}) sampleAgainText sampleAgain where
  reading := by
    refine ⟨?_, rfl⟩
    simp [sampleAgain, Body.WF, Alt.WF, Cat.WF, Atom.WF, Char1.WF, special, Quant.WF, Atom.groups, Cat.groups, Alt.groups, Body.groups, Atom.leadsName, Cat.leadsName, Body.leadsName, Alt.leadsName]
  faithful := by
    simp [sampleAgain, Body.Faithful, Alt.Faithful, Cat.Faithful, Atom.Faithful, Quant.Faithful, Char1.Faithful, possessiveItem,
      Atom.possessive, Cat.leadsPossessive, Quant.kind]
  size := by decide +kernel
  inOrder := by decide +kernel
  selfFree := by simp [sampleAgain, Body.selfFree, Alt.selfFree, Cat.selfFree, Atom.selfFree]
  known := by decide +kernel
  attentive := by decide +kernel

theorem sampleAgain_confined : Confined (PropTable.find {}) sampleAgainText sampleAgain (callFlags false []) :=
  ⟨⟨sampleAgain_orderly, ⟨false, by decide, by decide +kernel⟩, rfl, rfl⟩, by decide +kernel, by decide +kernel, by decide +kernel⟩

example : sampleAgain.unanchored false = true ∧ sampleAgain.consumes = true := by decide +kernel

-- in "xbcbcdy" the text "bcbcd" is found, with the group "bc"; matched again, the group is "bc" as well
example : ∃ r, build {} sampleAgainText = .pattern r ∧ cSearch {} 60 [120, 98, 99, 98, 99, 100, 121] (callFlags false []) r =
      .done { whole := ⟨some 1, some 6, true⟩, groups := [{ id := 1, slot := ⟨some 1, some 3, true⟩ }] } ∧
    cMatch {} 60 [98, 99, 98, 99, 100] (callFlags false []) r =
      .done { whole := ⟨some 0, some 5, true⟩, groups := [{ id := 1, slot := ⟨some 0, some 2, true⟩ }] } :=
  ⟨_, rfl, by decide +kernel⟩

/-! ### The conditions are needed -/

/-- `a(?=b)` -/
def sampleAhead84 : Body := .alt (.one (.cons (.ch (.plain 97)) .none (.one (.ahead true (.alt (.one (.one (.ch (.plain 98)) .none)))) .none)))

theorem sampleAhead84_orderly : Orderly (PropTable.find {}) [97, 40, 63, 61, 98, 41] sampleAhead84 where
  reading := by
    refine ⟨?_, rfl⟩
    simp [sampleAhead84, Body.WF, Alt.WF, Cat.WF, Atom.WF, Char1.WF, special, Quant.WF, Atom.groups, Cat.groups, Alt.groups, Body.groups]
  faithful := by
    simp [sampleAhead84, Body.Faithful, Alt.Faithful, Cat.Faithful, Atom.Faithful, Quant.Faithful, Char1.Faithful, possessiveItem,
      Atom.possessive, Cat.leadsPossessive, Quant.kind]
  size := by decide +kernel
  inOrder := by decide +kernel
  selfFree := by simp [sampleAhead84, Body.selfFree, Alt.selfFree, Cat.selfFree, Atom.selfFree]
  known := by decide +kernel
  attentive := by decide +kernel

theorem sampleAhead84_steadfast : Steadfast (PropTable.find {}) [97, 40, 63, 61, 98, 41] sampleAhead84 (callFlags false []) :=
  ⟨sampleAhead84_orderly, ⟨false, by decide, by decide +kernel⟩, rfl, rfl⟩

/-- Without `within`: `a(?=b)` finds "a" in "ab", but does not match "a". -/
theorem C84_fails_lookahead : (sampleAhead84.firm = true ∧ sampleAhead84.loose = true ∧ sampleAhead84.within = false) ∧
    ∃ r, build {} [97, 40, 63, 61, 98, 41] = .pattern r ∧ cSearch {} 60 [97, 98] (callFlags false []) r = .done { whole := ⟨some 0, some 1, true⟩ } ∧
      cMatch {} 60 [97] (callFlags false []) r = .done {} :=
  ⟨by decide +kernel, _, rfl, by decide +kernel⟩

/-- `(?>(?>aab|a)a|a)a` -/
def sampleAtomic84 : Body := .alt (.one (.cons (.atomic (.alt (.bar (.cons (.atomic (.alt (.bar (.cons (.ch (.plain 97)) .none (.cons (.ch (.plain 97)) .none (.one (.ch (.plain 98)) .none))) (.one (.one (.ch (.plain 97)) .none))))) .none (.one (.ch (.plain 97)) .none)) (.one (.one (.ch (.plain 97)) .none))))) .none (.one (.ch (.plain 97)) .none)))

theorem sampleAtomic84_orderly : Orderly (PropTable.find {}) [40, 63, 62, 40, 63, 62, 97, 97, 98, 124, 97, 41, 97, 124, 97, 41, 97] sampleAtomic84 where
  reading := by
    refine ⟨?_, rfl⟩
    simp [sampleAtomic84, Body.WF, Alt.WF, Cat.WF, Atom.WF, Char1.WF, special, Quant.WF, Atom.groups, Cat.groups, Alt.groups, Body.groups]
  faithful := by
    simp [sampleAtomic84, Body.Faithful, Alt.Faithful, Cat.Faithful, Atom.Faithful, Quant.Faithful, Char1.Faithful, possessiveItem,
      Atom.possessive, Cat.leadsPossessive, Quant.kind]
  size := by decide +kernel
  inOrder := by decide +kernel
  selfFree := by simp [sampleAtomic84, Body.selfFree, Alt.selfFree, Cat.selfFree, Atom.selfFree]
  known := by decide +kernel
  attentive := by decide +kernel

theorem sampleAtomic84_steadfast : Steadfast (PropTable.find {}) [40, 63, 62, 40, 63, 62, 97, 97, 98, 124, 97, 41, 97, 124, 97, 41, 97] sampleAtomic84 (callFlags false []) :=
  ⟨sampleAtomic84_orderly, ⟨false, by decide, by decide +kernel⟩, rfl, rfl⟩

/-- Without `loose`: `(?>(?>aab|a)a|a)a` finds "aa" in "aabx", but does not match "aa". -/
theorem C84_fails_atomic : (sampleAtomic84.firm = true ∧ sampleAtomic84.loose = false ∧ sampleAtomic84.within = true) ∧
    ∃ r, build {} [40, 63, 62, 40, 63, 62, 97, 97, 98, 124, 97, 41, 97, 124, 97, 41, 97] = .pattern r ∧ cSearch {} 60 [97, 97, 98, 120] (callFlags false []) r = .done { whole := ⟨some 0, some 2, true⟩ } ∧
      cMatch {} 60 [97, 97] (callFlags false []) r = .done {} :=
  ⟨by decide +kernel, _, rfl, by decide +kernel⟩

/-- `(?:aba|(a))*a?b` -/
def sampleChoice84 : Body := .alt (.one (.cons (.group (.alt (.bar (.cons (.ch (.plain 97)) .none (.cons (.ch (.plain 98)) .none (.one (.ch (.plain 97)) .none))) (.one (.one (.cap 1 (.alt (.one (.one (.ch (.plain 97)) .none)))) .none))))) (.star .greedy) (.cons (.ch (.plain 97)) (.opt .greedy) (.one (.ch (.plain 98)) .none))))

theorem sampleChoice84_orderly : Orderly (PropTable.find {}) [40, 63, 58, 97, 98, 97, 124, 40, 97, 41, 41, 42, 97, 63, 98] sampleChoice84 where
  reading := by
    refine ⟨?_, rfl⟩
    simp [sampleChoice84, Body.WF, Alt.WF, Cat.WF, Atom.WF, Char1.WF, special, Quant.WF, Atom.groups, Cat.groups, Alt.groups, Body.groups]
  faithful := by
    simp [sampleChoice84, Body.Faithful, Alt.Faithful, Cat.Faithful, Atom.Faithful, Quant.Faithful, Char1.Faithful, possessiveItem,
      Atom.possessive, Cat.leadsPossessive, Quant.kind]
  size := by decide +kernel
  inOrder := by decide +kernel
  selfFree := by simp [sampleChoice84, Body.selfFree, Alt.selfFree, Cat.selfFree, Atom.selfFree]
  known := by decide +kernel
  attentive := by decide +kernel

theorem sampleChoice84_steadfast : Steadfast (PropTable.find {}) [40, 63, 58, 97, 98, 97, 124, 40, 97, 41, 41, 42, 97, 63, 98] sampleChoice84 (callFlags false []) :=
  ⟨sampleChoice84_orderly, ⟨false, by decide, by decide +kernel⟩, rfl, rfl⟩

/-- Without `firm`: `(?:aba|(a))*a?b` finds "ab" in "abax" and the group is not matched, but it is if "ab" is matched again. -/
theorem C84_fails_choice : (sampleChoice84.firm = false ∧ sampleChoice84.loose = true ∧ sampleChoice84.within = true) ∧
    ∃ r, build {} [40, 63, 58, 97, 98, 97, 124, 40, 97, 41, 41, 42, 97, 63, 98] = .pattern r ∧ cSearch {} 60 [97, 98, 97, 120] (callFlags false []) r = .done { whole := ⟨some 0, some 2, true⟩, groups := [{ id := 1 }] } ∧
      cMatch {} 60 [97, 98] (callFlags false []) r = .done { whole := ⟨some 0, some 2, true⟩, groups := [{ id := 1, slot := ⟨some 0, some 1, true⟩ }] } :=
  ⟨by decide +kernel, _, rfl, by decide +kernel⟩

end Ctre
