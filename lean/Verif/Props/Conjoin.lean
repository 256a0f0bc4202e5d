import Verif.Spec.Conjoin
import Verif.Lemmas.Conjoin
import Verif.Props.Anchoring

/-
C95: `(?=P)(?:Q)` is P and Q, `(?!P)(?:Q)` is Q and not P.
-/
namespace Ctre
open Parse Surface

variable {P : PropTable} {C : Cfg} {n : Nat} {ml : Bool} {mods : List Mode} {lit litp litq : PatLit} {x : Subject}
  {tp tq s : List Nat} {φ : Nat → Nat} {r : Re} {p q : Body} {f : Flags} {pos : Bool}

/-- C95: the text can be written for all patterns P and Q, if P has no groups, and is accepted. -/
theorem C95_accepted (hp : Reading P.find tp p) (hq : Reading P.find tq q) (hg : p.groups = 0) (pos : Bool) :
    Reading P.find (guardedText pos tp tq) (guarded pos p q) := by
  obtain ⟨hp, rfl⟩ := hp
  obtain ⟨hq, rfl⟩ := hq
  constructor
  · simp [guarded, Body.WF, Alt.WF, Cat.WF, Atom.WF, Quant.WF, Atom.groups, hg, hp, hq]
  · cases pos <;> simp [guarded, guardedText, Body.print, Alt.print, Cat.print, Atom.print, Quant.print]

theorem guarded_visible (hg : p.groups = 0) : (guarded pos p q).visible = q.visible := by
  simp [guarded, Body.visible, Alt.visible, Cat.visible, Atom.visible, body_visible0 p hg]

/-- The conditions of C83 for the whole are conditions for the parts. -/
theorem guarded_parts (hp : Reading P.find tp p) (hq : Reading P.find tq q) (hg : p.groups = 0) (hn : p.refers = false)
    (hb : Steadfast P.find (guardedText pos tp tq) (guarded pos p q) f) : Steadfast P.find tp p f ∧ Steadfast P.find tq q f := by
  obtain ⟨⟨-, h1, h2, h3, h4, h5, h6⟩, ⟨mlx, h7, h8⟩, h9, h10⟩ := hb
  rw [guarded_visible hg] at h4 h5
  simp only [guarded, Body.Faithful, Alt.Faithful, Cat.Faithful, Atom.Faithful, Quant.Faithful] at h1
  simp only [guarded, Body.size, Alt.size, Cat.size, Atom.size, Quant.size] at h2
  simp only [guarded, Body.inOrder, Alt.inOrder, Cat.inOrder, Atom.inOrder, Bool.and_eq_true] at h3
  simp only [guarded, Body.selfFree, Alt.selfFree, Cat.selfFree, Atom.selfFree] at h4
  simp only [guarded, Body.known, Alt.known, Cat.known, Atom.known, Bool.and_eq_true] at h5
  simp only [guarded, Body.attentive, Alt.attentive, Cat.attentive, Atom.attentive, Bool.and_eq_true] at h6
  simp only [guarded, Body.robust, Alt.robust, Cat.robust, Atom.robust, Bool.and_eq_true] at h8
  simp only [guarded, Body.caseSafe, Body.ignores, Alt.ignores, Cat.ignores, Atom.ignores, Body.written, Alt.written, Cat.written,
    Atom.written, Bool.or_eq_true, Bool.and_eq_true, Bool.not_eq_true', Bool.or_eq_false_iff] at h10
  refine ⟨⟨⟨hp, by tauto, by omega, by tauto, body_selfFree0 _ p hn, body_known0 _ p hg hn, by tauto⟩, ⟨mlx, h7, by tauto⟩, h9, ?_⟩,
    ⟨⟨hq, by tauto, by omega, by tauto, by tauto, by tauto, by tauto⟩, ⟨mlx, h7, by tauto⟩, h9, ?_⟩⟩
  · simp only [Body.caseSafe, Bool.or_eq_true, Bool.and_eq_true, Bool.not_eq_true']; tauto
  · simp only [Body.caseSafe, Bool.or_eq_true, Bool.and_eq_true, Bool.not_eq_true']; tauto

/-- The ways of the whole: those of Q, if there is one of P or, for `(?!`, none. -/
theorem guarded_textWays (hg : p.groups = 0) (hn : p.refers = false) (C : Cfg) (s : List Ch) (f : Flags) (i : Nat) :
    textWays C s f (guarded pos p q) i = if (textWays C s f p i).isEmpty = pos then [] else textWays C s f q i := by
  have he : (guarded pos p q).env C = q.env C := by simp only [Body.env, guarded_visible hg]
  unfold textWays
  rw [he, guarded_ways hg, body_env (E := q.env C) (E' := p.env C) rfl p hn]

theorem guarded_full (hg : p.groups = 0) (hn : p.refers = false) (C : Cfg) (s : List Ch) (f : Flags) (i : Nat) :
    textWaysFull C s f (guarded pos p q) i = if (textWays C s f p i).isEmpty = pos then [] else textWaysFull C s f q i := by
  unfold textWaysFull
  rw [guarded_textWays hg hn]
  split <;> rfl

/-- What a call with `(?=P)(?:Q)` or `(?!P)(?:Q)` reports, from what is reported with P and with Q: the result of Q if P has matched or,
for `(?!`, has not, and otherwise failure. -/
def Combines (pos : Bool) (y yp yq : Caps) : Prop := if yp.whole.matched = pos then SameReport y yq else y.whole.matched = false

theorem reportsFirst_empty {c : Caps} {i : Nat} {L : List MState} (h : ReportsFirst c i L) : L.isEmpty = !c.whole.matched := by
  cases L with
  | nil => rw [show c.whole.matched = false from h]; rfl
  | cons _ _ => rw [h.1]; rfl

theorem combines_of {c cp cq : Caps} {i : Nat} {L Lp Lq : List MState} (hs : shape c.groups = shape cq.groups)
    (hL : L = if Lp.isEmpty = pos then [] else Lq) (h : ReportsFirst c i L) (hp : ReportsFirst cp i Lp) (hq : ReportsFirst cq i Lq) :
    Combines pos c cp cq := by
  rw [reportsFirst_empty hp] at hL
  unfold Combines
  split
  · rename_i e
    rw [if_neg (by rw [e]; cases pos <;> simp)] at hL
    exact sameReport_first hs (hL ▸ FirstSame.refl _) h hq
  · rename_i e
    rw [if_pos (by cases h : cp.whole.matched <;> cases pos <;> simp_all)] at hL
    subst hL
    exact h

theorem SameReport.mapPos {c c' : Caps} (h : SameReport c c') (φ : Nat → Nat) : SameReport (c.mapPos φ) (c'.mapPos φ) := by
  obtain ⟨h1, h2, h3⟩ := h
  refine ⟨h1, ?_, fun hm id => ?_⟩
  · simpa [Caps.mapPos, Function.comp_def, Group.mapPos] using h2
  · have := h3 hm id
    rw [get_mapPos, get_mapPos]
    revert this
    cases c.get id <;> cases c'.get id <;> simp only [SameSlot, Option.map_none, Option.map_some, imp_self]
    rename_i u v
    intro k
    refine ⟨k.1, fun e => ?_⟩
    rw [k.2 e]

theorem Combines.mapPos {y yp yq : Caps} (h : Combines pos y yp yq) (φ : Nat → Nat) : Combines pos (y.mapPos φ) (yp.mapPos φ) (yq.mapPos φ) := by
  revert h
  unfold Combines
  show (if yp.whole.matched = pos then SameReport y yq else y.whole.matched = false) →
    if yp.whole.matched = pos then SameReport (y.mapPos φ) (yq.mapPos φ) else y.whole.matched = false
  split
  · exact fun h => h.mapPos φ
  · exact id

/-- C95 on sequences of code points, in every build: from every position, the whole combines P, matched from there, and Q. -/
theorem C95_match (hp : Reading P.find tp p) (hq : Reading P.find tq q) (hg : p.groups = 0) (hn : p.refers = false)
    (hb : Steadfast P.find (guardedText pos tp tq) (guarded pos p q) f) {s : List Ch} (hs : ∀ v ∈ s, IsCh v) {i : Nat} (hi : i ≤ s.length) :
    ∃ N, ∀ n, N ≤ n → ∃ c d cp cq dq, matchAt C n s f (bodyTree (guarded pos p q)) i = .done c ∧
      startsWithAt C n s f (bodyTree (guarded pos p q)) i = .done d ∧ startsWithAt C n s f (bodyTree p) i = .done cp ∧
      matchAt C n s f (bodyTree q) i = .done cq ∧ startsWithAt C n s f (bodyTree q) i = .done dq ∧
      Combines pos c cp cq ∧ Combines pos d cp dq := by
  obtain ⟨bp, bq⟩ := guarded_parts hp hq hg hn hb
  refine ⟨(bodyTree (guarded pos p q)).weight + (bodyTree p).weight + (bodyTree q).weight + s.length + 7, fun n hN => ?_⟩
  obtain ⟨⟨c, h1, h2⟩, ⟨d, h3, h4⟩⟩ := C83_match (C := C) (n := n) hb hs hi (by omega)
  obtain ⟨-, ⟨cp, h5, h6⟩⟩ := C83_match (C := C) (n := n) bp hs hi (by omega)
  obtain ⟨⟨cq, h7, h8⟩, ⟨dq, h9, h10⟩⟩ := C83_match (C := C) (n := n) bq hs hi (by omega)
  have hv := orderly_shape bq.orderly hb.orderly (guarded_visible hg)
  refine ⟨c, d, cp, cq, dq, h1, h3, h5, h7, h9, combines_of ?_ (guarded_full hg hn C s f i) h2 h6 h8,
    combines_of ?_ (guarded_textWays hg hn C s f i) h4 h6 h10⟩
  · rw [shape_match hb.orderly.numbered hi h1, shape_match bq.orderly.numbered hi h7, hv]
  · rw [shape_startsWith hb.orderly.numbered hi h3, shape_startsWith bq.orderly.numbered hi h9, hv]

/-- C95 on sequences of code points for `search`, in every build: what is reported is the result of Q from the first position from which Q
matches, and P does or, for `(?!`, does not; it fails if there is no such position. -/
theorem C95_search (hp : Reading P.find tp p) (hq : Reading P.find tq q) (hg : p.groups = 0) (hn : p.refers = false)
    (hb : Steadfast P.find (guardedText pos tp tq) (guarded pos p q) f) (hbeg : q.placed f.ml = true) {s : List Ch} (hs : ∀ v ∈ s, IsCh v) :
    ∃ N, ∀ n, N ≤ n → ∃ c, ∃ at1 at2 : Nat → Caps, cSearch C n s f (bodyTree (guarded pos p q)) = .done c ∧
      (∀ i, i ≤ s.length → startsWithAt C n s f (bodyTree p) i = .done (at1 i) ∧ startsWithAt C n s f (bodyTree q) i = .done (at2 i)) ∧
      ((∃ i, i ≤ s.length ∧ (at1 i).whole.matched = pos ∧ (at2 i).whole.matched = true ∧ SameReport c (at2 i) ∧
          ∀ j, j < i → ¬ ((at1 j).whole.matched = pos ∧ (at2 j).whole.matched = true)) ∨
        (c.whole.matched = false ∧ ∀ j, j ≤ s.length → ¬ ((at1 j).whole.matched = pos ∧ (at2 j).whole.matched = true))) := by
  obtain ⟨bp, bq⟩ := guarded_parts hp hq hg hn hb
  refine ⟨(bodyTree (guarded pos p q)).weight + (bodyTree p).weight + (bodyTree q).weight + s.length + 7, fun n hN => ?_⟩
  obtain ⟨c, h1, h2⟩ := C83_search (C := C) (n := n) hb (.inl (by
    simpa [guarded, Body.placed, Alt.placed, Cat.placed, Atom.placed, Quant.low] using hbeg)) hs (by omega)
  have key : ∀ i, ∃ cp cq, i ≤ s.length → startsWithAt C n s f (bodyTree p) i = .done cp ∧ startsWithAt C n s f (bodyTree q) i = .done cq ∧
      ReportsFirst cp i (textWays C s f p i) ∧ ReportsFirst cq i (textWays C s f q i) := by
    intro i
    by_cases hi : i ≤ s.length
    · obtain ⟨-, ⟨cp, h5, h6⟩⟩ := C83_match (C := C) (n := n) bp hs hi (by omega)
      obtain ⟨-, ⟨cq, h7, h8⟩⟩ := C83_match (C := C) (n := n) bq hs hi (by omega)
      exact ⟨cp, cq, fun _ => ⟨h5, h7, h6, h8⟩⟩
    · exact ⟨c, c, fun h => (hi h).elim⟩
  choose at1 at2 hat using key
  have hv := orderly_shape bq.orderly hb.orderly (guarded_visible hg)
  have hw : ∀ i, i ≤ s.length → (textWays C s f (guarded pos p q) i = [] ↔ ¬ ((at1 i).whole.matched = pos ∧ (at2 i).whole.matched = true)) := by
    intro i hi
    obtain ⟨-, -, k1, k2⟩ := hat i hi
    rw [guarded_textWays hg hn, reportsFirst_empty k1, ← List.isEmpty_iff]
    have := reportsFirst_empty k2
    split <;> rename_i e
    · cases h : (at1 i).whole.matched <;> cases pos <;> simp_all
    · rw [this]
      cases h : (at1 i).whole.matched <;> cases pos <;> simp_all
  refine ⟨c, at1, at2, h1, fun i hi => ⟨(hat i hi).1, (hat i hi).2.1⟩, ?_⟩
  rcases h2 with ⟨k1, i, τ, rest, k2, k3, k4, k5⟩ | ⟨k1, k2⟩
  · left
    have hm : (at1 i).whole.matched = pos ∧ (at2 i).whole.matched = true := by
      by_contra h
      rw [(hw i k2).2 h] at k3
      simp at k3
    refine ⟨i, k2, hm.1, hm.2, ?_, fun j hj => (hw j (by omega)).1 (k5 j hj)⟩
    obtain ⟨e1, e2, k6, k7⟩ := hat i k2
    have hs' : shape c.groups = shape (at2 i).groups := by
      rw [shape_search hb.orderly.numbered h1, shape_startsWith bq.orderly.numbered k2 e2, hv]
    have := combines_of (c := c) hs' (guarded_textWays hg hn C s f i) (by rw [k3]; exact ⟨k1, k4⟩) k6 k7
    unfold Combines at this
    rwa [if_pos hm.1] at this
  · exact .inr ⟨k1, fun j hj => (hw j hj).1 (k2 j hj)⟩

theorem guardedText_scalar (hp : ∀ c ∈ tp, IsScalar c) (hq : ∀ c ∈ tq, IsScalar c) : ∀ c ∈ guardedText pos tp tq, IsScalar c := by
  simp only [guardedText, List.mem_append, List.mem_cons, List.not_mem_nil, or_false]
  rintro c ((((h | h) | h) | h) | h)
  · rcases h with rfl | rfl | rfl
    · decide
    · decide
    · cases pos <;> decide
  · exact hp c h
  · rcases h with rfl | rfl | rfl | rfl <;> decide
  · exact hq c h
  · subst h; decide

/-- C95, the whole calls, in every build: `match` and `starts_with` with `(?=P)(?:Q)` or `(?!P)(?:Q)` combine `starts_with` of P with the same
call of Q, whatever kind of literal the patterns are written in and however the subject is represented. -/
theorem C95_calls (hp : Reading P.find tp p) (hq : Reading P.find tq q) (hg : p.groups = 0) (hn : p.refers = false)
    (hb : Steadfast P.find (guardedText pos tp tq) (guarded pos p q) (callFlags ml mods))
    (hl : lit.Spells (guardedText pos tp tq)) (hlp : litp.Spells tp) (hlq : litq.Spells tq) (htp : ∀ c ∈ tp, IsScalar c) (htq : ∀ c ∈ tq, IsScalar c)
    (hx : x.Holds s φ) (hs : ∀ c ∈ s, IsScalar c) (hf : (∃ u, x = .u8 u) → p.forward = true ∧ q.forward = true) : ∃ N, ∀ n, N ≤ n →
      ∃ y z yp yq zq, call P C n ml .match_ mods lit x = some (.one (.done y)) ∧ call P C n ml .startsWith mods lit x = some (.one (.done z)) ∧
        call P C n ml .startsWith mods litp x = some (.one (.done yp)) ∧ call P C n ml .match_ mods litq x = some (.one (.done yq)) ∧
        call P C n ml .startsWith mods litq x = some (.one (.done zq)) ∧ Combines pos y yp yq ∧ Combines pos z yp zq := by
  obtain ⟨bp, bq⟩ := guarded_parts hp hq hg hn hb
  obtain ⟨N, h⟩ := C95_match (C := C) hp hq hg hn hb (codePoints_isCh hs) (Nat.zero_le _)
  refine ⟨N, fun n hN => ?_⟩
  obtain ⟨c, d, cp, cq, dq, h1, h2, h3, h4, h5, h6, h7⟩ := h n hN
  have hf' : (∃ u, x = .u8 u) → (guarded pos p q).forward = true := fun h => by
    simp [guarded, Body.forward, Alt.forward, Cat.forward, Atom.forward, hf h]
  refine ⟨c.mapPos φ, d.mapPos φ, cp.mapPos φ, cq.mapPos φ, dq.mapPos φ, ?_, ?_, ?_, ?_, ?_, h6.mapPos φ, h7.mapPos φ⟩
  · rw [hb.call_eq hl (guardedText_scalar htp htq) hx hs hf']
    simp only [Method.plain, Answer.mapPos]
    rw [cMatch, h1]; rfl
  · rw [hb.call_eq hl (guardedText_scalar htp htq) hx hs hf']
    simp only [Method.plain, Answer.mapPos]
    rw [cStartsWith, h2]; rfl
  · rw [bp.call_eq hlp htp hx hs fun h => (hf h).1]
    simp only [Method.plain, Answer.mapPos]
    rw [cStartsWith, h3]; rfl
  · rw [bq.call_eq hlq htq hx hs fun h => (hf h).2]
    simp only [Method.plain, Answer.mapPos]
    rw [cMatch, h4]; rfl
  · rw [bq.call_eq hlq htq hx hs fun h => (hf h).2]
    simp only [Method.plain, Answer.mapPos]
    rw [cStartsWith, h5]; rfl

/-! ### Whole subjects -/

theorem upToEnd_textWays (C : Cfg) (s : List Ch) (f : Flags) (p : Body) (i : Nat) :
    textWays C s f (upToEnd p) i = textWaysFull C s f p i := by
  have he : (upToEnd p).env C = p.env C := by
    simp [Body.env, upToEnd, Body.visible, Alt.visible, Cat.visible, Atom.visible]
  unfold textWaysFull textWays
  rw [he]
  simp only [upToEnd, Body.ways, Alt.ways, Cat.ways, Atom.ways, stayIf]
  generalize p.ways true (p.env C) s (MState.start i f) = L
  induction L with
  | nil => rfl
  | cons τ L ih =>
    rw [List.flatMap_cons, ih, List.filter_cons]
    by_cases h : τ.pos = s.length <;> simp [h]

theorem upToEnd_part {t : List Nat} (hp : Reading P.find t p) (hg : p.groups = 0) (hn : p.refers = false)
    (hb : Steadfast P.find ([40, 63, 58] ++ t ++ [41, 92, 122]) (upToEnd p) f) : Steadfast P.find t p f := by
  obtain ⟨⟨-, h1, h2, h3, -, -, h6⟩, ⟨mlx, h7, h8⟩, h9, h10⟩ := hb
  simp only [upToEnd, Body.Faithful, Alt.Faithful, Cat.Faithful, Atom.Faithful, Quant.Faithful] at h1
  simp only [upToEnd, Body.size, Alt.size, Cat.size, Atom.size, Quant.size] at h2
  simp only [upToEnd, Body.inOrder, Alt.inOrder, Cat.inOrder, Atom.inOrder, Bool.and_eq_true] at h3
  simp only [upToEnd, Body.attentive, Alt.attentive, Cat.attentive, Atom.attentive, Bool.and_eq_true] at h6
  simp [upToEnd, Body.robust, Alt.robust, Cat.robust, Atom.robust, Cat.moves, Cat.tests, Cat.scans, Atom.moves, Atom.tests, Atom.scans, itemMoves,
    itemTests] at h8
  simp [upToEnd, Body.caseSafe, Body.ignores, Alt.ignores, Cat.ignores, Atom.ignores, Body.written, Alt.written, Cat.written, Atom.written] at h10
  exact ⟨⟨hp, by tauto, by omega, by tauto, body_selfFree0 _ p hn, body_known0 _ p hg hn, by tauto⟩, ⟨mlx, h7, h8⟩, h9,
    by simpa [Body.caseSafe] using h10⟩

theorem guarded_upToEnd_parts {t : List Nat} (hp : Reading P.find t p) (hq : Reading P.find tq q) (hg : p.groups = 0) (hn : p.refers = false)
    (hb : Steadfast P.find (guardedText pos ([40, 63, 58] ++ t ++ [41, 92, 122]) tq) (guarded pos (upToEnd p) q) f) :
    Steadfast P.find t p f ∧ Steadfast P.find tq q f :=
  have h := guarded_parts (C92_accepted hp).1 hq (by simpa [upToEnd, Body.groups, Alt.groups, Cat.groups, Atom.groups] using hg)
    (by simpa [upToEnd, Body.refers, Alt.refers, Cat.refers, Atom.refers] using hn) hb
  ⟨upToEnd_part hp hg hn h.1, h.2⟩

/-- C95, the whole calls, in every build: `match` with `(?=(?:P)\z)(?:Q)` succeeds exactly if `match` with P and `match` with Q do, and `match`
with `(?!(?:P)\z)(?:Q)` exactly if `match` with Q does and `match` with P does not; what is reported is what is reported with Q. -/
theorem C95_whole {t : List Nat} (hp : Reading P.find t p) (hq : Reading P.find tq q) (hg : p.groups = 0) (hn : p.refers = false)
    (hb : Steadfast P.find (guardedText pos ([40, 63, 58] ++ t ++ [41, 92, 122]) tq) (guarded pos (upToEnd p) q) (callFlags ml mods))
    (hl : lit.Spells (guardedText pos ([40, 63, 58] ++ t ++ [41, 92, 122]) tq)) (hlp : litp.Spells t) (hlq : litq.Spells tq)
    (htp : ∀ c ∈ t, IsScalar c) (htq : ∀ c ∈ tq, IsScalar c)
    (hx : x.Holds s φ) (hs : ∀ c ∈ s, IsScalar c) (hf : (∃ u, x = .u8 u) → p.forward = true ∧ q.forward = true) : ∃ N, ∀ n, N ≤ n →
      ∃ y yp yq, call P C n ml .match_ mods lit x = some (.one (.done y)) ∧ call P C n ml .match_ mods litp x = some (.one (.done yp)) ∧
        call P C n ml .match_ mods litq x = some (.one (.done yq)) ∧ Combines pos y yp yq := by
  obtain ⟨bp, bq⟩ := guarded_upToEnd_parts hp hq hg hn hb
  have hg' : (upToEnd p).groups = 0 := by simpa [upToEnd, Body.groups, Alt.groups, Cat.groups, Atom.groups] using hg
  have hn' : (upToEnd p).refers = false := by simpa [upToEnd, Body.refers, Alt.refers, Cat.refers, Atom.refers] using hn
  have ht' : ∀ c ∈ [40, 63, 58] ++ t ++ [41, 92, 122], IsScalar c := by
    simp only [List.mem_append, List.mem_cons, List.not_mem_nil, or_false]
    rintro c ((h | h) | h)
    · rcases h with rfl | rfl | rfl <;> decide
    · exact htp c h
    · rcases h with rfl | rfl | rfl <;> decide
  have hf' : (∃ u, x = .u8 u) → (guarded pos (upToEnd p) q).forward = true := fun h => by
    simp [guarded, upToEnd, Body.forward, Alt.forward, Cat.forward, Atom.forward, hf h]
  refine ⟨(bodyTree (guarded pos (upToEnd p) q)).weight + (bodyTree p).weight + (bodyTree q).weight + (codePoints s).length + 7, fun n hN => ?_⟩
  obtain ⟨⟨c, h1, h2⟩, -⟩ := C83_match (C := C) (n := n) hb (codePoints_isCh hs) (Nat.zero_le _) (by omega)
  obtain ⟨⟨cp, h3, h4⟩, -⟩ := C83_match (C := C) (n := n) bp (codePoints_isCh hs) (Nat.zero_le _) (by omega)
  obtain ⟨⟨cq, h5, h6⟩, -⟩ := C83_match (C := C) (n := n) bq (codePoints_isCh hs) (Nat.zero_le _) (by omega)
  have hv := orderly_shape bq.orderly hb.orderly (guarded_visible hg')
  have e := guarded_full (pos := pos) (q := q) hg' hn' C (codePoints s) (callFlags ml mods) 0
  rw [upToEnd_textWays] at e
  refine ⟨c.mapPos φ, cp.mapPos φ, cq.mapPos φ, ?_, ?_, ?_, (combines_of ?_ e h2 h4 h6).mapPos φ⟩
  · rw [hb.call_eq hl (guardedText_scalar ht' htq) hx hs hf']
    simp only [Method.plain, Answer.mapPos]
    rw [cMatch, h1]; rfl
  · rw [bp.call_eq hlp htp hx hs fun h => (hf h).1]
    simp only [Method.plain, Answer.mapPos]
    rw [cMatch, h3]; rfl
  · rw [bq.call_eq hlq htq hx hs fun h => (hf h).2]
    simp only [Method.plain, Answer.mapPos]
    rw [cMatch, h5]; rfl
  · rw [shape_match hb.orderly.numbered (Nat.zero_le _) h1, shape_match bq.orderly.numbered (Nat.zero_le _) h5, hv]

/-- `[^]*` -/
def everything : Body := .alt (.one (.one anyCharacter (.star .greedy)))

theorem everything_full (C : Cfg) (s : List Ch) (f : Flags) {i : Nat} (hi : i ≤ s.length) : textWaysFull C s f everything i ≠ [] := by
  unfold textWaysFull textWays
  simp only [everything, Body.ways, Alt.ways, Cat.ways, Quant.ways, Quant.kind, Quant.low, Quant.extra, times, List.flatMap_cons, List.flatMap_nil,
    List.append_nil]
  rw [rest_ways _ _ (by omega) (by simpa [MState.start] using hi)]
  simp

/-- C95, the whole calls, in every build: `match` with `(?!(?:P)\z)(?:[^]*)` succeeds exactly if `match` with P fails. -/
theorem C95_complement {t : List Nat} (hp : Reading P.find t p) (hg : p.groups = 0) (hn : p.refers = false)
    (hb : Steadfast P.find (guardedText false ([40, 63, 58] ++ t ++ [41, 92, 122]) [91, 94, 93, 42]) (guarded false (upToEnd p) everything)
      (callFlags ml mods))
    (hl : lit.Spells (guardedText false ([40, 63, 58] ++ t ++ [41, 92, 122]) [91, 94, 93, 42])) (hlp : litp.Spells t) (htp : ∀ c ∈ t, IsScalar c)
    (hx : x.Holds s φ) (hs : ∀ c ∈ s, IsScalar c) (hf : (∃ u, x = .u8 u) → p.forward = true) : ∃ N, ∀ n, N ≤ n →
      ∃ y yp, call P C n ml .match_ mods lit x = some (.one (.done y)) ∧ call P C n ml .match_ mods litp x = some (.one (.done yp)) ∧
        y.whole.matched = !yp.whole.matched := by
  have hq : Reading P.find [91, 94, 93, 42] everything := by
    refine ⟨?_, rfl⟩
    simp [everything, anyCharacter, Body.WF, Alt.WF, Cat.WF, Atom.WF, Quant.WF, SetWF]
  obtain ⟨bp, bq⟩ := guarded_upToEnd_parts hp hq hg hn hb
  have hlq : (PatLit.utf32 [91, 94, 93, 42]).Spells [91, 94, 93, 42] := .utf32 _
  have htq : ∀ c ∈ [91, 94, 93, 42], IsScalar c := by decide
  obtain ⟨N, h⟩ := C95_whole (C := C) hp hq hg hn hb hl hlp hlq htp htq hx hs fun h => ⟨hf h, rfl⟩
  refine ⟨max N ((bodyTree everything).weight + (codePoints s).length + 7), fun n hN => ?_⟩
  obtain ⟨y, yp, yq, h1, h2, h3, h4⟩ := h n (by omega)
  refine ⟨y, yp, h1, h2, ?_⟩
  obtain ⟨⟨cq, h5, h6⟩, -⟩ := C83_match (C := C) (n := n) bq (codePoints_isCh hs) (Nat.zero_le _) (by omega)
  have hm : cq.whole.matched = true := by
    have := reportsFirst_empty h6
    cases e : cq.whole.matched with
    | true => rfl
    | false =>
      rw [e] at this
      exact absurd (List.isEmpty_iff.1 this) (everything_full _ _ _ (Nat.zero_le _))
  rw [bq.call_eq hlq htq hx hs fun _ => rfl] at h3
  simp only [Method.plain, Answer.mapPos] at h3
  rw [cMatch, h5] at h3
  simp only [Exec.mapPos, Option.some.injEq, Answer.one.injEq, Exec.done.injEq] at h3
  have hy : yq.whole.matched = true := by rw [← h3]; exact hm
  unfold Combines at h4
  split at h4
  · rename_i e
    rw [e, h4.matched, hy]; rfl
  · rename_i e
    rw [h4]; simp at e; rw [e]; rfl

/-! ### Cases -/

/-- `(?=(?:[a-z]*e)\z)(?:(a+|b)[^]*)`: the subject ends with e, consists of small letters, and begins with `a` or `b`; the group is what it begins
with. -/
def sampleWord : Body := .alt (.one (.cons (.set false [.range (.plain 97) (.plain 122)]) (.star .greedy) (.one (.ch (.plain 101)) .none)))

def sampleStart : Body := .alt (.one (.cons (.cap 1 (.alt (.bar (.one (.ch (.plain 97)) (.plus .greedy)) (.one (.one (.ch (.plain 98)) .none))))) .none
  (.one anyCharacter (.star .greedy))))

def sampleWordText : List Nat := [91, 97, 45, 122, 93, 42, 101]

def sampleStartText : List Nat := [40, 97, 43, 124, 98, 41, 91, 94, 93, 42]

theorem sampleWord_reading : Reading (PropTable.find {}) sampleWordText sampleWord :=
  ⟨by simp [sampleWord, Body.WF, Alt.WF, Cat.WF, Atom.WF, Char1.WF, special, specialInSet, Quant.WF, SetWF, SetItem.WF], rfl⟩

theorem sampleStart_reading : Reading (PropTable.find {}) sampleStartText sampleStart :=
  ⟨by simp [sampleStart, anyCharacter, Body.WF, Alt.WF, Cat.WF, Atom.WF, Char1.WF, special, Quant.WF, SetWF, Alt.leadsName,
    Cat.leadsName, Atom.leadsName], rfl⟩

theorem sampleGuarded_steadfast (pos : Bool) : Steadfast (PropTable.find {}) (guardedText pos ([40, 63, 58] ++ sampleWordText ++ [41, 92, 122]) sampleStartText)
    (guarded pos (upToEnd sampleWord) sampleStart) (callFlags false []) where
  orderly := {
    reading := C95_accepted (C92_accepted sampleWord_reading).1 sampleStart_reading rfl pos
    faithful := by
      simp [guarded, upToEnd, sampleWord, sampleStart, anyCharacter, Body.Faithful, Alt.Faithful, Cat.Faithful, Atom.Faithful, Quant.Faithful,
        Char1.Faithful, SetItem.Faithful, possessiveItem, Atom.possessive, Cat.leadsPossessive, Atom.leadsPossessive, Quant.kind]
    size := by cases pos <;> decide +kernel
    inOrder := by cases pos <;> decide +kernel
    selfFree := by simp [guarded, upToEnd, sampleWord, sampleStart, anyCharacter, Body.selfFree, Alt.selfFree, Cat.selfFree, Atom.selfFree]
    known := by cases pos <;> decide +kernel
    attentive := by cases pos <;> decide +kernel }
  robust := ⟨false, by decide, by cases pos <;> decide +kernel⟩
  blk := rfl
  ci := by cases pos <;> decide +kernel

example : sampleWord.groups = 0 ∧ sampleWord.refers = false ∧ sampleWord.forward = true ∧ sampleStart.forward = true ∧
    sampleStart.placed false = true := by decide +kernel

/-- "aae" has both properties, "aa1e" only the one and "cae" only the other. -/
example : ∃ r r', build {} (guardedText true ([40, 63, 58] ++ sampleWordText ++ [41, 92, 122]) sampleStartText) = .pattern r ∧
    build {} (guardedText false ([40, 63, 58] ++ sampleWordText ++ [41, 92, 122]) sampleStartText) = .pattern r' ∧
    (cMatch {} 200 [97, 97, 101] {} r).success = true ∧ (cMatch {} 200 [97, 97, 101] {} r').success = false ∧
    (cMatch {} 200 [97, 97, 49, 101] {} r).success = false ∧ (cMatch {} 200 [97, 97, 49, 101] {} r').success = true ∧
    (cMatch {} 200 [99, 97, 101] {} r).success = false ∧ (cMatch {} 200 [99, 97, 101] {} r').success = false :=
  ⟨_, _, rfl, rfl, by decide +kernel, by decide +kernel, by decide +kernel, by decide +kernel, by decide +kernel, by decide +kernel⟩

theorem sampleComplement_steadfast : Steadfast (PropTable.find {}) (guardedText false ([40, 63, 58] ++ sampleWordText ++ [41, 92, 122]) [91, 94, 93, 42])
    (guarded false (upToEnd sampleWord) everything) (callFlags false []) where
  orderly := {
    reading := C95_accepted (C92_accepted sampleWord_reading).1
      ⟨by simp [everything, anyCharacter, Body.WF, Alt.WF, Cat.WF, Atom.WF, Quant.WF, SetWF], rfl⟩ rfl false
    faithful := by
      simp [guarded, upToEnd, sampleWord, everything, anyCharacter, Body.Faithful, Alt.Faithful, Cat.Faithful, Atom.Faithful, Quant.Faithful,
        Char1.Faithful, SetItem.Faithful, possessiveItem, Atom.possessive, Cat.leadsPossessive, Atom.leadsPossessive, Quant.kind]
    size := by decide +kernel
    inOrder := by decide +kernel
    selfFree := by simp [guarded, upToEnd, sampleWord, everything, anyCharacter, Body.selfFree, Alt.selfFree, Cat.selfFree, Atom.selfFree]
    known := by decide +kernel
    attentive := by decide +kernel }
  robust := ⟨false, by decide, by decide +kernel⟩
  blk := rfl
  ci := by decide +kernel

/-- C95: the guard must not have groups: `(?=a)(?:(a)\1)` matches "aa", with the group in front of `(a)\1` the reference means that one. -/
theorem C95_fails_groups : ∃ r r' r'', build {} [40, 97, 41, 92, 49] = .pattern r ∧
    build {} (guardedText true [97] [40, 97, 41, 92, 49]) = .pattern r' ∧
    build {} (guardedText true [40, 97, 97, 41] [40, 97, 41, 92, 49]) = .pattern r'' ∧
    (cMatch {} 100 [97, 97] {} r).success = true ∧ (cMatch {} 100 [97, 97] {} r').success = true ∧ (cMatch {} 100 [97, 97] {} r'').success = false :=
  ⟨_, _, _, rfl, rfl, rfl, by decide +kernel, by decide +kernel, by decide +kernel⟩

end Ctre
