import Verif.Lemmas.Robust
import Verif.Props.TextCalls

/-
C83: calls of the default build, from the texts of the pattern and of the subject.
-/
namespace Ctre
open Parse Surface

variable {P : PropTable} {C : Cfg} {n : Nat} {ml : Bool} {m : Method} {mods : List Mode} {lit : PatLit} {x : Subject}
  {t s : List Nat} {φ : Nat → Nat} {r : Re} {b : Body} {f : Flags}

/-- The text is `Orderly` and the conditions of `Body.robust` hold for it in the modes `f`, which are the initial ones. -/
structure Steadfast (find : List Nat → Option (List Nat) → Option Nat) (t : List Nat) (b : Body) (f : Flags) : Prop where
  orderly : Orderly find t b
  robust : ∃ ml, (f.ml = true → ml = true) ∧ b.robust ml false false true = true
  blk : f.blk = false
  ci : b.caseSafe f.ci = true

theorem Steadfast.good (hb : Steadfast P.find t b f) :
    ∃ ml, (f.ml = true → ml = true) ∧ (bodyTree b).steady ml false false = true ∧ (bodyTree b).scannable true = true := by
  obtain ⟨ml, h1, h2⟩ := hb.robust
  have := body_robust b false false true hb.orderly.faithful hb.orderly.size h2
  exact ⟨ml, h1, this.1, this.2⟩

theorem Steadfast.build (hb : Steadfast P.find t b f) : build P t = .pattern (bodyTree b) :=
  hb.orderly.reading.2 ▸ build_print hb.orderly.reading.1

/-- C83 on sequences of code points: from every position `match` and `starts_with` report the first of the ways that are prescribed by the
text, whether greedy repetitions are optimised or not. -/
theorem C83_match (hb : Steadfast P.find t b f) {s : List Ch} (hs : ∀ v ∈ s, IsCh v) {p : Nat} (hp : p ≤ s.length)
    (hn : (bodyTree b).weight + s.length + 7 ≤ n) :
    (∃ c, matchAt C n s f (bodyTree b) p = .done c ∧ ReportsFirst c p (textWaysFull C s f b p)) ∧
    (∃ c, startsWithAt C n s f (bodyTree b) p = .done c ∧ ReportsFirst c p (textWays C s f b p)) := by
  obtain ⟨mlx, h1, h2, h3⟩ := hb.good
  exact C75_match_optimised hb.build hb.orderly (.inr h3) h2 hs hb.blk (body_caseSafe hb.orderly.faithful hb.ci) h1 hp hn

/-- C83 on sequences of code points, for `search`. -/
theorem C83_search (hb : Steadfast P.find t b f) (hbeg : b.placed f.ml = true ∨ b.begins f.ml = true) {s : List Ch}
    (hs : ∀ v ∈ s, IsCh v) (hn : (bodyTree b).weight + s.length + 7 ≤ n) :
    ∃ c, cSearch C n s f (bodyTree b) = .done c ∧
      ((c.whole.matched = true ∧ ∃ q τ rest, q ≤ s.length ∧ textWays C s f b q = τ :: rest ∧ Reports c q τ ∧
          ∀ i, i < q → textWays C s f b i = []) ∨
        (c.whole.matched = false ∧ ∀ i, i ≤ s.length → textWays C s f b i = [])) := by
  obtain ⟨mlx, h1, h2, h3⟩ := hb.good
  exact search_reports_optimised hb.build hb.orderly (.inr h3) h2 hs hb.blk (body_caseSafe hb.orderly.faithful hb.ci) h1
    (body_taken hb.orderly.faithful hb.orderly.size hbeg) hn

theorem Steadfast.attempts (hb : Steadfast P.find t b f) (hbeg : b.unanchored f.ml = true) (hc : b.consumes = true) {s : List Ch}
    (hs : ∀ v ∈ s, IsCh v) (hn : (bodyTree b).weight + s.length + 7 ≤ n) : Attempts C n s f (bodyTree b) (textWays C s f b) where
  numbered := (body_wellNumbered hb.orderly.reading.1 hb.orderly.faithful hb.orderly.selfFree).numbered
  free := unanchored_anchor f _ (body_unanchored b hbeg)
  each p hp := (C83_match hb hs hp hn).2
  full p hp τ hτ := by
    have := body_lt (σ := MState.start p f) hc hp hτ
    simp only [MState.start] at this
    omega

theorem Steadfast.call_eq (hb : Steadfast P.find t b f) (hl : lit.Spells t) (ht : ∀ c ∈ t, IsScalar c) (hx : x.Holds s φ)
    (hs : ∀ c ∈ s, IsScalar c) (hf : (∃ u, x = .u8 u) → b.forward = true) :
    call P C n ml m mods lit x = some ((m.plain C n (callFlags ml mods) (bodyTree b) (codePoints s)).mapPos φ) :=
  Ctre.call_eq hl ht hx hs hb.build fun h => body_forward b (hf h)

/-- What is reported, at the positions of the subject: from `p` the first of the ways, or failure if there is none. -/
def ReportsAt (φ : Nat → Nat) (y : Caps) (p : Nat) (L : List MState) : Prop := ∃ c, y = c.mapPos φ ∧ ReportsFirst c p L

/-- C83, the whole call: it compiles and returns, whatever kind of literal the pattern is written in and however the subject is
represented; `match` and `starts_with` report the first of the ways of matching that are prescribed by the text of the pattern. -/
theorem C83_calls (hb : Steadfast P.find t b (callFlags ml mods)) (hl : lit.Spells t) (ht : ∀ c ∈ t, IsScalar c) (hx : x.Holds s φ)
    (hs : ∀ c ∈ s, IsScalar c) (hf : (∃ u, x = .u8 u) → b.forward = true) : ∃ N, ∀ n, N ≤ n →
      (∃ y, call P C n ml .match_ mods lit x = some (.one (.done y)) ∧
        ReportsAt φ y 0 (textWaysFull C (codePoints s) (callFlags ml mods) b 0)) ∧
      (∃ y, call P C n ml .startsWith mods lit x = some (.one (.done y)) ∧
        ReportsAt φ y 0 (textWays C (codePoints s) (callFlags ml mods) b 0)) := by
  refine ⟨(bodyTree b).weight + (codePoints s).length + 7, fun n hn => ?_⟩
  obtain ⟨⟨c, h1, h2⟩, ⟨d, h3, h4⟩⟩ := C83_match (C := C) hb (codePoints_isCh hs) (Nat.zero_le _) hn
  refine ⟨⟨c.mapPos φ, ?_, c, rfl, h2⟩, ⟨d.mapPos φ, ?_, d, rfl, h4⟩⟩ <;>
    rw [hb.call_eq hl ht hx hs hf] <;> simp only [Method.plain, Answer.mapPos]
  · rw [cMatch, h1]; rfl
  · rw [cStartsWith, h3]; rfl

/-- C83, the whole call, for `search`: the first position from which there is a way, and the first way from there. -/
theorem C83_search_call (hb : Steadfast P.find t b (callFlags ml mods))
    (hbeg : b.placed (callFlags ml mods).ml = true ∨ b.begins (callFlags ml mods).ml = true)
    (hl : lit.Spells t) (ht : ∀ c ∈ t, IsScalar c) (hx : x.Holds s φ)
    (hs : ∀ c ∈ s, IsScalar c) (hf : (∃ u, x = .u8 u) → b.forward = true) : ∃ N, ∀ n, N ≤ n →
      ∃ y, call P C n ml .search mods lit x = some (.one (.done y)) ∧
        ((y.whole.matched = true ∧ ∃ q, q ≤ s.length ∧ textWays C (codePoints s) (callFlags ml mods) b q ≠ [] ∧
            ReportsAt φ y q (textWays C (codePoints s) (callFlags ml mods) b q) ∧
            ∀ i, i < q → textWays C (codePoints s) (callFlags ml mods) b i = []) ∨
          (y.whole.matched = false ∧ ∀ i, i ≤ s.length → textWays C (codePoints s) (callFlags ml mods) b i = [])) := by
  refine ⟨(bodyTree b).weight + (codePoints s).length + 7, fun n hn => ?_⟩
  obtain ⟨c, h1, h2⟩ := C83_search (C := C) hb hbeg (codePoints_isCh hs) hn
  rw [codePoints_length] at h2
  refine ⟨c.mapPos φ, ?_, ?_⟩
  · rw [hb.call_eq hl ht hx hs hf]
    simp only [Method.plain, Answer.mapPos]
    rw [h1]; rfl
  · rcases h2 with ⟨k1, q, τ, rest, k2, k3, k4, k5⟩ | ⟨k1, k2⟩
    · exact .inl ⟨k1, q, k2, by simp [k3], ⟨c, rfl, by rw [k3]; exact ⟨k1, k4⟩⟩, k5⟩
    · exact .inr ⟨k1, k2⟩

/-- C83 for `search_all`, `split` and `tokenize`, if every match has to consume something: the matches from left to right, what is between
them, and the matches without a gap, at the positions of the subject; then they end. -/
theorem C83_iterates (hb : Steadfast P.find t b (callFlags ml mods)) (hbeg : b.unanchored (callFlags ml mods).ml = true)
    (hc : b.consumes = true) (hl : lit.Spells t) (ht : ∀ c ∈ t, IsScalar c) (hx : x.Holds s φ)
    (hs : ∀ c ∈ s, IsScalar c) (hf : (∃ u, x = .u8 u) → b.forward = true) :
    ∃ found tokens, Scan (textPick C (codePoints s) (callFlags ml mods) b) s.length 0 found ∧
      Tokens (textPick C (codePoints s) (callFlags ml mods) b) s.length 0 tokens ∧ ∃ N, ∀ n, N ≤ n →
      (∃ it, call P C n ml .searchAll mods lit x = some (.many it) ∧
        (∀ i (hi : i < found.length), ∃ y, it i = some y ∧
          ReportsAt φ y.result (found[i]).1 (textWays C (codePoints s) (callFlags ml mods) b (found[i]).1)) ∧
        ∃ y, it found.length = some y ∧ y.isEnd = true) ∧
      (∃ it, call P C n ml .split mods lit x = some (.pieces it) ∧
        (∀ i (hi : i < (gaps s.length 0 found).length), ∃ y, it i = some y ∧
          y.result.get 0 = some ⟨some (φ ((gaps s.length 0 found)[i]).1), some (φ ((gaps s.length 0 found)[i]).2), true⟩) ∧
        ∃ y, it (gaps s.length 0 found).length = some y ∧ y.isEnd = true) ∧
      (∃ it, call P C n ml .tokenize mods lit x = some (.many it) ∧
        (∀ i (hi : i < tokens.length), ∃ y, it i = some y ∧
          ReportsAt φ y.result (tokens[i]).1 (textWays C (codePoints s) (callFlags ml mods) b (tokens[i]).1)) ∧
        ∃ y, it tokens.length = some y ∧ y.isEnd = true) := by
  have key := fun n (hn : (bodyTree b).weight + (codePoints s).length + 7 ≤ n) =>
    (hb.attempts (C := C) hbeg hc (codePoints_isCh hs) hn).iterates
  simp only [codePoints_length] at key
  obtain ⟨found, tokens, h1, h2, _⟩ := key _ (Nat.le_refl _)
  refine ⟨found, tokens, h1, h2, (bodyTree b).weight + s.length + 7, fun n hn => ?_⟩
  obtain ⟨found', tokens', h1', h2', H⟩ := key n hn
  obtain rfl := h1.unique h1'
  obtain rfl := h2.unique h2'
  have hg := H.split
  have hge := H.split_end
  simp only [codePoints_length] at hg hge
  refine ⟨⟨_, hb.call_eq hl ht hx hs hf, ?_, ?_⟩, ⟨_, hb.call_eq hl ht hx hs hf, ?_, ?_⟩, ⟨_, hb.call_eq hl ht hx hs hf, ?_, ?_⟩⟩
  · intro i hi
    obtain ⟨it, τ, rest, k1, k2, k3, k4⟩ := H.all i hi
    refine ⟨it.mapPos φ, by simp [k1], it.result, rfl, ?_⟩
    rw [k3]
    exact ⟨by simp only [Caps.get, if_true, Option.some.injEq] at k2; rw [k2], k4⟩
  · obtain ⟨it, k1, k2⟩ := H.all_end
    exact ⟨it.mapPos φ, by simp [k1], k2⟩
  · intro i hi
    obtain ⟨it, k1, k2⟩ := hg i hi
    exact ⟨it.mapPos φ, by simp [k1], getWhole_mapPos k2⟩
  · obtain ⟨it, k1, k2⟩ := hge
    exact ⟨it.mapPos φ, by simp [k1], k2⟩
  · intro i hi
    obtain ⟨it, τ, rest, k1, k2, k3, k4⟩ := H.token i hi
    refine ⟨it.mapPos φ, by simp [k1], it.result, rfl, ?_⟩
    rw [k3]
    exact ⟨by simp only [Caps.get, if_true, Option.some.injEq] at k2; rw [k2], k4⟩
  · obtain ⟨it, k1, k2⟩ := H.token_end
    exact ⟨it.mapPos φ, by simp [k1], k2⟩

/-! ### Cases -/

/-- `^([a-c]+)(?=-)-(?<!x)(\d+?)(?:;\1)*$` -/
def sampleDefault : Body := .alt (.one (
  .cons .bol .none
  (.cons (.cap 1 (.alt (.one (.one (.set false [.range (.plain 97) (.plain 99)]) (.plus .greedy))))) .none
  (.cons (.ahead true (.alt (.one (.one (.ch (.plain 45)) .none)))) .none
  (.cons (.ch (.plain 45)) .none
  (.cons (.behind false (.alt (.one (.one (.ch (.plain 120)) .none)))) .none
  (.cons (.cap 2 (.alt (.one (.one (.cls (.letter 100)) (.plus .lazy))))) .none
  (.cons (.group (.alt (.one (.cons (.ch (.plain 59)) .none (.one (.ref 49) .none))))) (.star .greedy)
  (.one .eol .none)))))))))

def sampleDefaultText : List Nat := [94, 40, 91, 97, 45, 99, 93, 43, 41, 40, 63, 61, 45, 41, 45, 40, 63, 60, 33, 120, 41, 40, 92, 100, 43, 63, 41, 40, 63, 58, 59, 92, 49, 41, 42, 36]

theorem sampleDefault_steadfast : Steadfast (PropTable.find {}) sampleDefaultText sampleDefault {} where
  orderly := {
    reading := by
      refine ⟨?_, rfl⟩
      simp [sampleDefault, Body.WF, Alt.WF, Cat.WF, Atom.WF, Char1.WF, Cls.WF, special, Quant.WF, Atom.groups, Cat.groups, Alt.groups, Body.groups,
        SetWF, SetItem.WF, specialInSet, Atom.leadsName, Body.leadsName, Alt.leadsName, Cat.leadsName, Body.hasMode, Alt.hasMode,
        Cat.hasMode, Atom.hasMode]
    faithful := by
      simp [sampleDefault, Body.Faithful, Alt.Faithful, Cat.Faithful, Atom.Faithful, Quant.Faithful, Char1.Faithful, possessiveItem,
        Atom.possessive, Atom.leadsPossessive, Cat.leadsPossessive, Quant.kind, SetItem.Faithful, Body.plainBehind, Alt.plainBehind,
        Cat.plainBehind, Atom.plainBehind]
    size := by decide +kernel
    inOrder := by decide +kernel
    selfFree := by simp [sampleDefault, Body.selfFree, Alt.selfFree, Cat.selfFree, Atom.selfFree]
    known := by decide +kernel
    attentive := by decide +kernel }
  robust := ⟨false, by simp, by decide +kernel⟩
  blk := rfl
  ci := rfl

example : sampleDefault.begins false = true := by decide +kernel

-- on "ab-12;ab" the lazy `\d+?` has to give way, on "ab-12;ac" there is no way
example : (textWaysFull {} [97, 98, 45, 49, 50, 59, 97, 98] {} sampleDefault 0).map (fun τ => (τ.pos, τ.cap 1, τ.cap 2)) = [(8, some (0, 2), some (3, 5))] ∧
    textWaysFull {} [97, 98, 45, 49, 50, 59, 97, 99] {} sampleDefault 0 = [] := by decide +kernel
example : ∃ r, build {} sampleDefaultText = .pattern r ∧ cSearch {} 200 [97, 98, 45, 49, 50, 59, 97, 98] {} r =
    .done { whole := ⟨some 0, some 8, true⟩, groups := [{ id := 1, slot := ⟨some 0, some 2, true⟩ }, { id := 2, slot := ⟨some 3, some 5, true⟩ }] } :=
  ⟨_, rfl, by decide +kernel⟩

/-- `(?>[a-c]+)=(\d*)` -/
def sampleDefault2 : Body := .alt (.one (
  .cons (.atomic (.alt (.one (.one (.set false [.range (.plain 97) (.plain 99)]) (.plus .greedy))))) .none
  (.cons (.ch (.plain 61)) .none
  (.one (.cap 1 (.alt (.one (.one (.cls (.letter 100)) (.star .greedy))))) .none))))

theorem sampleDefault2_orderly : Orderly (PropTable.find {}) [40, 63, 62, 91, 97, 45, 99, 93, 43, 41, 61, 40, 92, 100, 42, 41] sampleDefault2 where
  reading := by
    refine ⟨?_, rfl⟩
    simp [sampleDefault2, Body.WF, Alt.WF, Cat.WF, Atom.WF, Char1.WF, special, Quant.WF, Atom.groups, Cat.groups, Alt.groups, Body.groups, SetWF, SetItem.WF, specialInSet, Cls.WF]
  faithful := by
    simp [sampleDefault2, Body.Faithful, Alt.Faithful, Cat.Faithful, Atom.Faithful, Quant.Faithful, Char1.Faithful, possessiveItem,
      Atom.possessive, Cat.leadsPossessive, Quant.kind, SetItem.Faithful]
  size := by decide +kernel
  inOrder := by decide +kernel
  selfFree := by simp [sampleDefault2, Body.selfFree, Alt.selfFree, Cat.selfFree, Atom.selfFree]
  known := by decide +kernel
  attentive := by decide +kernel

theorem sampleDefault2_steadfast : Steadfast (PropTable.find {}) [40, 63, 62, 91, 97, 45, 99, 93, 43, 41, 61, 40, 92, 100, 42, 41] sampleDefault2 { ml := true } :=
  ⟨sampleDefault2_orderly, ⟨true, fun _ => rfl, by decide +kernel⟩, rfl, rfl⟩

example : sampleDefault2.unanchored true = true ∧ sampleDefault2.consumes = true ∧ sampleDefault2.forward = true := by decide +kernel

/-- `(?i)[a-z]+([_0-9]?)x`, which is written in lower case -/
def sampleDefault3 : Body := .alt (.one (
  .cons (.mode .caseInsensitive) .none
  (.cons (.set false [.range (.plain 97) (.plain 122)]) (.plus .greedy)
  (.cons (.cap 1 (.alt (.one (.one (.set false [.one (.plain 95), .range (.plain 48) (.plain 57)]) (.opt .greedy))))) .none
  (.one (.ch (.plain 120)) .none)))))

/-- Its text. -/
def sampleDefault3Text : List Nat := [40, 63, 105, 41, 91, 97, 45, 122, 93, 43, 40, 91, 95, 48, 45, 57, 93, 63, 41, 120]

theorem sampleDefault3_orderly : Orderly (PropTable.find {}) sampleDefault3Text sampleDefault3 where
  reading := by
    refine ⟨?_, rfl⟩
    simp [sampleDefault3, Body.WF, Alt.WF, Cat.WF, Atom.WF, Char1.WF, special, Quant.WF, Atom.groups, Cat.groups, Alt.groups, Body.groups, SetWF, SetItem.WF, specialInSet]
  faithful := by
    simp [sampleDefault3, Body.Faithful, Alt.Faithful, Cat.Faithful, Atom.Faithful, Quant.Faithful, Char1.Faithful, possessiveItem,
      Atom.possessive, Cat.leadsPossessive, Quant.kind, SetItem.Faithful]
  size := by decide +kernel
  inOrder := by decide +kernel
  selfFree := by simp [sampleDefault3, Body.selfFree, Alt.selfFree, Cat.selfFree, Atom.selfFree]
  known := by decide +kernel
  attentive := by decide +kernel

/-- C83 applies whether case is ignored from the beginning or not. -/
theorem sampleDefault3_steadfast (ci : Bool) : Steadfast (PropTable.find {}) sampleDefault3Text sampleDefault3 { ci := ci } :=
  ⟨sampleDefault3_orderly, ⟨false, id, by decide +kernel⟩, rfl, by cases ci <;> decide +kernel⟩

-- in "aBcX" the repetition has to give back the X
example : ∃ y, call {} {} 60 false .match_ [] (.utf32 sampleDefault3Text) (.view [97, 66, 99, 88]) = some (.one (.done y)) ∧
    y.whole.matched = true ∧ y.groups.map (·.slot) = [⟨some 3, some 3, true⟩] := ⟨_, rfl, by decide +kernel⟩

/-! ### The conditions are needed -/

/-- `[a ]*\b` -/
def sampleBoundary : Body := .alt (.one (.cons (.set false [.one (.plain 97), .one (.plain 32)]) (.star .greedy) (.one .wordBoundary .none)))

theorem sampleBoundary_orderly : Orderly (PropTable.find {}) [91, 97, 32, 93, 42, 92, 98] sampleBoundary where
  reading := by
    refine ⟨?_, rfl⟩
    simp [sampleBoundary, Body.WF, Alt.WF, Cat.WF, Atom.WF, Char1.WF, special, Quant.WF, Atom.groups, Cat.groups, Alt.groups, Body.groups, SetWF, SetItem.WF, specialInSet]
  faithful := by
    simp [sampleBoundary, Body.Faithful, Alt.Faithful, Cat.Faithful, Atom.Faithful, Quant.Faithful, Char1.Faithful, possessiveItem,
      Atom.possessive, Cat.leadsPossessive, Quant.kind, SetItem.Faithful]
  size := by decide +kernel
  inOrder := by decide +kernel
  selfFree := by simp [sampleBoundary, Body.selfFree, Alt.selfFree, Cat.selfFree, Atom.selfFree]
  known := by decide +kernel
  attentive := by decide +kernel

/-- A condition that follows a greedy quantifier: `[a ]*\b` at the beginning of "a  " has to give back what has been repeated, and
the default build does not. -/
theorem C83_fails_boundary : (∀ ml, sampleBoundary.robust ml false false true = false) ∧
    textWays {} [97, 32, 32] (callFlags false []) sampleBoundary 0 ≠ [] ∧
    ∃ y, call {} {} 40 false .startsWith [] (.utf32 [91, 97, 32, 93, 42, 92, 98]) (.view [97, 32, 32]) = some (.one (.done y)) ∧ y.whole.matched = false :=
  ⟨by decide +kernel, by decide +kernel, _, rfl, by decide +kernel⟩

/-- `[a\n]*$\n` -/
def sampleLineEnd : Body := .alt (.one (.cons (.set false [.one (.plain 97), .one (.plain 10)]) (.star .greedy) (.cons .eol .none (.one (.ch (.plain 10)) .none))))

theorem sampleLineEnd_orderly : Orderly (PropTable.find {}) [91, 97, 10, 93, 42, 36, 10] sampleLineEnd where
  reading := by
    refine ⟨?_, rfl⟩
    simp [sampleLineEnd, Body.WF, Alt.WF, Cat.WF, Atom.WF, Char1.WF, special, Quant.WF, Atom.groups, Cat.groups, Alt.groups, Body.groups, SetWF, SetItem.WF, specialInSet]
  faithful := by
    simp [sampleLineEnd, Body.Faithful, Alt.Faithful, Cat.Faithful, Atom.Faithful, Quant.Faithful, Char1.Faithful, possessiveItem,
      Atom.possessive, Cat.leadsPossessive, Quant.kind, SetItem.Faithful]
  size := by decide +kernel
  inOrder := by decide +kernel
  selfFree := by simp [sampleLineEnd, Body.selfFree, Alt.selfFree, Cat.selfFree, Atom.selfFree]
  known := by decide +kernel
  attentive := by decide +kernel

/-- `$` in multiline mode: `[a\n]*$\n` on "a\n". -/
theorem C83_fails_line_end : (sampleLineEnd.robust false false false true = true ∧ sampleLineEnd.robust true false false true = false) ∧
    textWaysFull {} [97, 10] (callFlags true []) sampleLineEnd 0 ≠ [] ∧
    ∃ y, call {} {} 40 true .match_ [] (.utf32 [91, 97, 10, 93, 42, 36, 10]) (.view [97, 10]) = some (.one (.done y)) ∧ y.whole.matched = false :=
  ⟨by decide +kernel, by decide +kernel, _, rfl, by decide +kernel⟩

/-- `(?i)a*A` -/
def sampleCaseSwitch : Body := .alt (.one (.cons (.mode .caseInsensitive) .none (.cons (.ch (.plain 97)) (.star .greedy) (.one (.ch (.plain 65)) .none))))

theorem sampleCaseSwitch_orderly : Orderly (PropTable.find {}) [40, 63, 105, 41, 97, 42, 65] sampleCaseSwitch where
  reading := by
    refine ⟨?_, rfl⟩
    simp [sampleCaseSwitch, Body.WF, Alt.WF, Cat.WF, Atom.WF, Char1.WF, special, Quant.WF, Atom.groups, Cat.groups, Alt.groups, Body.groups]
  faithful := by
    simp [sampleCaseSwitch, Body.Faithful, Alt.Faithful, Cat.Faithful, Atom.Faithful, Quant.Faithful, Char1.Faithful, possessiveItem,
      Atom.possessive, Cat.leadsPossessive, Quant.kind, SetItem.Faithful]
  size := by decide +kernel
  inOrder := by decide +kernel
  selfFree := by simp [sampleCaseSwitch, Body.selfFree, Alt.selfFree, Cat.selfFree, Atom.selfFree]
  known := by decide +kernel
  attentive := by decide +kernel

/-- The mode `(?i)` in a text that is not written in one case, though it is robust: `(?i)a*A` on "aa". -/
theorem C83_fails_mode : (sampleCaseSwitch.robust false false false true = true ∧ sampleCaseSwitch.caseSafe false = false) ∧
    textWaysFull {} [97, 97] (callFlags false []) sampleCaseSwitch 0 ≠ [] ∧
    ∃ y, call {} {} 40 false .match_ [] (.utf32 [40, 63, 105, 41, 97, 42, 65]) (.view [97, 97]) = some (.one (.done y)) ∧ y.whole.matched = false :=
  ⟨by decide +kernel, by decide +kernel, _, rfl, by decide +kernel⟩

/-- `a*A` -/
def sampleCaseFlag : Body := .alt (.one (.cons (.ch (.plain 97)) (.star .greedy) (.one (.ch (.plain 65)) .none)))

theorem sampleCaseFlag_orderly : Orderly (PropTable.find {}) [97, 42, 65] sampleCaseFlag where
  reading := by
    refine ⟨?_, rfl⟩
    simp [sampleCaseFlag, Body.WF, Alt.WF, Cat.WF, Atom.WF, Char1.WF, special, Quant.WF, Atom.groups, Cat.groups, Alt.groups, Body.groups]
  faithful := by
    simp [sampleCaseFlag, Body.Faithful, Alt.Faithful, Cat.Faithful, Atom.Faithful, Quant.Faithful, Char1.Faithful, possessiveItem,
      Atom.possessive, Cat.leadsPossessive, Quant.kind, SetItem.Faithful]
  size := by decide +kernel
  inOrder := by decide +kernel
  selfFree := by simp [sampleCaseFlag, Body.selfFree, Alt.selfFree, Cat.selfFree, Atom.selfFree]
  known := by decide +kernel
  attentive := by decide +kernel

/-- The same with case ignored from the beginning: `a*A` on "aa". -/
theorem C83_fails_caseless : (sampleCaseFlag.robust false false false true = true ∧ sampleCaseFlag.caseSafe false = true ∧
      sampleCaseFlag.caseSafe (callFlags false [.caseInsensitive]).ci = false) ∧
    textWaysFull {} [97, 97] (callFlags false [.caseInsensitive]) sampleCaseFlag 0 ≠ [] ∧
    ∃ y, call {} {} 40 false .match_ [.caseInsensitive] (.utf32 [97, 42, 65]) (.view [97, 97]) = some (.one (.done y)) ∧ y.whole.matched = false :=
  ⟨by decide +kernel, by decide +kernel, _, rfl, by decide +kernel⟩

/-- `(?:^|,)([a-c]+)`: the beginning of the subject is one of two possible beginnings. -/
def sampleField : Body := .alt (.one (
  .cons (.group (.alt (.bar (.one .bol .none) (.one (.one (.ch (.plain 44)) .none))))) .none
  (.one (.cap 1 (.alt (.one (.one (.set false [.range (.plain 97) (.plain 99)]) (.plus .greedy))))) .none)))

def sampleFieldText : List Nat := [40, 63, 58, 94, 124, 44, 41, 40, 91, 97, 45, 99, 93, 43, 41]

theorem sampleField_steadfast : Steadfast (PropTable.find {}) sampleFieldText sampleField {} where
  orderly := {
    reading := by
      refine ⟨?_, rfl⟩
      simp [sampleField, Body.WF, Alt.WF, Cat.WF, Atom.WF, Char1.WF, special, Quant.WF, Atom.groups, Cat.groups, Alt.groups, Body.groups,
        SetWF, SetItem.WF, specialInSet, Atom.leadsName, Body.leadsName, Alt.leadsName, Cat.leadsName]
    faithful := by
      simp [sampleField, Body.Faithful, Alt.Faithful, Cat.Faithful, Atom.Faithful, Quant.Faithful, Char1.Faithful, possessiveItem,
        Atom.possessive, Atom.leadsPossessive, Cat.leadsPossessive, Quant.kind, SetItem.Faithful]
    size := by decide +kernel
    inOrder := by decide +kernel
    selfFree := by simp [sampleField, Body.selfFree, Alt.selfFree, Cat.selfFree, Atom.selfFree]
    known := by decide +kernel
    attentive := by decide +kernel }
  robust := ⟨false, by simp, by decide +kernel⟩
  blk := rfl
  ci := rfl

-- neither without anchors nor anchored; in "d,ab" the second beginning is found
example : sampleField.placed false = true ∧ sampleField.unanchored false = false ∧ sampleField.begins false = false := by decide +kernel
example : ∃ r, build {} sampleFieldText = .pattern r ∧ cSearch {} 200 [100, 44, 97, 98] {} r =
    .done { whole := ⟨some 1, some 4, true⟩, groups := [{ id := 1, slot := ⟨some 2, some 4, true⟩ }] } := ⟨_, rfl, by decide +kernel⟩

/-- `(?:^a)*b` -/
def sampleSkippedAnchor : Body := .alt (.one (.cons (.group (.alt (.one (.cons .bol .none (.one (.ch (.plain 97)) .none))))) (.star .greedy) (.one (.ch (.plain 98)) .none)))

theorem sampleSkippedAnchor_orderly : Orderly (PropTable.find {}) [40, 63, 58, 94, 97, 41, 42, 98] sampleSkippedAnchor where
  reading := by
    refine ⟨?_, rfl⟩
    simp [sampleSkippedAnchor, Body.WF, Alt.WF, Cat.WF, Atom.WF, Char1.WF, special, Quant.WF, Atom.groups, Cat.groups, Alt.groups, Body.groups]
  faithful := by
    simp [sampleSkippedAnchor, Body.Faithful, Alt.Faithful, Cat.Faithful, Atom.Faithful, Quant.Faithful, Char1.Faithful, possessiveItem,
      Atom.possessive, Cat.leadsPossessive, Quant.kind, SetItem.Faithful]
  size := by decide +kernel
  inOrder := by decide +kernel
  selfFree := by simp [sampleSkippedAnchor, Body.selfFree, Alt.selfFree, Cat.selfFree, Atom.selfFree]
  known := by decide +kernel
  attentive := by decide +kernel

/-- `search` with an anchor that may be skipped: in `(?:^a)*b` on "xb" there is a way from the second position, but it is not tried. -/
theorem C83_fails_skipped_anchor : (sampleSkippedAnchor.robust false false false true = true ∧ sampleSkippedAnchor.placed false = false ∧ sampleSkippedAnchor.begins false = false) ∧
    textWays {} [120, 98] (callFlags false []) sampleSkippedAnchor 1 ≠ [] ∧
    ∃ y, call {} {} 40 false .search [] (.utf32 [40, 63, 58, 94, 97, 41, 42, 98]) (.view [120, 98]) = some (.one (.done y)) ∧ y.whole.matched = false :=
  ⟨by decide +kernel, by decide +kernel, { whole := ⟨none, some 0, false⟩ }, by
    have e : cSearch {} 40 [120, 98] {} skippedAnchor = .done { whole := ⟨none, some 0, false⟩ } := by decide +kernel
    rw [C61_view]
    exact congrArg (fun e => some (Answer.one e)) e, rfl⟩

/-- Two optional parts that are joined: in `(?:^a)?b` on "xb" the second position is tried, in `(?:^a)?(?:^a)?b` it is not. -/
theorem C83_fails_joined_anchor : ∃ r r', build {} [40, 63, 58, 94, 97, 41, 63, 98] = .pattern r ∧
    build {} [40, 63, 58, 94, 97, 41, 63, 40, 63, 58, 94, 97, 41, 63, 98] = .pattern r' ∧
    (cSearch {} 60 [120, 98] {} r).success = true ∧ (cSearch {} 60 [120, 98] {} r').success = false :=
  ⟨_, _, rfl, rfl, by decide +kernel, by decide +kernel⟩

end Ctre
