import Verif.Lemmas.TextLanguage
import Verif.Lemmas.TextPlain
import Verif.Lemmas.Written
import Verif.Props.TextOrder

/-
C79: matching decides the formal language of the text of the pattern, and the language is recognised by a finite automaton.
-/
namespace Ctre
open Parse Surface

/-- The text can be read as `b`, in which only characters, classes, sets, dots, groups, alternatives and quantifiers occur, with their
documented meaning (see C31).  Whatever is repeated consumes something and matches in at most one way; no quantifier is possessive. -/
structure Rational (find : List Nat → Option (List Nat) → Option Nat) (t : List Nat) (b : Body) : Prop where
  reading : Reading find t b
  faithful : b.Faithful
  size : b.size < 2 ^ 64
  regular : b.regular = true
  firm : b.firm = true
  loose : b.loose = true

variable {P : PropTable} {t : List Nat} {r : Re} {b : Body}

theorem Rational.orderly (hb : Rational P.find t b) : Orderly P.find t b where
  reading := hb.reading
  faithful := hb.faithful
  size := hb.size
  inOrder := (Body.firm_orderly b hb.firm).1
  selfFree := Body.regular_selfFree _ [] b hb.regular
  known := Body.regular_known b hb.regular fun _ h => h
  attentive := (Body.firm_orderly b hb.firm).2

/-- The language of the text in the modes of the call. -/
def Surface.Body.Accepts (C : Cfg) (f : Flags) (b : Body) (w : List Ch) : Prop := w ∈ b.lang C.uni f.ml f.ci

theorem Rational.ways (hb : Rational P.find t b) {C : Cfg} {s : List Ch} {f : Flags} {p e : Nat} (hp : p ≤ e) (he : e ≤ s.length) :
    (∃ τ ∈ textWays C s f b p, τ.pos = e) ↔ b.Accepts C f (text s p e) := by
  have hp' : p ≤ s.length := Nat.le_trans hp he
  rw [C75_usual_order hb.faithful hb.firm hp']
  have hsp := Body.speaks (b.env C) s b hb.regular
  constructor
  · rintro ⟨τ, h1, rfl⟩
    exact (hsp.sound _ _ hp' ((C75_ways_are_matches hb.faithful hb.loose hp' τ).1 h1)).2.2.2
  · intro h
    obtain ⟨τ, h1, h2⟩ := hsp.complete (MState.start p f) e hp he h
    exact ⟨τ, (C75_ways_are_matches hb.faithful hb.loose hp' τ).2 h1, h2⟩

theorem Rational.inside (hb : Rational P.find t b) {C : Cfg} {s : List Ch} {f : Flags} {p : Nat} (hp : p ≤ s.length) {τ : MState}
    (h : τ ∈ textWays C s f b p) : p ≤ τ.pos ∧ τ.pos ≤ s.length := by
  rw [C75_usual_order hb.faithful hb.firm hp] at h
  have := (Body.speaks (b.env C) s b hb.regular).sound _ _ hp ((C75_ways_are_matches hb.faithful hb.loose hp τ).1 h)
  exact ⟨this.1, this.2.1⟩

theorem reportsFirst_iff {c : Caps} {p : Nat} {L : List MState} (h : ReportsFirst c p L) : c.whole.matched = true ↔ ∃ τ, τ ∈ L := by
  cases L with
  | nil => simp only [ReportsFirst] at h; simp [h]
  | cons τ l => simp only [ReportsFirst] at h; simp [h.1]

theorem text_take (u v : List Ch) : text (u ++ v) 0 u.length = u := by simp [text]

theorem text_middle (u v w : List Ch) : text (u ++ v ++ w) u.length (u.length + v.length) = v := by simp [text, List.append_assoc]

theorem Rational.full (hb : Rational P.find t b) {C : Cfg} {s : List Ch} {f : Flags} {c : Caps}
    (h : ReportsFirst c 0 (textWaysFull C s f b 0)) : c.whole.matched = true ↔ b.Accepts C f s := by
  rw [reportsFirst_iff h]
  conv => rhs; rw [← show text s 0 s.length = s by simp [text]]
  rw [← hb.ways (Nat.zero_le _) (Nat.le_refl _)]
  simp [textWaysFull, List.mem_filter]

theorem Rational.front (hb : Rational P.find t b) {C : Cfg} {s : List Ch} {f : Flags} {c : Caps}
    (h : ReportsFirst c 0 (textWays C s f b 0)) : c.whole.matched = true ↔ ∃ u v, s = u ++ v ∧ b.Accepts C f u := by
  rw [reportsFirst_iff h]
  constructor
  · rintro ⟨τ, hτ⟩
    have hi := hb.inside (Nat.zero_le _) hτ
    refine ⟨text s 0 τ.pos, text s τ.pos s.length, ?_, (hb.ways hi.1 hi.2).1 ⟨τ, hτ, rfl⟩⟩
    rw [stretch_append hi.1 hi.2]; simp [text]
  · rintro ⟨u, v, rfl, hu⟩
    rw [← text_take u v] at hu
    obtain ⟨τ, h1, _⟩ := (hb.ways (Nat.zero_le _) (by simp)).2 hu
    exact ⟨τ, h1⟩

theorem Rational.middle (hb : Rational P.find t b) {C : Cfg} {s : List Ch} {f : Flags} {c : Caps}
    (h : (c.whole.matched = true ∧ ∃ q τ rest, q ≤ s.length ∧ textWays C s f b q = τ :: rest ∧ Reports c q τ ∧
          ∀ i, i < q → textWays C s f b i = []) ∨
        (c.whole.matched = false ∧ ∀ i, i ≤ s.length → textWays C s f b i = [])) :
    c.whole.matched = true ↔ ∃ u v w, s = u ++ v ++ w ∧ b.Accepts C f v := by
  constructor
  · intro hm
    rcases h with ⟨_, q, τ, rest, hq, h1, _⟩ | ⟨h1, _⟩
    · have hτ : τ ∈ textWays C s f b q := by simp [h1]
      have hi := hb.inside hq hτ
      refine ⟨text s 0 q, text s q τ.pos, text s τ.pos s.length, ?_, (hb.ways hi.1 hi.2).1 ⟨τ, hτ, rfl⟩⟩
      rw [stretch_append (Nat.zero_le _) hi.1, stretch_append (Nat.zero_le _) hi.2]; simp [text]
    · rw [hm] at h1; cases h1
  · rintro ⟨u, v, w, rfl, hv⟩
    rw [← text_middle u v w] at hv
    obtain ⟨τ, h1, _⟩ := (hb.ways (by omega) (by simp)).2 hv
    rcases h with h | ⟨_, h2⟩
    · exact h.1
    · rw [h2 u.length (by simp)] at h1; cases h1

/-- C79, when greedy repetitions are not optimised: the calls return, `match` succeeds exactly on the words of the language of the text,
`starts_with` exactly on the subjects that begin with such a word, and `search` exactly on the subjects that contain one. -/
theorem C79_decides (h : build P t = .pattern r) (hb : Rational P.find t b) {C : Cfg} (hC : C.greedyOpt = false) {n : Nat}
    (s : List Ch) (f : Flags) (hn : r.weight + s.length + 7 ≤ n) :
    (∃ c, cMatch C n s f r = .done c ∧ (c.whole.matched = true ↔ b.Accepts C f s)) ∧
    (∃ c, cStartsWith C n s f r = .done c ∧ (c.whole.matched = true ↔ ∃ u v, s = u ++ v ∧ b.Accepts C f u)) ∧
    (∃ c, cSearch C n s f r = .done c ∧ (c.whole.matched = true ↔ ∃ u v w, s = u ++ v ++ w ∧ b.Accepts C f v)) := by
  obtain ⟨⟨c1, h1, e1⟩, ⟨c2, h2, e2⟩⟩ := C75_match h hb.orderly hC (f := f) (p := 0) (Nat.zero_le _) hn
  obtain ⟨c3, h3, e3⟩ := C75_search h hb.orderly hC (s := s) (f := f) (.inl (Body.regular_noBegin b hb.regular)) hn
  exact ⟨⟨c1, h1, hb.full e1⟩, ⟨c2, h2, hb.front e2⟩, ⟨c3, h3, hb.middle e3⟩⟩

/-- C79 with the optimisation of greedy repetitions, which is on by default: if the characters of the pattern are below 2^31, ranges are
in order, sets contain no complements that the analysis cannot handle, and case is not ignored or the text is written in one case, the same holds. -/
theorem C79_decides_optimised (h : build P t = .pattern r) (hb : Rational P.find t b) (hm : b.small = true) {C : Cfg} {n : Nat}
    {s : List Ch} (hs : ∀ v ∈ s, IsCh v) {f : Flags} (hblk : f.blk = false) (hci : b.caseSafe f.ci = true) (hn : r.weight + s.length + 7 ≤ n) :
    (∃ c, cMatch C n s f r = .done c ∧ (c.whole.matched = true ↔ b.Accepts C f s)) ∧
    (∃ c, cStartsWith C n s f r = .done c ∧ (c.whole.matched = true ↔ ∃ u v, s = u ++ v ∧ b.Accepts C f u)) ∧
    (∃ c, cSearch C n s f r = .done c ∧ (c.whole.matched = true ↔ ∃ u v w, s = u ++ v ++ w ∧ b.Accepts C f v)) := by
  have he : r.easy = true := by
    rw [hb.orderly.tree h]
    exact body_easy b hb.faithful (by have := hb.size; simp only [szMod]; omega) hb.regular hb.firm hm
  have hst := easy_steady true false he
  have hsc : C.greedyOpt = false ∨ r.scannable true = true := .inr (easy_scannable he)
  have hcs : r.CaseSafe f.ci := by rw [hb.orderly.tree h]; exact body_caseSafe hb.faithful hci
  obtain ⟨⟨c1, h1, e1⟩, ⟨c2, h2, e2⟩⟩ := C75_match_optimised h hb.orderly hsc hst (f := f) (p := 0) hs hblk hcs (fun _ => rfl) (Nat.zero_le _) hn
  obtain ⟨c3, h3, e3⟩ := C75_search_optimised h hb.orderly hsc hst (f := f) hs hblk hcs (fun _ => rfl)
    (.inl (Body.regular_noBegin b hb.regular)) hn
  exact ⟨⟨c1, h1, hb.full e1⟩, ⟨c2, h2, hb.front e2⟩, ⟨c3, h3, hb.middle e3⟩⟩

/-- C79, one half without the condition on repetitions: whatever is repeated, if `match` succeeds, the subject is in the language of the
text. -/
theorem C79_sound (hr : Reading P.find t b) (hf : b.Faithful) (hsz : b.size < 2 ^ 64) (hg : b.regular = true) (h : build P t = .pattern r)
    {C : Cfg} {n : Nat} {s : List Ch} {f : Flags} {c : Caps} (hm : cMatch C n s f r = .done c) (hc : c.whole.matched = true) :
    b.Accepts C f s := by
  obtain ⟨r', h1, h2⟩ := C31_match_sound P hr.1 hf hsz (Body.regular_selfFree _ [] b hg) (Body.regular_noNegative b hg)
  rw [hr.2, h] at h1
  cases h1
  obtain ⟨τ, h3, h4, _⟩ := h2 C n s f c hm hc
  have := ((Body.speaks (b.env C) s b hg).sound _ _ (Nat.zero_le _) h3).2.2.2
  rw [h4] at this
  have e : text s (MState.start 0 f).pos s.length = s := by simp [text, MState.start]
  rw [e] at this
  exact this

theorem isRegular_top {α : Type} : (⊤ : Language α).IsRegular := by
  refine isRegular_of_key (key := fun _ => ()) (F := fun _ => ⊤) (Set.toFinite _) fun x => ?_
  ext y; exact ⟨fun _ => trivial, fun _ => trivial⟩

/-- C79: for every such text there are three deterministic finite automata that tell for every subject, whatever its length, whether
`match`, `starts_with` and `search` succeed. -/
theorem C79_automaton (h : build P t = .pattern r) (hb : Rational P.find t b) {C : Cfg} (hC : C.greedyOpt = false) (f : Flags) :
    ∃ (σ₁ σ₂ σ₃ : Type) (_ : Fintype σ₁) (_ : Fintype σ₂) (_ : Fintype σ₃) (M₁ : DFA Ch σ₁) (M₂ : DFA Ch σ₂) (M₃ : DFA Ch σ₃),
      ∀ (s : List Ch) (n : Nat), r.weight + s.length + 7 ≤ n →
        ((cMatch C n s f r).success = true ↔ s ∈ M₁.accepts) ∧ ((cStartsWith C n s f r).success = true ↔ s ∈ M₂.accepts) ∧
        ((cSearch C n s f r).success = true ↔ s ∈ M₃.accepts) := by
  have hL := Body.lang_isRegular C.uni f.ml f.ci b
  have hL' := hL
  obtain ⟨σ₁, i₁, M₁, e₁⟩ := hL'
  obtain ⟨σ₂, i₂, M₂, e₂⟩ := isRegular_mul hL isRegular_top
  obtain ⟨σ₃, i₃, M₃, e₃⟩ := isRegular_mul (isRegular_mul isRegular_top hL) isRegular_top
  refine ⟨σ₁, σ₂, σ₃, i₁, i₂, i₃, M₁, M₂, M₃, fun s n hn => ?_⟩
  obtain ⟨⟨c1, h1, d1⟩, ⟨c2, h2, d2⟩, ⟨c3, h3, d3⟩⟩ := C79_decides h hb hC s f hn
  rw [h1, h2, h3, e₁, e₂, e₃]
  simp only [Exec.success]
  refine ⟨d1, d2.trans ?_, d3.trans ?_⟩
  · rw [Language.mem_mul]
    constructor
    · rintro ⟨u, v, rfl, hu⟩; exact ⟨u, hu, v, trivial, rfl⟩
    · rintro ⟨u, hu, v, _, rfl⟩; exact ⟨u, v, rfl, hu⟩
  · rw [Language.mem_mul]
    constructor
    · rintro ⟨u, v, w, rfl, hv⟩; exact ⟨u ++ v, Language.mem_mul.2 ⟨u, trivial, v, hv, rfl⟩, w, trivial, rfl⟩
    · rintro ⟨x, hx, w, _, rfl⟩
      obtain ⟨u, _, v, hv, rfl⟩ := Language.mem_mul.1 hx
      exact ⟨u, v, w, rfl, hv⟩

/-- C79: texts with the same language succeed on the same subjects, whatever they look like. -/
theorem C79_same_language {t' : List Nat} {r' : Re} {b' : Body} (h : build P t = .pattern r) (h' : build P t' = .pattern r')
    (hb : Rational P.find t b) (hb' : Rational P.find t' b') {C : Cfg} (hC : C.greedyOpt = false) {f : Flags}
    (hl : b.lang C.uni f.ml f.ci = b'.lang C.uni f.ml f.ci) {n n' : Nat} (s : List Ch) (hn : r.weight + s.length + 7 ≤ n)
    (hn' : r'.weight + s.length + 7 ≤ n') :
    (cMatch C n s f r).success = (cMatch C n' s f r').success ∧ (cStartsWith C n s f r).success = (cStartsWith C n' s f r').success ∧
    (cSearch C n s f r).success = (cSearch C n' s f r').success := by
  obtain ⟨⟨c1, h1, d1⟩, ⟨c2, h2, d2⟩, ⟨c3, h3, d3⟩⟩ := C79_decides h hb hC s f hn
  obtain ⟨⟨c1', h1', d1'⟩, ⟨c2', h2', d2'⟩, ⟨c3', h3', d3'⟩⟩ := C79_decides h' hb' hC s f hn'
  have key : ∀ w, b.Accepts C f w ↔ b'.Accepts C f w := fun w => by unfold Surface.Body.Accepts; rw [hl]
  rw [h1, h2, h3, h1', h2', h3']
  simp only [Exec.success]
  refine ⟨Bool.eq_iff_iff.2 ?_, Bool.eq_iff_iff.2 ?_, Bool.eq_iff_iff.2 ?_⟩
  · rw [d1, d1', key]
  · rw [d2, d2']; simp only [key]
  · rw [d3, d3']; simp only [key]

/-! ### Cases -/

/-- `(?:ab|c)*(d)?[e-f]{2,3}` -/
def sampleRational : Body := .alt (.one (
  .cons (.group (.alt (.bar (.cons (.ch (.plain 97)) .none (.one (.ch (.plain 98)) .none)) (.one (.one (.ch (.plain 99)) .none)))))
    (.star .greedy)
  (.cons (.cap 1 (.alt (.one (.one (.ch (.plain 100)) .none)))) (.opt .greedy)
  (.one (.set false [.range (.plain 101) (.plain 102)]) (.between [50] [51] .greedy)))))

def sampleRationalText : List Nat :=
  [40, 63, 58, 97, 98, 124, 99, 41, 42, 40, 100, 41, 63, 91, 101, 45, 102, 93, 123, 50, 44, 51, 125]

theorem sampleRational_rational : Rational (PropTable.find {}) sampleRationalText sampleRational where
  reading := by
    refine ⟨?_, rfl⟩
    simp [sampleRational, Body.WF, Alt.WF, Cat.WF, Atom.WF, Char1.WF, special, Quant.WF, SetWF, SetItem.WF, specialInSet, Atom.groups,
      Cat.groups, Alt.groups, Body.groups, isNumber, isDec, Atom.lazyOnly]
  faithful := by
    simp [sampleRational, Body.Faithful, Alt.Faithful, Cat.Faithful, Atom.Faithful, Quant.Faithful, Char1.Faithful, SetItem.Faithful,
      possessiveItem, Atom.possessive, Atom.leadsPossessive, Cat.leadsPossessive, Quant.kind, decimal]
  size := by decide +kernel
  regular := by decide +kernel
  firm := by decide +kernel
  loose := by decide +kernel

example : sampleRational.small = true := by decide +kernel

-- "abcabdef" is in the language, "abd" is not
example : ∃ r, build {} sampleRationalText = .pattern r ∧ (cMatch {} 60 [97, 98, 99, 97, 98, 100, 101, 102] {} r).success = true ∧
    (cMatch {} 60 [97, 98, 100] {} r).success = false := ⟨_, rfl, by decide +kernel⟩

/-- `(?:a|ab)*c` -/
def sampleIrrational : Body := .alt (.one (.cons (.group (.alt (.bar (.one (.ch (.plain 97)) .none)
  (.one (.cons (.ch (.plain 97)) .none (.one (.ch (.plain 98)) .none)))))) (.star .greedy) (.one (.ch (.plain 99)) .none)))

/-- The condition on repetitions is needed: "abc" is in the language of `(?:a|ab)*c`, but `match` fails. -/
theorem C79_fails_two_ways :
    sampleIrrational.regular = true ∧ sampleIrrational.loose = true ∧ sampleIrrational.firm = false ∧
    sampleIrrational.Accepts {} {} [97, 98, 99] ∧
    ∃ r, build {} sampleIrrational.print = .pattern r ∧ (cMatch {} 40 [97, 98, 99] {} r).success = false := by
  refine ⟨by decide +kernel, by decide +kernel, by decide +kernel, ?_, _, rfl, by decide +kernel⟩
  unfold Surface.Body.Accepts
  have hc : ∀ v : Nat, (CC.chr v).matchChar (Cfg.uni {}) false v = true →
      ([(v : Int)] : List Ch) ∈ powers (Atom.lang (Cfg.uni {}) false false (.ch (.plain v))) Quant.none.admits := by
    intro v hv
    refine ⟨1, rfl, ?_⟩
    rw [pow_one]
    exact ⟨(v : Int), rfl, hv⟩
  have hab : ([97, 98] : List Ch) ∈ Cat.lang (Cfg.uni {}) false false (.cons (.ch (.plain 97)) .none (.one (.ch (.plain 98)) .none)) :=
    Language.mem_mul.2 ⟨[97], hc 97 rfl, [98], hc 98 rfl, rfl⟩
  refine Language.mem_mul.2 ⟨[97, 98], ⟨1, trivial, ?_⟩, [99], hc 99 rfl, rfl⟩
  rw [pow_one]
  exact .inr hab

end Ctre
