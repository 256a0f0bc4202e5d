import Verif.Lemmas.Anchoring
import Verif.Lemmas.Modes
import Verif.Props.Indifferent
import Verif.Props.Default
import Verif.Props.Respell

/-
C92: `match`, `starts_with` and `search` can be expressed by each other, with anchors in the pattern.
-/
namespace Ctre
open Parse Surface

variable {P : PropTable} {t : List Nat} {r r' : Re} {b : Body}

/-- Two answers say the same: they are equal, or both are results that are no matches, with the same groups. -/
def SameAnswer (e e' : Exec) : Prop :=
  e = e' ∨ ∃ c c', e = .done c ∧ e' = .done c' ∧ c.whole.matched = false ∧ c'.whole.matched = false ∧ c.groups = c'.groups

/-- Whatever the one call returns, the other one returns the same. -/
def SameCalls (call call' : Nat → Exec) : Prop :=
  (∀ e, Returns call e → ∃ e', Returns call' e' ∧ SameAnswer e e') ∧ ∀ e', Returns call' e' → ∃ e, Returns call e ∧ SameAnswer e e'

/-- C92: the texts `(?:t)\z`, `\A(?:t)`, `\A(?:t)\z`, `^(?:t)$`, `(?:t)[^]*` and `[^]*?(?:t)[^]*` can be written for every pattern `t` and are accepted. -/
theorem C92_accepted (hb : Reading P.find t b) :
    Reading P.find ([40, 63, 58] ++ t ++ [41, 92, 122]) (upToEnd b) ∧
    Reading P.find ([92, 65, 40, 63, 58] ++ t ++ [41]) (fromBegin b) ∧
    Reading P.find ([92, 65, 40, 63, 58] ++ t ++ [41, 92, 122]) (beginToEnd b) ∧
    Reading P.find ([94, 40, 63, 58] ++ t ++ [41, 36]) (caretDollar b) ∧
    Reading P.find ([40, 63, 58] ++ t ++ [41, 91, 94, 93, 42]) (withRest b) ∧
    Reading P.find ([91, 94, 93, 42, 63, 40, 63, 58] ++ t ++ [41, 91, 94, 93, 42]) (somewhere b) := by
  obtain ⟨h, rfl⟩ := hb
  refine ⟨⟨?_, ?_⟩, ⟨?_, ?_⟩, ⟨?_, ?_⟩, ⟨?_, ?_⟩, ⟨?_, ?_⟩, ⟨?_, ?_⟩⟩
  all_goals simp [upToEnd, fromBegin, beginToEnd, caretDollar, withRest, somewhere, anyCharacter, Body.WF, Alt.WF, Cat.WF, Atom.WF, Quant.WF,
    SetWF, Atom.groups, Body.print, Alt.print, Cat.print, Atom.print, Quant.print, printItems, printKind, h]

theorem returns_toExec {C : Cfg} {s : List Ch} {lb : Bool} {cur : Nat} {f : Flags} {c : Caps} {st : Stack} {e : Exec} {r : Re} :
    Returns (fun n => (eval C n s lb cur f c st).toExec r) e ↔ ∃ o, Runs C s lb cur f c st o ∧ o.toExec r = e := by
  constructor
  · rintro ⟨he, n, hn⟩
    refine ⟨_, ⟨?_, n, rfl⟩, hn⟩
    intro h
    simp only [h] at hn
    exact he hn.symm
  · rintro ⟨o, ⟨ho, n, hn⟩, rfl⟩
    refine ⟨?_, n, by simp only [hn]⟩
    cases o <;> simp_all [Out.toExec]

theorem runs_start {C : Cfg} {s : List Ch} {cur : Nat} {f : Flags} {c : Caps} {st : Stack} {o : Out} :
    Runs C s false cur f c (.startMark :: st) o ↔ Runs C s false cur f (c.setStart cur) st o :=
  runs_of_step (fun n => by rw [eval_startMark]; simp)

theorem runs_sBegin {C : Cfg} {s : List Ch} {lb : Bool} {f : Flags} {c : Caps} {st : Stack} {o : Out} :
    Runs C s lb 0 f c (.re .sBegin :: st) o ↔ Runs C s lb 0 f c st o :=
  runs_of_step (fun n => by rw [eval_test (h := rfl)]; simp [testAt])

theorem runs_lBegin {C : Cfg} {s : List Ch} {lb : Bool} {f : Flags} {c : Caps} {st : Stack} {o : Out} (hf : f.ml = false) :
    Runs C s lb 0 f c (.re .lBegin :: st) o ↔ Runs C s lb 0 f c st o :=
  runs_of_step (fun n => by rw [eval_test (h := rfl)]; simp [testAt, hf])

theorem initCaps_of_flat {r r' : Re} (h : r.captures = r'.captures) : initCaps r = initCaps r' := by
  unfold initCaps; rw [h]

theorem toExec_congr {r r' : Re} (h : initCaps r = initCaps r') (o : Out) : o.toExec r = o.toExec r' := by
  cases o <;> simp [Out.toExec, h]

/-- C92: `match` of a pattern is `starts_with` of the pattern with `\z` at its end: for every pattern, every subject, all flags, from every
position and in every build the one returns the same result object as the other. -/
theorem C92_match_is_starts_with (hb : Reading P.find t b) (hr : build P t = .pattern r)
    (hr' : build P ([40, 63, 58] ++ t ++ [41, 92, 122]) = .pattern r') (C : Cfg) (s : List Ch) (f : Flags) (p : Nat) (e : Exec) :
    Returns (fun n => matchAt C n s f r p) e ↔ Returns (fun n => startsWithAt C n s f r' p) e := by
  have e1 := reading_tree hr hb
  have e2 := reading_tree hr' (C92_accepted hb).1
  have e3 : r' = .seq [r, .sEnd] := by
    rw [e1, e2]
    simp [upToEnd, bodyTree, altTree, catTree, quantTree, atomTree, sequence_sEnd]
  have hc : initCaps r = initCaps r' := initCaps_of_flat (by rw [e3]; simp [Re.captures, capturesList])
  unfold matchAt startsWithAt attemptFull attempt
  rw [returns_toExec, returns_toExec, hc, e3]
  have key : ∀ o, Runs C s false p f (initCaps (.seq [r, .sEnd])) [.startMark, .re r, .re .sEnd, .endMark, .accept] o ↔
      Runs C s false p f (initCaps (.seq [r, .sEnd])) [.startMark, .re (.seq [r, .sEnd]), .endMark, .accept] o := by
    intro o
    have : flatStack [.startMark, .re r, .re .sEnd, .endMark, .accept] = flatStack [.startMark, .re (.seq [r, .sEnd]), .endMark, .accept] := by
      simp [flatStack, Item.flat, Re.flat, flatList]
    exact ⟨runs_flat this, runs_flat this.symm⟩
  simp only [key, toExec_congr (hc.trans (by rw [e3]))]

/-- What `search` returns if the pattern is treated as anchored. -/
theorem sameCalls_anchored {C : Cfg} {s : List Ch} {f : Flags} {st : Stack} (ha : startsWithAnchor f r' = true) (hc : initCaps r = initCaps r')
    (hst : ∀ o, Runs C s false 0 f (initCaps r) st o ↔ Runs C s false 0 f (initCaps r') [.startMark, .re r', .endMark, .accept] o) :
    SameCalls (fun n => (eval C n s false 0 f (initCaps r) st).toExec r) (fun n => cSearch C n s f r') := by
  have h1 : ∀ n, cSearch C n s f r' = match attempt C n s f r' 0 with
      | .fail => .done ((initCaps r').setEnd 0)
      | o => o.toExec r' := by
    intro n
    simp only [cSearch, searchAt, ha, if_true, searchLoop]
    rfl
  have hsame : ∀ o : Out, SameAnswer (o.toExec r) (match (generalizing := false) o with
      | .fail => .done ((initCaps r').setEnd 0)
      | o => o.toExec r') := by
    intro o
    cases o with
    | fail => exact .inr ⟨_, _, rfl, rfl, rfl, rfl, by rw [hc]; rfl⟩
    | _ => exact .inl (toExec_congr hc _)
  have hnt : ∀ o : Out, o ≠ .timeout → (match (generalizing := false) o with
      | .fail => Exec.done ((initCaps r').setEnd 0)
      | o => o.toExec r') ≠ .timeout := by
    intro o ho
    cases o <;> simp_all [Out.toExec]
  constructor
  · intro e he
    rw [returns_toExec] at he
    obtain ⟨o, ho, rfl⟩ := he
    obtain ⟨h2, n, hn⟩ := (hst o).1 ho
    refine ⟨_, ⟨hnt o h2, n, ?_⟩, hsame o⟩
    simp only [h1, attempt, hn]
  · rintro e' ⟨he, n, hn⟩
    simp only [h1] at hn
    have h2 : attempt C n s f r' 0 ≠ .timeout := by
      intro h; rw [h] at hn; exact he hn.symm
    have h3 := (hst _).2 ⟨h2, n, rfl⟩
    refine ⟨_, returns_toExec.2 ⟨_, h3, rfl⟩, ?_⟩
    rw [← hn]
    exact hsame _

theorem anchored_sBegin (f : Flags) {r r' : Re} (h : r'.flat = .sBegin :: r.flat) : startsWithAnchor f r' = true := by
  rw [startsWithAnchor, ← anchor_flat, h]
  simp [anchorSeq, anchorRe]

/-- C92: `starts_with` of a pattern is `search` for the pattern with `\A` in front. -/
theorem C92_starts_with_is_search (hb : Reading P.find t b) (hr : build P t = .pattern r)
    (hr' : build P ([92, 65, 40, 63, 58] ++ t ++ [41]) = .pattern r') (C : Cfg) (s : List Ch) (f : Flags) :
    SameCalls (fun n => cStartsWith C n s f r) (fun n => cSearch C n s f r') := by
  have e1 := reading_tree hr hb
  have e2 := reading_tree hr' (C92_accepted hb).2.1
  have e3 : r'.flat = .sBegin :: r.flat := by
    rw [e1, e2]
    simp [fromBegin, bodyTree, altTree, catTree, quantTree, atomTree, sequence_sBegin_flat (body_ne b)]
  have hc : initCaps r = initCaps r' :=
    initCaps_of_flat (by rw [← captures_flat r, ← captures_flat r', e3]; simp [Re.captures, capturesList])
  refine sameCalls_anchored (anchored_sBegin f e3) hc fun o => ?_
  have h1 : flatStack [.startMark, .re r', .endMark, .accept] = flatStack [.startMark, .re .sBegin, .re r, .endMark, .accept] := by
    simp [flatStack, Item.flat, Re.flat, e3]
  rw [show (Runs C s false 0 f (initCaps r') [.startMark, .re r', .endMark, .accept] o ↔ _) from ⟨runs_flat h1, runs_flat h1.symm⟩,
    runs_start, runs_start, runs_sBegin, hc]

/-- C92: `match` of a pattern is `search` for the pattern between `\A` and `\z`. -/
theorem C92_match_is_search (hb : Reading P.find t b) (hr : build P t = .pattern r)
    (hr' : build P ([92, 65, 40, 63, 58] ++ t ++ [41, 92, 122]) = .pattern r') (C : Cfg) (s : List Ch) (f : Flags) :
    SameCalls (fun n => cMatch C n s f r) (fun n => cSearch C n s f r') := by
  have e1 := reading_tree hr hb
  have e2 := reading_tree hr' (C92_accepted hb).2.2.1
  have e3 : r' = .seq [.sBegin, r, .sEnd] := by
    rw [e1, e2]
    simp [beginToEnd, bodyTree, altTree, catTree, quantTree, atomTree, sequence_sEnd, makeSequence]
  have e4 : r'.flat = .sBegin :: (Re.seq [r, .sEnd]).flat := by rw [e3]; simp [Re.flat, flatList]
  have hc : initCaps r = initCaps r' := initCaps_of_flat (by rw [e3]; simp [Re.captures, capturesList])
  refine sameCalls_anchored (anchored_sBegin f e4) hc fun o => ?_
  have h1 : flatStack [.startMark, .re r', .endMark, .accept] = flatStack [.startMark, .re .sBegin, .re r, .re .sEnd, .endMark, .accept] := by
    simp [flatStack, Item.flat, Re.flat, e3, flatList]
  rw [show (Runs C s false 0 f (initCaps r') [.startMark, .re r', .endMark, .accept] o ↔ _) from ⟨runs_flat h1, runs_flat h1.symm⟩,
    runs_start, runs_start, runs_sBegin, hc]

/-- C92: `match` of a pattern is `search` for the pattern between `^` and `$`, if multiline mode is off and the pattern does not switch it on. -/
theorem C92_match_is_search_lines (hb : Reading P.find t b) (hk : b.keepsLines = true) (hr : build P t = .pattern r)
    (hr' : build P ([94, 40, 63, 58] ++ t ++ [41, 36]) = .pattern r') (C : Cfg) (s : List Ch) {f : Flags} (hf : f.ml = false) :
    SameCalls (fun n => cMatch C n s f r) (fun n => cSearch C n s f r') := by
  have e1 := reading_tree hr hb
  have e2 := reading_tree hr' (C92_accepted hb).2.2.2.1
  have e3 : r' = .seq [.lBegin, r, .lEnd] := by
    rw [e1, e2]
    simp [caretDollar, bodyTree, altTree, catTree, quantTree, atomTree, sequence_lEnd, makeSequence]
  have hc : initCaps r = initCaps r' := initCaps_of_flat (by rw [e3]; simp [Re.captures, capturesList])
  have ha : startsWithAnchor f r' = true := by rw [e3]; simp [startsWithAnchor, anchorRe, anchorSeq, hf]
  refine sameCalls_anchored ha hc fun o => ?_
  have h1 : flatStack [.startMark, .re r', .endMark, .accept] = flatStack [.startMark, .re .lBegin, .re r, .re .lEnd, .endMark, .accept] := by
    simp [flatStack, Item.flat, Re.flat, e3, flatList]
  rw [show (Runs C s false 0 f (initCaps r') [.startMark, .re r', .endMark, .accept] o ↔ _) from ⟨runs_flat h1, runs_flat h1.symm⟩,
    runs_start, runs_start, runs_lBegin hf, hc]
  have h2 := fun n => eval_dollar C [.endMark, .accept] n s false 0 f ((initCaps r').setStart 0) [.re r] hf
    (stkLines_re.2 ⟨by rw [e1]; exact body_keepsLines b hk, by simp [StkLines]⟩)
  simp only [List.cons_append, List.nil_append] at h2
  simp only [Runs, h2]

/-! ### `[^]*` around the pattern -/

theorem withRest_orderly (hb : Orderly P.find t b) (hz : b.size + 3 < 2 ^ 64) :
    Orderly P.find ([40, 63, 58] ++ t ++ [41, 91, 94, 93, 42]) (withRest b) := by
  have hv : (withRest b).visible = b.visible := by
    simp [withRest, anyCharacter, Body.visible, Alt.visible, Cat.visible, Atom.visible]
  constructor
  · exact (C92_accepted hb.reading).2.2.2.2.1
  · simp [withRest, anyCharacter, Body.Faithful, Alt.Faithful, Cat.Faithful, Atom.Faithful, Quant.Faithful, hb.faithful, Cat.leadsPossessive, Quant.kind]
  · simp only [withRest, anyCharacter, Body.size, Alt.size, Cat.size, Atom.size, Quant.size]; omega
  · simp [withRest, anyCharacter, Body.inOrder, Alt.inOrder, Cat.inOrder, Atom.inOrder, Quant.overLazy, hb.inOrder]
  · rw [hv]
    simp [withRest, anyCharacter, Body.selfFree, Alt.selfFree, Cat.selfFree, Atom.selfFree, hb.selfFree]
  · rw [hv]
    simp [withRest, anyCharacter, Body.known, Alt.known, Cat.known, Atom.known, hb.known]
  · simp [withRest, anyCharacter, Body.attentive, Alt.attentive, Cat.attentive, Atom.attentive, Atom.honest, hb.attentive]

theorem somewhere_orderly (hb : Orderly P.find t b) (hz : b.size + 3 < 2 ^ 64) :
    Orderly P.find ([91, 94, 93, 42, 63, 40, 63, 58] ++ t ++ [41, 91, 94, 93, 42]) (somewhere b) := by
  have hv : (somewhere b).visible = b.visible := by
    simp [somewhere, anyCharacter, Body.visible, Alt.visible, Cat.visible, Atom.visible]
  constructor
  · exact (C92_accepted hb.reading).2.2.2.2.2
  · simp [somewhere, anyCharacter, Body.Faithful, Alt.Faithful, Cat.Faithful, Atom.Faithful, Quant.Faithful, hb.faithful, Cat.leadsPossessive,
      possessiveItem, Quant.kind]
  · simp only [somewhere, anyCharacter, Body.size, Alt.size, Cat.size, Atom.size, Quant.size]; omega
  · simp [somewhere, anyCharacter, Body.inOrder, Alt.inOrder, Cat.inOrder, Atom.inOrder, Quant.overLazy, hb.inOrder]
  · rw [hv]
    simp [somewhere, anyCharacter, Body.selfFree, Alt.selfFree, Cat.selfFree, Atom.selfFree, hb.selfFree]
  · rw [hv]
    simp [somewhere, anyCharacter, Body.known, Alt.known, Cat.known, Atom.known, hb.known]
  · simp [somewhere, anyCharacter, Body.attentive, Alt.attentive, Cat.attentive, Atom.attentive, Atom.honest, hb.attentive]

theorem any_written (up : Bool) : setWritten up true [] = true := by
  cases up <;> decide +kernel

theorem withRest_steadfast {f : Flags} (hb : Steadfast P.find t b f) (hz : b.size + 3 < 2 ^ 64) :
    Steadfast P.find ([40, 63, 58] ++ t ++ [41, 91, 94, 93, 42]) (withRest b) f := by
  obtain ⟨h1, ⟨ml, h2, h3⟩, h4, h5⟩ := hb
  refine ⟨withRest_orderly h1 hz, ⟨ml, h2, ?_⟩, h4, ?_⟩
  · simp [withRest, anyCharacter, Body.robust, Alt.robust, Cat.robust, Atom.robust, Quant.robust, Cat.moves, Cat.tests, Cat.scans, Atom.moves, Atom.scans,
      itemMoves, itemTests, Quant.low, Quant.kind, h3]
  · simpa [withRest, Body.caseSafe, Body.ignores, Alt.ignores, Cat.ignores, Atom.ignores, anyCharacter, Body.written, Alt.written, Cat.written,
      Atom.written, any_written false, any_written true] using h5

theorem somewhere_steadfast {f : Flags} (hb : Steadfast P.find t b f) (hz : b.size + 3 < 2 ^ 64) :
    Steadfast P.find ([91, 94, 93, 42, 63, 40, 63, 58] ++ t ++ [41, 91, 94, 93, 42]) (somewhere b) f := by
  obtain ⟨h1, ⟨ml, h2, h3⟩, h4, h5⟩ := hb
  refine ⟨somewhere_orderly h1 hz, ⟨ml, h2, ?_⟩, h4, ?_⟩
  · simp [somewhere, anyCharacter, Body.robust, Alt.robust, Cat.robust, Atom.robust, Quant.robust, Cat.moves, Cat.tests, Cat.scans, Atom.moves, Atom.scans,
      itemMoves, itemTests, Quant.low, Quant.kind, h3]
  · simpa [somewhere, Body.caseSafe, Body.ignores, Alt.ignores, Cat.ignores, Atom.ignores, anyCharacter, Body.written, Alt.written, Cat.written,
      Atom.written, any_written false, any_written true] using h5

/-- Two results have the same groups, both are failures or both are matches, and then every group has captured the same. -/
structure SameGroups (c c' : Caps) : Prop where
  matched : c.whole.matched = c'.whole.matched
  names : c.groups.map (fun g => (g.id, g.name)) = c'.groups.map (fun g => (g.id, g.name))
  slots : c.whole.matched = true → ∀ id, id ≠ 0 → SameSlot (c.get id) (c'.get id)

theorem sameGroups_of {c c' : Caps} {p p' e : Nat} {τ : MState} (hs : shape c.groups = shape c'.groups) (h : c.whole.matched = true)
    (h' : c'.whole.matched = true) (hr : Reports c p τ) (hr' : Reports c' p' { τ with pos := e }) : SameGroups c c' := by
  refine ⟨by rw [h, h'], hs, fun _ id h0 => ?_⟩
  have hi := get_isSome hs id
  cases e : c.get id with
  | none =>
    rw [e] at hi
    cases e' : c'.get id with
    | none => trivial
    | some _ => rw [e'] at hi; simp at hi
  | some sl =>
    rw [e] at hi
    cases e' : c'.get id with
    | none => rw [e'] at hi; simp at hi
    | some sl' =>
      have g := hr.group id sl h0 e
      have g' := hr'.group id sl' h0 e'
      have hcap : ({ τ with pos := ‹Nat› } : MState).cap id = τ.cap id := rfl
      cases hc : τ.cap id with
      | none =>
        simp only [hc] at g g'
        exact ⟨by rw [g, g'], fun h => by rw [g] at h; simp at h⟩
      | some x =>
        simp only [hc] at g g'
        subst g; subst g'
        exact ⟨rfl, fun _ => rfl⟩

theorem withRest_full (C : Cfg) {s : List Ch} (f : Flags) (b : Body) {p : Nat} (hp : p ≤ s.length) :
    textWaysFull C s f (withRest b) p = (textWays C s f b p).map fun τ => { τ with pos := s.length } := by
  have he : (withRest b).env C = b.env C := by
    simp [Body.env, withRest, anyCharacter, Body.visible, Alt.visible, Cat.visible, Atom.visible]
  unfold textWaysFull textWays
  rw [he, withRest_ways b hp]

theorem somewhere_full (C : Cfg) (s : List Ch) (f : Flags) (b : Body) :
    textWaysFull C s f (somewhere b) 0 =
      (List.range' 0 (s.length + 1)).flatMap fun i => (textWays C s f b i).map fun τ => { τ with pos := s.length } := by
  have he : (somewhere b).env C = b.env C := by
    simp [Body.env, somewhere, anyCharacter, Body.visible, Alt.visible, Cat.visible, Atom.visible]
  unfold textWaysFull textWays
  rw [he, somewhere_ways b _ (Nat.zero_le _)]
  rfl

theorem sameGroups_rest {C : Cfg} {s : List Ch} {f : Flags} {p : Nat} (hp : p ≤ s.length) {c c' : Caps}
    (hs : shape c.groups = shape c'.groups) (h : ReportsFirst c p (textWays C s f b p)) (h' : ReportsFirst c' p (textWaysFull C s f (withRest b) p)) :
    SameGroups c c' := by
  rw [withRest_full C f b hp] at h'
  revert h h'
  cases textWays C s f b p with
  | nil =>
    intro h h'
    exact ⟨by rw [show c.whole.matched = false from h, show c'.whole.matched = false from h'], hs,
      fun k => by rw [show c.whole.matched = false from h] at k; simp at k⟩
  | cons τ L =>
    intro h h'
    exact sameGroups_of hs h.1 h'.1 h.2 h'.2

theorem range'_head {α : Type} (F : Nat → List α) {q : Nat} {x : α} {rest : List α} (h0 : ∀ i, i < q → F i = []) (hq : F q = x :: rest) :
    ∀ k a, a ≤ q → q < a + k → ∃ L, (List.range' a k).flatMap F = x :: L := by
  intro k
  induction k with
  | zero => intro a h1 h2; omega
  | succ k ih =>
    intro a h1 h2
    rw [List.range'_succ, List.flatMap_cons]
    by_cases e : a = q
    · subst e; rw [hq]; exact ⟨_, rfl⟩
    · obtain ⟨L, hL⟩ := ih (a + 1) (by omega) (by omega)
      exact ⟨L, by rw [h0 a (by omega), hL, List.nil_append]⟩

theorem sameGroups_somewhere {C : Cfg} {s : List Ch} {f : Flags} {c c' : Caps} (hs : shape c.groups = shape c'.groups)
    (h : (c.whole.matched = true ∧ ∃ q τ rest, q ≤ s.length ∧ textWays C s f b q = τ :: rest ∧ Reports c q τ ∧
          ∀ i, i < q → textWays C s f b i = []) ∨
        (c.whole.matched = false ∧ ∀ i, i ≤ s.length → textWays C s f b i = []))
    (h' : ReportsFirst c' 0 (textWaysFull C s f (somewhere b) 0)) : SameGroups c c' := by
  rw [somewhere_full] at h'
  rcases h with ⟨h1, q, τ, rest, hq, h2, h3, h4⟩ | ⟨h1, h2⟩
  · obtain ⟨L, hL⟩ := range'_head (fun i => (textWays C s f b i).map fun τ => ({ τ with pos := s.length } : MState)) (q := q)
      (x := { τ with pos := s.length }) (rest := rest.map fun τ => { τ with pos := s.length }) (fun i hi => by simp [h4 i hi]) (by simp [h2])
      (s.length + 1) 0 (Nat.zero_le _) (by omega)
    rw [hL] at h'
    exact sameGroups_of hs h1 h'.1 h3 h'.2
  · have : (List.range' 0 (s.length + 1)).flatMap (fun i => (textWays C s f b i).map fun τ => ({ τ with pos := s.length } : MState)) = [] := by
      simp only [List.flatMap_eq_nil_iff, List.mem_range'_1]
      intro i hi
      rw [h2 i (by omega)]; rfl
    rw [this] at h'
    exact ⟨by rw [h1, show c'.whole.matched = false from h'], hs, fun k => by rw [h1] at k; simp at k⟩

theorem orderly_shape (hb : Orderly P.find t b) {t' : List Nat} {b' : Body} (hb' : Orderly P.find t' b') (hv : b'.visible = b.visible) :
    (bodyTree b').captures = (bodyTree b).captures := by
  rw [captures_body b hb.reading.1, captures_body b' hb'.reading.1, hv]

theorem withRest_visible (b : Body) : (withRest b).visible = b.visible := by
  simp [withRest, anyCharacter, Body.visible, Alt.visible, Cat.visible, Atom.visible]

theorem somewhere_visible (b : Body) : (somewhere b).visible = b.visible := by
  simp [somewhere, anyCharacter, Body.visible, Alt.visible, Cat.visible, Atom.visible]

theorem Orderly.numbered (hb : Orderly P.find t b) : (bodyTree b).Numbered :=
  (body_wellNumbered hb.reading.1 hb.faithful hb.selfFree).numbered

/-- C92: `starts_with` of a pattern is `match` of the pattern with `[^]*` at its end, without the optimisation of greedy repetitions: the one
is a match if the other is, and then all the groups have captured the same. -/
theorem C92_starts_with_is_match (hb : Orderly P.find t b) (hz : b.size + 3 < 2 ^ 64) (hr : build P t = .pattern r)
    (hr' : build P ([40, 63, 58] ++ t ++ [41, 91, 94, 93, 42]) = .pattern r') {C : Cfg} (hC : C.greedyOpt = false) {s : List Ch} {f : Flags}
    {p : Nat} (hp : p ≤ s.length) : ∃ N, ∀ n, N ≤ n →
      ∃ c c', startsWithAt C n s f r p = .done c ∧ matchAt C n s f r' p = .done c' ∧ SameGroups c c' := by
  have hb' := withRest_orderly hb hz
  refine ⟨max (r.weight + s.length + 7) (r'.weight + s.length + 7), fun n hn => ?_⟩
  obtain ⟨-, c, h1, h2⟩ := C75_match (C := C) (n := n) hr hb hC (f := f) hp (by omega)
  obtain ⟨⟨c', h3, h4⟩, -⟩ := C75_match (C := C) (n := n) hr' hb' hC (f := f) hp (by omega)
  refine ⟨c, c', h1, h3, sameGroups_rest hp ?_ h2 h4⟩
  have e := hb.tree hr
  have e' := hb'.tree hr'
  rw [shape_startsWith (e ▸ hb.numbered) hp h1, shape_match (e' ▸ hb'.numbered) hp h3, e, e', orderly_shape hb hb' (withRest_visible b)]

/-- C92: `search` for a pattern is `match` of the pattern with `[^]*?` in front and `[^]*` at its end, without the optimisation of greedy
repetitions. -/
theorem C92_search_is_match (hb : Orderly P.find t b) (hz : b.size + 3 < 2 ^ 64) (hr : build P t = .pattern r)
    (hr' : build P ([91, 94, 93, 42, 63, 40, 63, 58] ++ t ++ [41, 91, 94, 93, 42]) = .pattern r') {C : Cfg} (hC : C.greedyOpt = false)
    {s : List Ch} {f : Flags} (hbeg : b.placed f.ml = true ∨ b.begins f.ml = true) : ∃ N, ∀ n, N ≤ n →
      ∃ c c', cSearch C n s f r = .done c ∧ cMatch C n s f r' = .done c' ∧ SameGroups c c' := by
  have hb' := somewhere_orderly hb hz
  have e := hb.tree hr
  have e' := hb'.tree hr'
  refine ⟨max (r.weight + s.length + 7) (r'.weight + s.length + 7), fun n hn => ?_⟩
  obtain ⟨c, h1, h2⟩ := search_reports (n := n) (s := s) hr hb hC (f := f)
    (by rw [e]; exact body_taken hb.faithful hb.size hbeg) (by omega)
  obtain ⟨⟨c', h3, h4⟩, -⟩ := C75_match (C := C) (n := n) (s := s) hr' hb' hC (f := f) (Nat.zero_le _) (by omega)
  refine ⟨c, c', h1, h3, sameGroups_somewhere ?_ h2 h4⟩
  rw [shape_search (e ▸ hb.numbered) h1, shape_match (e' ▸ hb'.numbered) (Nat.zero_le _) h3, e, e', orderly_shape hb hb' (somewhere_visible b)]

theorem SameGroups.mapPos {c c' : Caps} (h : SameGroups c c') (φ : Nat → Nat) : SameGroups (c.mapPos φ) (c'.mapPos φ) := by
  obtain ⟨h1, h2, h3⟩ := h
  refine ⟨h1, ?_, fun hm id h0 => ?_⟩
  · simpa [Caps.mapPos, Function.comp_def, Group.mapPos] using h2
  · have := h3 hm id h0
    rw [get_mapPos, get_mapPos]
    revert this
    cases c.get id <;> cases c'.get id <;> simp only [SameSlot, Option.map_none, Option.map_some, imp_self]
    rename_i u v
    intro k
    refine ⟨k.1, fun e => ?_⟩
    rw [k.2 e]

variable {lit lit' : PatLit} {x : Subject} {φ : Nat → Nat} {mods : List Mode}

/-- C92, the whole call, in every build: `starts_with` of a pattern is `match` of the pattern with `[^]*` at its end, whatever kind of literal
the patterns are written in and however the subject is represented. -/
theorem C92_starts_with_is_match_call {C : Cfg} {ml : Bool} (hb : Steadfast P.find t b (callFlags ml mods)) (hz : b.size + 3 < 2 ^ 64)
    (hl : lit.Spells t) (ht : ∀ c ∈ t, IsScalar c) (hl' : lit'.Spells ([40, 63, 58] ++ t ++ [41, 91, 94, 93, 42]))
    {s : List Nat} (hx : x.Holds s φ) (hs : ∀ c ∈ s, IsScalar c) (hf : (∃ u, x = .u8 u) → b.forward = true) : ∃ N, ∀ n, N ≤ n →
      ∃ y y', call P C n ml .startsWith mods lit x = some (.one (.done y)) ∧ call P C n ml .match_ mods lit' x = some (.one (.done y')) ∧
        SameGroups y y' := by
  have hb' := withRest_steadfast hb hz
  have ht' : ∀ c ∈ [40, 63, 58] ++ t ++ [41, 91, 94, 93, 42], IsScalar c := by
    simp only [List.mem_append, List.mem_cons, List.not_mem_nil, or_false]
    rintro c ((h | h) | h)
    · rcases h with rfl | rfl | rfl <;> decide
    · exact ht c h
    · rcases h with rfl | rfl | rfl | rfl | rfl <;> decide
  have hf' : (∃ u, x = .u8 u) → (withRest b).forward = true := fun h => by
    simp [withRest, anyCharacter, Body.forward, Alt.forward, Cat.forward, Atom.forward, hf h]
  refine ⟨max ((bodyTree b).weight + (codePoints s).length + 7) ((bodyTree (withRest b)).weight + (codePoints s).length + 7), fun n hn => ?_⟩
  obtain ⟨-, c, h1, h2⟩ := C83_match (C := C) (n := n) hb (codePoints_isCh hs) (Nat.zero_le _) (by omega)
  obtain ⟨⟨c', h3, h4⟩, -⟩ := C83_match (C := C) (n := n) hb' (codePoints_isCh hs) (Nat.zero_le _) (by omega)
  refine ⟨c.mapPos φ, c'.mapPos φ, ?_, ?_, (sameGroups_rest (Nat.zero_le _) ?_ h2 h4).mapPos φ⟩
  · rw [hb.call_eq hl ht hx hs hf]
    simp only [Method.plain, Answer.mapPos]
    rw [cStartsWith, h1]; rfl
  · rw [hb'.call_eq hl' ht' hx hs hf']
    simp only [Method.plain, Answer.mapPos]
    rw [cMatch, h3]; rfl
  · rw [shape_startsWith hb.orderly.numbered (Nat.zero_le _) h1, shape_match hb'.orderly.numbered (Nat.zero_le _) h3,
      orderly_shape hb.orderly hb'.orderly (withRest_visible b)]

/-- C92, the whole call, in every build: `search` for a pattern is `match` of the pattern with `[^]*?` in front and `[^]*` at its end. -/
theorem C92_search_is_match_call {C : Cfg} {ml : Bool} (hb : Steadfast P.find t b (callFlags ml mods)) (hz : b.size + 3 < 2 ^ 64)
    (hbeg : b.placed (callFlags ml mods).ml = true ∨ b.begins (callFlags ml mods).ml = true)
    (hl : lit.Spells t) (ht : ∀ c ∈ t, IsScalar c) (hl' : lit'.Spells ([91, 94, 93, 42, 63, 40, 63, 58] ++ t ++ [41, 91, 94, 93, 42]))
    {s : List Nat} (hx : x.Holds s φ) (hs : ∀ c ∈ s, IsScalar c) (hf : (∃ u, x = .u8 u) → b.forward = true) : ∃ N, ∀ n, N ≤ n →
      ∃ y y', call P C n ml .search mods lit x = some (.one (.done y)) ∧ call P C n ml .match_ mods lit' x = some (.one (.done y')) ∧
        SameGroups y y' := by
  have hb' := somewhere_steadfast hb hz
  have ht' : ∀ c ∈ [91, 94, 93, 42, 63, 40, 63, 58] ++ t ++ [41, 91, 94, 93, 42], IsScalar c := by
    simp only [List.mem_append, List.mem_cons, List.not_mem_nil, or_false]
    rintro c ((h | h) | h)
    · rcases h with rfl | rfl | rfl | rfl | rfl | rfl | rfl | rfl <;> decide
    · exact ht c h
    · rcases h with rfl | rfl | rfl | rfl | rfl <;> decide
  have hf' : (∃ u, x = .u8 u) → (somewhere b).forward = true := fun h => by
    simp [somewhere, anyCharacter, Body.forward, Alt.forward, Cat.forward, Atom.forward, hf h]
  refine ⟨max ((bodyTree b).weight + (codePoints s).length + 7) ((bodyTree (somewhere b)).weight + (codePoints s).length + 7), fun n hn => ?_⟩
  obtain ⟨c, h1, h2⟩ := C83_search (C := C) (n := n) hb hbeg (codePoints_isCh hs) (by omega)
  obtain ⟨⟨c', h3, h4⟩, -⟩ := C83_match (C := C) (n := n) hb' (codePoints_isCh hs) (Nat.zero_le _) (by omega)
  refine ⟨c.mapPos φ, c'.mapPos φ, ?_, ?_, (sameGroups_somewhere ?_ h2 h4).mapPos φ⟩
  · rw [hb.call_eq hl ht hx hs hf]
    simp only [Method.plain, Answer.mapPos]
    rw [h1]; rfl
  · rw [hb'.call_eq hl' ht' hx hs hf']
    simp only [Method.plain, Answer.mapPos]
    rw [cMatch, h3]; rfl
  · rw [shape_search hb.orderly.numbered h1, shape_match hb'.orderly.numbered (Nat.zero_le _) h3,
      orderly_shape hb.orderly hb'.orderly (somewhere_visible b)]

/-! ### Cases -/

/-- `(a+)(?<n>b)?\z`, `\A(a+)(?<n>b)?` and so on: `(a+)(?<n>b)?` is read, and multiline mode is not switched on in it. -/
def sampleBetween : Body := .alt (.one (.cons (.cap 1 (.alt (.one (.one (.ch (.plain 97)) (.plus .greedy))))) .none
  (.one (.named 2 [110] (.alt (.one (.one (.ch (.plain 98)) .none)))) (.opt .greedy))))

def sampleBetweenText : List Nat := [40, 97, 43, 41, 40, 63, 60, 110, 62, 98, 41, 63]

theorem sampleBetween_steadfast : Steadfast (PropTable.find {}) sampleBetweenText sampleBetween {} where
  orderly := {
    reading := by
      refine ⟨?_, rfl⟩
      simp [sampleBetween, Body.WF, Alt.WF, Cat.WF, Atom.WF, Char1.WF, special, Quant.WF, Atom.groups, Cat.groups, Alt.groups, Body.groups,
        isNameStart, Body.leadsName, Alt.leadsName, Cat.leadsName, Atom.leadsName]
    faithful := by
      simp [sampleBetween, Body.Faithful, Alt.Faithful, Cat.Faithful, Atom.Faithful, Quant.Faithful, Char1.Faithful, possessiveItem,
        Atom.possessive, Cat.leadsPossessive, Quant.kind]
    size := by decide +kernel
    inOrder := by decide +kernel
    selfFree := by simp [sampleBetween, Body.selfFree, Alt.selfFree, Cat.selfFree, Atom.selfFree]
    known := by decide +kernel
    attentive := by decide +kernel }
  robust := ⟨false, by decide +kernel, by decide +kernel⟩
  blk := rfl
  ci := by decide +kernel

example : sampleBetween.keepsLines = true ∧ sampleBetween.size + 3 < 2 ^ 64 ∧ sampleBetween.unanchored false = true ∧ sampleBetween.forward = true := by
  decide +kernel

/-- "caabd": `search` finds "aab", and so does `match` with `[^]*?` and `[^]*` around the pattern. -/
example : ∃ r r', build {} sampleBetweenText = .pattern r ∧
    build {} ([91, 94, 93, 42, 63, 40, 63, 58] ++ sampleBetweenText ++ [41, 91, 94, 93, 42]) = .pattern r' ∧
    (cSearch {} 200 [99, 97, 97, 98, 100] {} r).success = true ∧ (cMatch {} 200 [99, 97, 97, 98, 100] {} r).success = false ∧
    (cMatch {} 200 [99, 97, 97, 98, 100] {} r').success = true :=
  ⟨_, _, rfl, rfl, by decide +kernel, by decide +kernel, by decide +kernel⟩

/-- "aab" and "aabd" for `match` and for `search` with `\A` and `\z`. -/
example : ∃ r r', build {} sampleBetweenText = .pattern r ∧
    build {} ([92, 65, 40, 63, 58] ++ sampleBetweenText ++ [41, 92, 122]) = .pattern r' ∧
    (cMatch {} 200 [97, 97, 98] {} r).success = true ∧ (cSearch {} 200 [97, 97, 98] {} r').success = true ∧
    (cMatch {} 200 [97, 97, 98, 100] {} r).success = false ∧ (cSearch {} 200 [97, 97, 98, 100] {} r').success = false :=
  ⟨_, _, rfl, rfl, by decide +kernel, by decide +kernel, by decide +kernel, by decide +kernel⟩

/-- C92: if the pattern switches multiline mode on, `^` and `$` do not replace `match`: `(?m)a` does not match "a\nb", but `^(?:(?m)a)$` is
found in it, since `$` is still in that mode. -/
theorem C92_fails_multiline : ∃ r r', build {} [40, 63, 109, 41, 97] = .pattern r ∧
    build {} ([94, 40, 63, 58] ++ [40, 63, 109, 41, 97] ++ [41, 36]) = .pattern r' ∧
    (cMatch {} 60 [97, 10, 98] {} r).success = false ∧ (cSearch {} 60 [97, 10, 98] {} r').success = true :=
  ⟨_, _, rfl, rfl, by decide +kernel, by decide +kernel⟩

/-- C92: nor do they if multiline mode is on from the beginning: `a` and `^(?:a)$` on "a\nb". -/
theorem C92_fails_multiline_flag : ∃ r r', build {} [97] = .pattern r ∧ build {} [94, 40, 63, 58, 97, 41, 36] = .pattern r' ∧
    (cMatch {} 60 [97, 10, 98] { ml := true } r).success = false ∧ (cSearch {} 60 [97, 10, 98] { ml := true } r').success = true :=
  ⟨_, _, rfl, rfl, by decide +kernel, by decide +kernel⟩

end Ctre
