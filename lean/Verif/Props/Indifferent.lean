import Verif.Lemmas.Indifferent
import Verif.Props.TextLanguage
import Verif.Props.Modes

/-
C82: flags and modes make a difference only for patterns that contain what they are about.
-/
namespace Ctre
open Parse Surface

variable {P : PropTable} {t : List Nat} {r : Re} {b : Body}

theorem reading_tree (h : build P t = .pattern r) (hb : Reading P.find t b) : r = bodyTree b := by
  have := build_print hb.1
  rw [hb.2, h] at this
  cases this; rfl

/-- C82: if no character of the pattern is an ASCII letter and sets contain letters in both cases or in none, `match`, `starts_with` and
`search` give the same result whether case is ignored or not. -/
theorem C82_case (h : build P t = .pattern r) (hb : Reading P.find t b) (hc : b.caseFree = true) (C : Cfg) (n : Nat) (s : List Ch)
    (f : Flags) (ci : Bool) (p : Nat) :
    matchAt C n s { f with ci := ci } r p = matchAt C n s f r p ∧ startsWithAt C n s { f with ci := ci } r p = startsWithAt C n s f r p ∧
      searchAt C n s { f with ci := ci } r p = searchAt C n s f r p := by
  rw [reading_tree h hb]
  exact calls_indiff (x := true) (y := false) (f := { f with ci := ci }) (f' := f) C n s ⟨(fun e => by cases e), fun _ => rfl, rfl⟩
    (body_leaves true false b (fun _ => hc) (fun e => by cases e)) p

/-- C82: if there is no dot, `^`, `$` or `\Z` in the pattern, `match`, `starts_with` and `search` give the same result in multiline mode
and otherwise. -/
theorem C82_line (h : build P t = .pattern r) (hb : Reading P.find t b) (hl : b.lineFree = true) (C : Cfg) (n : Nat) (s : List Ch)
    (f : Flags) (ml : Bool) (p : Nat) :
    matchAt C n s { f with ml := ml } r p = matchAt C n s f r p ∧ startsWithAt C n s { f with ml := ml } r p = startsWithAt C n s f r p ∧
      searchAt C n s { f with ml := ml } r p = searchAt C n s f r p := by
  rw [reading_tree h hb]
  exact calls_indiff (x := false) (y := true) (f := { f with ml := ml }) (f' := f) C n s ⟨fun _ => rfl, (fun e => by cases e), rfl⟩
    (body_leaves false true b (fun e => by cases e) (fun _ => hl)) p

/-- C82: any list of flags is as good as none if both conditions hold. -/
theorem C82_flags (h : build P t = .pattern r) (hb : Reading P.find t b) (hc : b.caseFree = true) (hl : b.lineFree = true) (C : Cfg)
    (n : Nat) (s : List Ch) (l : List Mode) (p : Nat) :
    matchAt C n s (Flags.ofList l) r p = matchAt C n s {} r p ∧ startsWithAt C n s (Flags.ofList l) r p = startsWithAt C n s {} r p ∧
      searchAt C n s (Flags.ofList l) r p = searchAt C n s {} r p := by
  rw [reading_tree h hb]
  exact calls_indiff (x := true) (y := true) C n s ⟨(fun e => by cases e), (fun e => by cases e), (C37_flags_line l).2⟩
    (body_leaves true true b (fun _ => hc) (fun _ => hl)) p

theorem add_case {m : Mode} (hm : m = .caseInsensitive ∨ m = .caseSensitive) (f : Flags) : ∃ ci, f.add m = { f with ci := ci } := by
  rcases hm with rfl | rfl
  · exact ⟨true, rfl⟩
  · exact ⟨false, rfl⟩

/-- C82 for a mode at the beginning of the pattern: `(?i)` and `(?c)` in front of such a pattern have no effect on `match` and
`starts_with`. -/
theorem C82_prefix (C : Cfg) {m : Mode} (hm : m = .caseInsensitive ∨ m = .caseSensitive) {l : Cat} (h : l.WF P.find 0)
    (hc : l.caseFree = true) :
    ∃ r r', build P (modeText m ++ l.print) = .pattern r ∧ build P l.print = .pattern r' ∧
      ∀ (s : List Ch) (f : Flags) (e : Exec),
        (Returns (fun n => cMatch C n s f r) e ↔ Returns (fun n => cMatch C n s f r') e) ∧
        (Returns (fun n => cStartsWith C n s f r) e ↔ Returns (fun n => cStartsWith C n s f r') e) := by
  obtain ⟨r, r', h1, h2, h3⟩ := C37_prefix P C m h
  refine ⟨r, r', h1, h2, fun s f e => ?_⟩
  have hb : Reading P.find l.print (.alt (.one l)) := ⟨by simpa [Body.WF, Alt.WF] using h, by simp [Body.print, Alt.print]⟩
  obtain ⟨ci, hci⟩ := add_case hm f
  have h4 := h3 s f e
  rw [hci] at h4
  have h5 := fun n => C82_case h2 hb (by simpa [Body.caseFree, Alt.caseFree] using hc) C n s f ci 0
  have e1 : (fun n => cMatch C n s { f with ci := ci } r') = fun n => cMatch C n s f r' := funext fun n => (h5 n).1
  have e2 : (fun n => cStartsWith C n s { f with ci := ci } r') = fun n => cStartsWith C n s f r' := funext fun n => (h5 n).2.1
  rw [e1, e2] at h4
  exact ⟨h4.1, h4.2.1⟩

/-- C82 for the language of the text (see C79): it does not depend on the case. -/
theorem C82_language (h : build P t = .pattern r) (hb : Rational P.find t b) (hc : b.caseFree = true) (C : Cfg) (f : Flags) (ci : Bool)
    (w : List Ch) : b.Accepts C { f with ci := ci } w ↔ b.Accepts C f w := by
  have hC : C.plain.greedyOpt = false := rfl
  obtain ⟨⟨c1, h1, e1⟩, _⟩ := C79_decides h hb hC w { f with ci := ci } (Nat.le_refl _)
  obtain ⟨⟨c2, h2, e2⟩, _⟩ := C79_decides h hb hC w f (Nat.le_refl _)
  have := (C82_case h hb.reading hc C.plain (r.weight + w.length + 7) w f ci 0).1
  rw [cMatch] at h1 h2
  rw [h1, h2] at this
  cases this
  exact e1.symm.trans e2

/-- C82 and C79: in the default configuration, in which greedy repetitions are optimised, patterns for which case makes no difference
decide their language also when case is ignored. (For other patterns this may be false, see C34.) -/
theorem C82_decides (h : build P t = .pattern r) (hb : Rational P.find t b) (hm : b.small = true) (hc : b.caseFree = true) {C : Cfg} {n : Nat}
    {s : List Ch} (hs : ∀ v ∈ s, IsCh v) {f : Flags} (hblk : f.blk = false) (hn : r.weight + s.length + 7 ≤ n) :
    (∃ c, cMatch C n s f r = .done c ∧ (c.whole.matched = true ↔ b.Accepts C f s)) ∧
    (∃ c, cStartsWith C n s f r = .done c ∧ (c.whole.matched = true ↔ ∃ u v, s = u ++ v ∧ b.Accepts C f u)) ∧
    (∃ c, cSearch C n s f r = .done c ∧ (c.whole.matched = true ↔ ∃ u v w, s = u ++ v ++ w ∧ b.Accepts C f v)) := by
  have h1 := C79_decides_optimised h hb hm (C := C) hs (f := { f with ci := false }) hblk (regular_caseSafe hb.regular) hn
  have h2 := C82_case h hb.reading hc C n s f false 0
  simp only [cMatch, cStartsWith, cSearch] at h1 ⊢
  rw [h2.1, h2.2.1, h2.2.2] at h1
  simpa only [C82_language h hb hc] using h1

/-- C82: every ASCII letter makes a difference. -/
theorem C82_letters_matter : ∀ c : Nat, isAlpha c = true → ∃ r, build {} [c] = .pattern r ∧
    ∃ s, (cMatch {} 20 s { ci := true } r).success = true ∧ (cMatch {} 20 s { ci := false } r).success = false := by
  intro c hc
  have hlt : c < 128 := by
    simp only [isAlpha, isLower, isUpper, Bool.or_eq_true, Bool.and_eq_true, decide_eq_true_eq] at hc
    omega
  have key : ∀ i : Fin 128, isAlpha i.val = true → i.val ∉ special ∧
      (cMatch {} 20 [((Nat.xor i.val 32 : Nat) : Int)] { ci := true } (.cc (.chr i.val))).success = true ∧
      (cMatch {} 20 [((Nat.xor i.val 32 : Nat) : Int)] { ci := false } (.cc (.chr i.val))).success = false := by
    decide +kernel
  obtain ⟨h1, h2, h3⟩ := key ⟨c, hlt⟩ hc
  exact ⟨_, build_print (P := {}) (b := .alt (.one (.one (.ch (.plain c)) .none))) (by simpa [Body.WF, Alt.WF, Cat.WF, Atom.WF, Quant.WF, Char1.WF] using h1), _, h2, h3⟩

/-- C82: so do the dot, `^`, `$` and `\Z`: the patterns `.`, `\n^`, `$\n` and `\Z\n` on a newline. -/
theorem C82_lines_matter : ∀ t ∈ [[46], [92, 110, 94], [36, 92, 110], [92, 90, 92, 110]], ∃ r, build {} t = .pattern r ∧
    (cMatch {} 40 [10] { ml := true } r).success ≠ (cMatch {} 40 [10] { ml := false } r).success := by
  intro t ht
  simp only [List.mem_cons, List.not_mem_nil, or_false] at ht
  rcases ht with rfl | rfl | rfl | rfl
  all_goals exact ⟨_, rfl, by decide +kernel⟩

/-- C82: the condition on negated POSIX classes is needed: `[[:^lower:][:^upper:]]` matches "a" unless case is ignored. -/
theorem C82_negated_classes_matter : ∃ r, build {} [91, 91, 58, 94, 108, 111, 119, 101, 114, 58, 93, 91, 58, 94, 117, 112, 112, 101, 114, 58, 93, 93] = .pattern r ∧
    (cMatch {} 40 [97] { ci := false } r).success = true ∧ (cMatch {} 40 [97] { ci := true } r).success = false :=
  ⟨_, rfl, by decide +kernel, by decide +kernel⟩

/-- `(\w+)-[A-Fa-f0-9]{2}(?<=[^kK])\b` -/
def sampleCaseFree : Body :=
  .alt (.one (.cons (.cap 1 (.alt (.one (.one (.cls (.letter 119)) (.plus .greedy))))) .none
    (.cons (.ch (.plain 45)) .none
      (.cons (.set false [.range (.plain 65) (.plain 70), .range (.plain 97) (.plain 102), .range (.plain 48) (.plain 57)]) (.exactly [50])
        (.cons (.behind true (.alt (.one (.one (.set true [.one (.plain 107), .one (.plain 75)]) .none)))) .none
          (.one .wordBoundary .none))))))

example : Reading (PropTable.find {}) [40, 92, 119, 43, 41, 45, 91, 65, 45, 70, 97, 45, 102, 48, 45, 57, 93, 123, 50, 125, 40, 63, 60, 61, 91, 94,
    107, 75, 93, 41, 92, 98] sampleCaseFree ∧ sampleCaseFree.caseFree = true ∧ sampleCaseFree.lineFree = true := by
  refine ⟨⟨?_, by decide⟩, by decide +kernel, by decide +kernel⟩
  simp [sampleCaseFree, Body.WF, Alt.WF, Cat.WF, Atom.WF, Quant.WF, SetWF, SetItem.WF, Char1.WF, Cls.WF, isNumber, isDec, special, specialInSet,
    Body.hasMode, Alt.hasMode, Cat.hasMode, Atom.hasMode]

/-- `(\w\d-)*[A-Fa-f]{2}` -/
def sampleCaseFreeRational : Body :=
  .alt (.one (.cons (.cap 1 (.alt (.one (.cons (.cls (.letter 119)) .none (.cons (.cls (.letter 100)) .none (.one (.ch (.plain 45)) .none))))))
    (.star .greedy)
    (.one (.set false [.range (.plain 65) (.plain 70), .range (.plain 97) (.plain 102)]) (.exactly [50]))))

example : Rational (PropTable.find {}) [40, 92, 119, 92, 100, 45, 41, 42, 91, 65, 45, 70, 97, 45, 102, 93, 123, 50, 125] sampleCaseFreeRational ∧
    sampleCaseFreeRational.small = true ∧ sampleCaseFreeRational.caseFree = true := by
  refine ⟨⟨⟨?_, by decide⟩, ?_, by decide +kernel, by decide +kernel, by decide +kernel, by decide +kernel⟩, by decide +kernel, by decide +kernel⟩
  · simp [sampleCaseFreeRational, Body.WF, Alt.WF, Cat.WF, Atom.WF, Char1.WF, Cls.WF, special, Quant.WF, SetWF, SetItem.WF, specialInSet,
      isNumber, isDec]
  · simp [sampleCaseFreeRational, Body.Faithful, Alt.Faithful, Cat.Faithful, Atom.Faithful, Quant.Faithful, Char1.Faithful, SetItem.Faithful,
      possessiveItem, Atom.possessive, Atom.leadsPossessive, Cat.leadsPossessive, Quant.kind, decimal]

-- with case ignored and greedy repetitions optimised, "x5-aF" is matched and "x5-xx" is not
example : ∃ r, build {} sampleCaseFreeRational.print = .pattern r ∧ (cMatch {} 60 [120, 53, 45, 97, 70] { ci := true } r).success = true ∧
    (cMatch {} 60 [120, 53, 45, 120, 120] { ci := true } r).success = false := ⟨_, rfl, by decide +kernel⟩

example : (caseClosed [.range (.plain 97) (.plain 122)] = false) ∧ caseClosed [.range (.plain 64) (.plain 122)] = true ∧
    caseClosed [.posix false .lower, .range (.plain 65) (.plain 90)] = true := by decide +kernel

end Ctre
