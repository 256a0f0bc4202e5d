import Verif.Lemmas.Recase
import Verif.Props.Default
import Verif.Props.Indifferent

/-
C87: ignoring case amounts to bringing the subject into the case in which the pattern is written.
-/
namespace Ctre
open Parse Surface

variable {P : PropTable} {C : Cfg} {n : Nat} {ml : Bool} {m : Method} {mods mods' : List Mode} {lit : PatLit} {t s s' : List Nat} {r : Re}
  {b : Body} {f : Flags} {up : Bool}

/-- C87: if the pattern is written in one case, `match`, `starts_with` and `search` from any position give, with case ignored, the result
that they give on the subject in that case, whether case is ignored there or not. -/
theorem C87_case (h : build P t = .pattern r) (hb : Reading P.find t b) (hfa : b.Faithful) (hr : b.recased up = true) (C : Cfg) (n : Nat)
    (s : List Ch) (f : Flags) (ci : Bool) (p : Nat) :
    matchAt C n s { f with ci := true } r p = matchAt C n (s.map (caseForm up)) { f with ci := ci } r p ∧
    startsWithAt C n s { f with ci := true } r p = startsWithAt C n (s.map (caseForm up)) { f with ci := ci } r p ∧
    searchAt C n s { f with ci := true } r p = searchAt C n (s.map (caseForm up)) { f with ci := ci } r p := by
  rw [reading_tree h hb]
  exact calls_recast (f := { f with ci := true }) (f' := { f with ci := ci }) C n s ⟨rfl, rfl, rfl⟩ (body_recased b hfa hr) p

theorem plain_recast (hfa : b.Faithful) (hr : b.recased up = true) {f f' : Flags} (hf : FlagsRecast f f') (C : Cfg) (n : Nat) (s : List Ch)
    (m : Method) : m.plain C n f (bodyTree b) s = m.plain C n f' (bodyTree b) (s.map (caseForm up)) := by
  have key := calls_recast C n s hf (body_recased b hfa hr)
  have h1 : searchAt C n s f (bodyTree b) = searchAt C n (s.map (caseForm up)) f' (bodyTree b) := funext fun p => (key p).2.2
  have h2 : startsWithAt C n s f (bodyTree b) = startsWithAt C n (s.map (caseForm up)) f' (bodyTree b) := funext fun p => (key p).2.1
  have h3 : ∀ k, searchAllNth C n s f (bodyTree b) k = searchAllNth C n (s.map (caseForm up)) f' (bodyTree b) k := by
    intro k; simp only [searchAllNth, h1, List.length_map]
  have h4 : ∀ k, tokenizeNth C n s f (bodyTree b) k = tokenizeNth C n (s.map (caseForm up)) f' (bodyTree b) k := by
    intro k; simp only [tokenizeNth, h2, List.length_map]
  have h5 : ∀ k, splitNth C n s f (bodyTree b) k = splitNth C n (s.map (caseForm up)) f' (bodyTree b) k := by
    intro k; simp only [splitNth, h1, List.length_map]
  cases m with
  | match_ => exact congrArg Answer.one (key 0).1
  | search => exact congrArg Answer.one (key 0).2.2
  | startsWith => exact congrArg Answer.one (key 0).2.1
  | searchAll | iterator => exact congrArg Answer.many (funext h3)
  | tokenize => exact congrArg Answer.many (funext h4)
  | split => exact congrArg Answer.pieces (funext h5)

/-- C87, the whole call, with every function of the interface and every kind of literal: the call with case ignored gives the answer of the
call without, on the subject in the case of the pattern. -/
theorem C87_view (hl : lit.Spells t) (ht : ∀ c ∈ t, IsScalar c) (hb : Reading P.find t b) (hfa : b.Faithful) (hr : b.recased up = true)
    (hci : (callFlags ml mods).ci = true) (hml : (callFlags ml mods').ml = (callFlags ml mods).ml) (s : List Ch) :
    call P C n ml m mods lit (.view s) = call P C n ml m mods' lit (.view (s.map (caseForm up))) := by
  rw [hl.build ht, hl.build ht, C61_view, C61_view]
  have h : build P t = .pattern (bodyTree b) := hb.2 ▸ build_print hb.1
  simp only [PatLit.build, PatLit.decode, fixedUtf32, h]
  refine congrArg some (plain_recast hfa hr ⟨hci, hml.symm, ?_⟩ C n s m)
  unfold callFlags
  rw [(C37_flags_line _).2, (C37_flags_line _).2]

theorem caseCode_form (up : Bool) (c : Nat) : ((caseCode up c : Nat) : Int) = caseForm up (c : Int) := by
  cases up <;> simp only [caseCode, caseForm, Bool.false_eq_true, if_true, if_false] <;> repeat' split
  all_goals omega

theorem codePoints_caseCode (up : Bool) (s : List Nat) : codePoints (s.map (caseCode up)) = (codePoints s).map (caseForm up) := by
  simp only [codePoints, List.map_map]
  congr 1
  funext c
  exact caseCode_form up c

theorem caseCode_scalar {c : Nat} (h : IsScalar c) : IsScalar (caseCode up c) := by
  unfold IsScalar at *
  cases up <;> simp only [caseCode, Bool.false_eq_true, if_true, if_false] <;> split <;> omega

theorem utf8_caseCode_length (up : Bool) (s : List Nat) : (utf8Encode (s.map (caseCode up))).length = (utf8Encode s).length := by
  induction s with
  | nil => rfl
  | cons c s ih =>
    simp only [utf8Encode, List.map_cons, List.flatMap_cons, List.length_append] at ih ⊢
    rw [ih]
    congr 1
    by_cases hc : c < 128
    · have : caseCode up c < 128 := by
        cases up <;> simp only [caseCode, Bool.false_eq_true, if_true, if_false] <;> split <;> omega
      simp only [utf8Of, if_pos (show c < 0x80 from hc), if_pos (show caseCode up c < 0x80 from this), List.length_cons, List.length_nil]
    · have : caseCode up c = c := by
        cases up <;> simp only [caseCode, Bool.false_eq_true, if_true, if_false] <;> split <;> omega
      rw [this]

theorem utf8Offset_caseCode (up : Bool) (s : List Nat) : utf8Offset (s.map (caseCode up)) = utf8Offset s := by
  funext i
  simp only [utf8Offset, ← List.map_take, utf8_caseCode_length]

/-- C87 for UTF-8 text; the positions in the answers are the same bytes. -/
theorem C87_utf8 (hl : lit.Spells t) (ht : ∀ c ∈ t, IsScalar c) (hb : Reading P.find t b) (hfa : b.Faithful) (hr : b.recased up = true)
    (hfw : b.forward = true) (hci : (callFlags ml mods).ci = true) (hml : (callFlags ml mods').ml = (callFlags ml mods).ml)
    (hs : ∀ c ∈ s, IsScalar c) :
    call P C n ml m mods lit (.u8 (utf8Encode s)) = call P C n ml m mods' lit (.u8 (utf8Encode (s.map (caseCode up)))) := by
  have h : build P t = .pattern (bodyTree b) := hb.2 ▸ build_print hb.1
  have hs' : ∀ c ∈ s.map (caseCode up), IsScalar c := by
    intro c hc
    obtain ⟨d, hd, rfl⟩ := List.mem_map.1 hc
    exact caseCode_scalar (hs d hd)
  rw [Ctre.call_eq hl ht (.utf8 s) hs h fun _ => body_forward b hfw, Ctre.call_eq hl ht (.utf8 _) hs' h fun _ => body_forward b hfw,
    utf8Offset_caseCode, codePoints_caseCode]
  congr 2
  refine plain_recast hfa hr ⟨hci, hml.symm, ?_⟩ C n _ m
  unfold callFlags
  rw [(C37_flags_line _).2, (C37_flags_line _).2]

/-- C87: with case ignored every function of the interface gives the same answer on subjects that differ in case only. -/
theorem C87_same (hl : lit.Spells t) (ht : ∀ c ∈ t, IsScalar c) (hb : Reading P.find t b) (hfa : b.Faithful) (hr : b.recased up = true)
    (hci : (callFlags ml mods).ci = true) {s s' : List Ch} (h : SameLetters s s') :
    call P C n ml m mods lit (.view s) = call P C n ml m mods lit (.view s') := by
  rw [C87_view (mods' := mods) hl ht hb hfa hr hci rfl s, C87_view (mods' := mods) hl ht hb hfa hr hci rfl s']
  congr 2
  have key : ∀ v : Int, caseForm up (lowerCase v) = caseForm up v := by
    intro v
    cases up <;> simp only [caseForm, lowerCase, Bool.false_eq_true, if_true, if_false] <;> repeat' split
    all_goals omega
  have := congrArg (List.map (caseForm up)) h
  simpa only [List.map_map, show caseForm up ∘ lowerCase = caseForm up from funext key] using this

mutual
theorem atom_recased_written : ∀ (a : Atom), a.recased up = true → a.written up = true
  | .ch _, h => h
  | .set neg l, h => by
    simp only [Atom.recased, setRecased, Bool.and_eq_true, List.all_eq_true, beq_iff_eq, Bool.not_eq_true'] at h
    simp only [Atom.written, setWritten, Bool.and_eq_true, List.all_eq_true, Bool.not_eq_true', Bool.or_eq_true]
    refine ⟨fun k hk => ?_, fun i hi => ?_⟩
    · rw [h.1 k hk]
      cases setLists false neg l (caseForm up k) <;> simp
    · have := h.2 i hi
      cases i with
      | cls c => cases c <;> first | rfl | cases this
      | _ => rfl
  | .cap _ b, h | .named _ _ b, h | .group b, h | .ahead _ b, h | .behind _ b, h | .atomic b, h => by
    simp only [Atom.recased] at h
    simp only [Atom.written]
    exact body_recased_written b h
  | .cls _, _ | .dot, _ | .bol, _ | .eol, _ | .subjectEndLine, _ | .wordBoundary, _ | .notWordBoundary, _ | .unknown _ _, _
  | .subjectBegin, _ | .subjectEnd, _ | .ref _, _ | .refNumber _, _ | .refRelative _ _, _ | .refName _, _ | .mode _, _ => by simp [Atom.written]

theorem cat_recased_written : ∀ (c : Cat), c.recased up = true → c.written up = true
  | .one a _, h => atom_recased_written a h
  | .cons a _ l, h => by
    simp only [Cat.recased, Bool.and_eq_true] at h
    simp only [Cat.written, atom_recased_written a h.1, cat_recased_written l h.2, Bool.and_self]

theorem alt_recased_written : ∀ (l : Alt), l.recased up = true → l.written up = true
  | .empty, _ => rfl
  | .one c, h => cat_recased_written c h
  | .bar c l, h => by
    simp only [Alt.recased, Bool.and_eq_true] at h
    simp only [Alt.written, cat_recased_written c h.1, alt_recased_written l h.2, Bool.and_self]

theorem body_recased_written : ∀ (b : Body), b.recased up = true → b.written up = true
  | .alt l, h | .lead l, h => by
    simp only [Body.recased] at h
    simp only [Body.written]
    exact alt_recased_written l h
end

/-- Such texts meet the condition of C79 to C81 and C83 to C86 on the case. -/
theorem C87_caseSafe (hr : b.recased up = true) (ci : Bool) : b.caseSafe ci = true := by
  have := body_recased_written b hr
  unfold Body.caseSafe
  cases up <;> simp [this]

/-- C87 for the syntax of regular languages: with case ignored, `match` succeeds exactly on the subjects that are, in the case of the
pattern, words of its language. -/
theorem C87_decides (hb : Rational P.find t b) (hm : b.small = true) (hl : lit.Spells t) (ht : ∀ c ∈ t, IsScalar c) (hr : b.recased up = true)
    (hci : (callFlags ml mods).ci = true) (hs : ∀ c ∈ s, IsScalar c) : ∃ N, ∀ n, N ≤ n →
      ∃ y, call P C n ml .match_ mods lit (.view (codePoints s)) = some (.one (.done y)) ∧
        (y.whole.matched = true ↔ b.Accepts C (callFlags ml mods) (codePoints s)) ∧
        ∀ mods', (callFlags ml mods').ml = (callFlags ml mods).ml →
          (y.whole.matched = true ↔ b.Accepts C (callFlags ml mods') (codePoints (s.map (caseCode up)))) := by
  have hs' : ∀ c ∈ s.map (caseCode up), IsScalar c := by
    intro c hc
    obtain ⟨d, hd, rfl⟩ := List.mem_map.1 hc
    exact caseCode_scalar (hs d hd)
  refine ⟨(bodyTree b).weight + (codePoints s).length + 7, fun n hn => ?_⟩
  have hbt := (hb.call_eq (C := C) (n := n) (ml := ml) (m := .match_) (mods := mods) hm hl ht (.view s) hs).1
  have key : ∀ mods', ∀ s' : List Nat, s'.length = s.length → (∀ c ∈ s', IsScalar c) →
      ∃ c, cMatch C n (codePoints s') (callFlags ml mods') (bodyTree b) = .done c ∧
        (c.whole.matched = true ↔ b.Accepts C (callFlags ml mods') (codePoints s')) := fun mods' s' hl' h =>
    (C79_decides_optimised hbt hb hm (C := C) (codePoints_isCh h) (C37_flags_line _).2 (C87_caseSafe hr _)
      (by rw [codePoints_length, hl', ← codePoints_length s]; exact hn)).1
  obtain ⟨y, h1, h2⟩ := key mods s rfl hs
  refine ⟨y, ?_, h2, fun mods' hml => ?_⟩
  · have := (hb.call_eq (C := C) (n := n) (ml := ml) (m := .match_) (mods := mods) hm hl ht (.view s) hs).2
    rw [answer_mapPos_id] at this
    exact this.trans (by simp only [Method.plain, h1])
  · obtain ⟨y', h3, h4⟩ := key mods' (s.map (caseCode up)) (by simp) hs'
    have e := plain_recast (f := callFlags ml mods) (f' := callFlags ml mods') hb.faithful hr
      ⟨hci, hml.symm, by unfold callFlags; rw [(C37_flags_line _).2, (C37_flags_line _).2]⟩ C n (codePoints s) .match_
    simp only [Method.plain, ← codePoints_caseCode, h1, h3, Answer.one.injEq, Exec.done.injEq] at e
    rw [e]; exact h4

/-! ### Cases -/

-- `(?i)[a-z]+([_0-9]?)x` and the flags of `ctre::match<…, ctre::case_insensitive>`
example : Reading (PropTable.find {}) sampleDefault3Text sampleDefault3 ∧ sampleDefault3.Faithful ∧ sampleDefault3.recased false = true ∧
    sampleDefault3.forward = true := ⟨sampleDefault3_orderly.reading, sampleDefault3_orderly.faithful, by decide +kernel, by decide +kernel⟩

example : (callFlags false [.caseInsensitive]).ci = true ∧ (callFlags false []).ml = (callFlags false [.caseInsensitive]).ml := ⟨rfl, rfl⟩

/-- `[^\s_a-f]+(?:X|[[:digit:]Y])`, which is not written in one case -/
def sampleRecase : Body := .alt (.one (
  .cons (.set true [.cls (.letter 115), .one (.plain 95), .range (.plain 97) (.plain 102)]) (.plus .greedy)
  (.one (.group (.alt (.bar (.one (.ch (.plain 88)) .none) (.one (.one (.set false [.posix false .digit, .one (.plain 89)]) .none))))) .none)))

example : sampleRecase.recased false = false ∧ sampleRecase.recased true = false := by decide +kernel

/-- `[^\s_A-F]+(?:X|[[:digit:]Y])`, which is written in upper case -/
def sampleRecase2 : Body := .alt (.one (
  .cons (.set true [.cls (.letter 115), .one (.plain 95), .range (.plain 65) (.plain 70)]) (.plus .greedy)
  (.one (.group (.alt (.bar (.one (.ch (.plain 88)) .none) (.one (.one (.set false [.posix false .digit, .one (.plain 89)]) .none))))) .none)))

example : sampleRecase2.recased false = false ∧ sampleRecase2.recased true = true := by decide +kernel

theorem sampleRecase2_rational : Rational (PropTable.find {}) sampleRecase2.print sampleRecase2 := by
  refine ⟨⟨?_, rfl⟩, ?_, by decide +kernel, by decide +kernel, by decide +kernel, by decide +kernel⟩
  · simp [sampleRecase2, Body.WF, Alt.WF, Cat.WF, Atom.WF, Char1.WF, Cls.WF, special, Quant.WF, SetWF, SetItem.WF, specialInSet, Cat.groups,
      Alt.groups, Body.groups, Atom.groups]
  · simp [sampleRecase2, Body.Faithful, Alt.Faithful, Cat.Faithful, Atom.Faithful, Quant.Faithful, Char1.Faithful, SetItem.Faithful,
      possessiveItem, Atom.possessive, Atom.leadsPossessive, Cat.leadsPossessive, Quant.kind]

example : sampleRecase2.small = true := by decide +kernel

/-! ### The conditions are needed -/

/-- A pattern that is not written in one case: `aA` with case ignored matches "aA", but, without, neither "aa" nor "AA". -/
theorem C87_fails_mixed : ∃ r, build {} [97, 65] = .pattern r ∧ (cMatch {} 40 [97, 65] { ci := true } r).success = true ∧
    ∀ up, (cMatch {} 40 ([97, 65].map (caseForm up)) {} r).success = false := ⟨_, rfl, by decide +kernel⟩

/-- Back references: `(a)\1` with case ignored does not match "aA", though it is written in lower case and matches "aa". -/
theorem C87_fails_back_reference : ∃ r, build {} [40, 97, 41, 92, 49] = .pattern r ∧
    (cMatch {} 40 [97, 65] { ci := true } r).success = false ∧ (cMatch {} 40 ([97, 65].map (caseForm false)) {} r).success = true :=
  ⟨_, rfl, by decide +kernel⟩

/-- `(?c)`: `(?c)a` with case ignored does not match "A". -/
theorem C87_fails_switch : ∃ r, build {} [40, 63, 99, 41, 97] = .pattern r ∧
    (cMatch {} 40 [65] { ci := true } r).success = false ∧ (cMatch {} 40 ([65].map (caseForm false)) {} r).success = true :=
  ⟨_, rfl, by decide +kernel⟩

/-- Ranges that are no ranges of letters: `[Y-b]` with case ignored matches "b" but not "B". -/
theorem C87_fails_range : ∃ r, build {} [91, 89, 45, 98, 93] = .pattern r ∧
    (cMatch {} 40 [66] { ci := true } r).success = false ∧ (cMatch {} 40 ([66].map (caseForm false)) {} r).success = true :=
  ⟨_, rfl, by decide +kernel⟩

end Ctre
