import Verif.Lemmas.Api
import Verif.Lemmas.FixedString
import Verif.Props.FixedString
import Verif.Props.Accepted
import Verif.Props.Language
import Verif.Props.Regular
import Verif.Props.Literal

/-
C61: calls as they are written.  Spec/Api.lean has the answers on a sequence of values and the move of positions.
-/
namespace Ctre
open Parse Surface

variable {P : PropTable} {C : Cfg} {n : Nat} {ml : Bool} {m : Method} {mods : List Mode} {lit : PatLit}

/-- C61: whether the pattern is a `char8_t`, `char16_t` or `char32_t` literal makes no difference to any call; a `char`
literal of ASCII characters neither. -/
theorem C61_literals {t : List Nat} (ht : ∀ c ∈ t, IsScalar c) (x : Subject) :
    call P C n ml m mods (.utf8 (utf8Encode t)) x = call P C n ml m mods (.utf32 t) x ∧
    call P C n ml m mods (.utf16 (utf16Encode t)) x = call P C n ml m mods (.utf32 t) x ∧
    ((∀ c ∈ t, c < 128) → call P C n ml m mods (.narrow (codePoints t)) x = call P C n ml m mods (.utf32 t) x) := by
  obtain ⟨h1, h2, h3⟩ := C27_encodings_agree ht
  refine ⟨?_, ?_, fun h => ?_⟩
  · simp only [call, PatLit.build, PatLit.decode, h1]
  · simp only [call, PatLit.build, PatLit.decode, h2]
  · have h4 := h3 (fun c hc => by have := h c hc; omega)
    have h5 : (t.map fun c : Nat => if c < 128 then (c : Int) else c - 256) = codePoints t :=
      List.map_congr_left fun c hc => if_pos (h c hc)
    rw [h5] at h4
    simp only [call, PatLit.build, PatLit.decode, h4]

/-- C61: a call on a view, a range or a pair of iterators gives the plain answer. -/
theorem C61_view (s : List Ch) : call P C n ml m mods lit (.view s) =
    match lit.build P with
    | .pattern r => some (m.plain C n (Flags.ofList ((if ml then .multiline else .singleline) :: mods)) r s)
    | _ => none := by
  unfold call
  cases h : lit.build P with
  | pattern r =>
    have := exec_walks C n (view_walks s ⟨true, true, true, true⟩) rfl (build_numbered h) (fits_all r)
      (Flags.ofList ((if ml then .multiline else .singleline) :: mods)) m
    rw [answer_mapPos_id] at this
    exact congrArg some this
  | _ => rfl

/-- C61: a zero-terminated string gives, for every function of the interface, the answer for the characters before the
NUL. -/
theorem C61_cstr {s : List Ch} (hs : (0 : Int) ∉ s) (rest : List Ch) :
    call P C n ml m mods lit (.cstr (s ++ 0 :: rest)) = call P C n ml m mods lit (.view s) := by
  rw [C61_view]
  unfold call
  cases h : lit.build P with
  | pattern r =>
    have := exec_walks C n (zero_walks hs rest ⟨true, true, true, true⟩) rfl (build_numbered h) (fits_all r)
      (Flags.ofList ((if ml then .multiline else .singleline) :: mods)) m
    rw [answer_mapPos_id] at this
    exact congrArg some this
  | _ => rfl

/-- C61: a well-formed UTF-8 subject gives, for every function of the interface, the answer for its code points with
indices replaced by offsets, if the pattern has no back reference and no lookbehind. -/
theorem C61_utf8 {s : List Nat} (hs : ∀ c ∈ s, IsScalar c)
    (hf : ∀ r, lit.build P = .pattern r → r.fits ⟨true, false, false, true⟩ = true) :
    call P C n ml m mods lit (.u8 (utf8Encode s)) =
      (call P C n ml m mods lit (.view (codePoints s))).map (Answer.mapPos (utf8Offset s)) := by
  rw [C61_view]
  unfold call
  cases h : lit.build P with
  | pattern r =>
    exact congrArg some (exec_walks C n (utf8_walks hs ⟨true, false, false, true⟩ rfl (by simp)) (utf8Offset_zero s)
      (build_numbered h) (hf r h) _ m)
  | _ => rfl

/-- C61: with the standard library of C++20, or if the code points are below 256, this includes patterns with
lookbehinds. -/
theorem C61_utf8_behind {s : List Nat} (hs : ∀ c ∈ s, IsScalar c) (hl : C.lib20 = true ∨ ∀ c ∈ s, c < 256)
    (hf : ∀ r, lit.build P = .pattern r → r.fits ⟨true, false, true, true⟩ = true) :
    call P C n ml m mods lit (.u8 (utf8Encode s)) =
      (call P C n ml m mods lit (.view (codePoints s))).map (Answer.mapPos (utf8Offset s)) := by
  rw [C61_view]
  unfold call
  cases h : lit.build P with
  | pattern r =>
    exact congrArg some (exec_walks C n (utf8_walks hs ⟨true, false, true, true⟩ rfl (fun _ => hl)) (utf8Offset_zero s)
      (build_numbered h) (hf r h) (Flags.ofList ((if ml then .multiline else .singleline) :: mods)) m)
  | _ => rfl

/-- C61: the members of a `_ctre` literal are the functions without modifiers. -/
theorem C61_members (x : Subject) : callLiteral P C n ml m lit x = call P C n ml m [] lit x := rfl

/-- C61: `subject | ctre::search_all<...>` is `ctre::search_all<...>(subject)`, likewise for `tokenize` and `split`; with the other functions
it does not compile. -/
theorem C61_pipe_subject {r : Re} (hr : lit.build P = .pattern r) (x : Subject) :
    (m ∈ [Method.searchAll, .tokenize, .split] → pipeSubject C n (Flags.ofList ((if ml then .multiline else .singleline) :: mods)) r x m = call P C n ml m mods lit x) ∧
    (m ∉ [Method.searchAll, .tokenize, .split] → pipeSubject C n (Flags.ofList ((if ml then .multiline else .singleline) :: mods)) r x m = none) := by
  constructor
  · intro h
    simp only [List.mem_cons, List.not_mem_nil, or_false] at h
    rcases h with rfl | rfl | rfl <;> simp [pipeSubject, call, hr]
  · cases m <;> simp [pipeSubject]

example : (∃ r, (PatLit.utf32 [97]).build {} = .pattern r) ∧ Method.split ∈ [Method.searchAll, .tokenize, .split] ∧
    Method.match_ ∉ [Method.searchAll, .tokenize, .split] := ⟨⟨_, rfl⟩, by decide, by decide⟩

/-- C61: `subjects | ctre::match<...>` visits the results of the subjects for which the call succeeds, in order. -/
theorem C61_pipe {f : Flags} {r : Re} (xs : List Subject) {k : Nat} (hk : xs.length < k) :
    MIter.collect (fun x => (Method.exec C n f r (x.cursor C.lib20) m).found) k (pipeSubjects C n f r m xs) =
      some (xs.filterMap fun x => (Method.exec C n f r (x.cursor C.lib20) m).found) :=
  C24_multi_subject_filters _ xs k hk

/-- C61: from the written text to the result.  A UTF-8 pattern literal with a reading `b`, on a UTF-8 subject: if `match`
succeeds, the code points of the subject are described by `b`, and the result reports it, in offsets. -/
theorem C61_match_sound {t : List Nat} (ht : ∀ c ∈ t, IsScalar c) {b : Body} (hb : Reading P.find t b) (hf : b.Faithful)
    (hz : b.size < 2 ^ 64) (hs : b.selfFree (numberOf b.visible) []) (hneg : b.noNegative = true) {s : List Nat}
    (hsc : ∀ c ∈ s, IsScalar c) (hfit : ∀ r, build P t = .pattern r → r.fits ⟨true, false, false, true⟩ = true)
    {y : Caps} (hy : call P C n ml .match_ mods (.utf8 (utf8Encode t)) (.u8 (utf8Encode s)) = some (.one (.done y)))
    (hm : y.whole.matched = true) :
    ∃ x τ, y = x.mapPos (utf8Offset s) ∧
      b.Match (b.env C) (codePoints s) (MState.start 0 (Flags.ofList ((if ml then .multiline else .singleline) :: mods))) τ ∧
      τ.pos = s.length ∧ Reports x 0 τ := by
  rw [(C61_literals ht _).1, C61_utf8 (lit := .utf32 t) hsc hfit, C61_view] at hy
  simp only [PatLit.build, PatLit.decode, fixedUtf32] at hy
  cases hr : build P t with
  | pattern r =>
    rw [hr] at hy
    simp only [Option.map_some, Method.plain, Answer.mapPos, Option.some.injEq, Answer.one.injEq] at hy
    obtain ⟨x, hx, rfl⟩ := exec_mapPos_done hy
    obtain ⟨τ, h1, h2, h3⟩ := C45_match_sound hr hb hf hz hs hneg hx hm
    exact ⟨x, τ, rfl, h1, by simpa [codePoints] using h2, h3⟩
  | _ => rw [hr] at hy; simp at hy

/-- C61: the same for `search`. -/
theorem C61_search_sound {t : List Nat} (ht : ∀ c ∈ t, IsScalar c) {b : Body} (hb : Reading P.find t b) (hf : b.Faithful)
    (hz : b.size < 2 ^ 64) (hs : b.selfFree (numberOf b.visible) []) (hneg : b.noNegative = true) {s : List Nat}
    (hsc : ∀ c ∈ s, IsScalar c) (hfit : ∀ r, build P t = .pattern r → r.fits ⟨true, false, false, true⟩ = true)
    {y : Caps} (hy : call P C n ml .search mods (.utf8 (utf8Encode t)) (.u8 (utf8Encode s)) = some (.one (.done y)))
    (hm : y.whole.matched = true) :
    ∃ x i τ, y = x.mapPos (utf8Offset s) ∧ i ≤ s.length ∧
      b.Match (b.env C) (codePoints s) (MState.start i (Flags.ofList ((if ml then .multiline else .singleline) :: mods))) τ ∧
      Reports x i τ := by
  rw [(C61_literals ht _).1, C61_utf8 (lit := .utf32 t) hsc hfit, C61_view] at hy
  simp only [PatLit.build, PatLit.decode, fixedUtf32] at hy
  cases hr : build P t with
  | pattern r =>
    rw [hr] at hy
    simp only [Option.map_some, Method.plain, Answer.mapPos, Option.some.injEq, Answer.one.injEq] at hy
    obtain ⟨x, hx, rfl⟩ := exec_mapPos_done hy
    obtain ⟨i, τ, h1, h2, h3⟩ := C45_search_sound hr hb hf hz hs hneg hx hm
    exact ⟨x, i, τ, rfl, by simpa [codePoints] using h1, h2, h3⟩
  | _ => rw [hr] at hy; simp at hy

/-- C61: for a pattern of the regular fragment of C58, `match` on UTF-8 text returns, and succeeds exactly if the code
points are in the language. -/
theorem C61_decides {t : List Nat} (ht : ∀ c ∈ t, IsScalar c) {r : Re} (hr : build P t = .pattern r) (hw : r.WellNumbered)
    (hg : r.regular = true) (hc : Compiles C r) (hpl : r.plain = true) (hst : r.steady ml false false = true) {s : List Nat}
    (hs : ∀ c ∈ s, IsScalar c) (hn : r.weight + s.length + 7 ≤ n) :
    ∃ y, call P C n ml .match_ [] (.utf8 (utf8Encode t)) (.u8 (utf8Encode s)) = some (.one (.done y)) ∧
      (y.whole.matched = true ↔ r.Accepts C (Flags.ofList [if ml then .multiline else .singleline]) (codePoints s)) := by
  have hfl : ∀ b : Bool, Flags.ofList [if b then .multiline else .singleline] = { ml := b } := by intro b; cases b <;> rfl
  obtain ⟨⟨x, h1, h2⟩, _⟩ := C58_decides (f := Flags.ofList [if ml then .multiline else .singleline]) hw hg hc hpl hst
    (codePoints_isCh hs) (by rw [hfl]) (by rw [hfl]; exact Re.regular.caseSafe hg) (by rw [hfl]; exact id) (n := n) (by simpa [codePoints] using hn)
  refine ⟨x.mapPos (utf8Offset s), ?_, h2⟩
  rw [(C61_literals ht _).1, C61_utf8 hs, C61_view]
  · simp only [PatLit.build, PatLit.decode, fixedUtf32, hr, Option.map_some, Method.plain, Answer.mapPos, h1, Exec.mapPos]
  · intro r' hr'
    simp only [PatLit.build, PatLit.decode, fixedUtf32, hr, Built.pattern.injEq] at hr'
    subst hr'
    exact Re.regular_fits _ r hg

/-- C61, the defect: a malformed UTF-8 literal is not rejected; the pattern is the text before the malformed place,
whatever follows. -/
theorem C61_fails_malformed {t : List Nat} (ht : ∀ c ∈ t, IsScalar c) {u : Nat} (hu : IsContinuation u) (rest : List Nat) :
    (PatLit.utf8 (utf8Encode t ++ u :: rest)).decode.correct = false ∧
    (PatLit.utf8 (utf8Encode t ++ u :: rest)).build P = build P t := by
  have h := fixedUtf8_cut ht hu rest
  simp only [PatLit.build, PatLit.decode, h]
  exact ⟨trivial, trivial⟩

/-- In particular a syntax error after it goes unnoticed: `a` followed by a stray continuation and `(`. -/
example : build {} [97, 40] = .syntaxError 2 ∧ (PatLit.utf8 [97, 0x80, 40]).build {} = .pattern (.cc (.chr 97)) :=
  ⟨rfl, rfl⟩

/-- C61, the defect: UTF-16 subjects are matched by code units, but literals are decoded, so that a literal of a code
point above U+FFFF does not match itself. -/
theorem C61_fails_utf16 {c : Nat} (hc : 0x10000 ≤ c) (hc' : c < 0x110000) :
    ∃ e, call P C (n + 5) ml .match_ mods (.utf16 (utf16Encode [c])) (.view (codePoints (utf16Encode [c]))) = some (.one e) ∧
      e = .done {} := by
  have hsc : ∀ d ∈ [c], IsScalar d := by simp [IsScalar]; omega
  have len : ∀ {ci : Bool} {p : List Nat} {t : List Ch}, IsText ci p t → t.length = p.length := by
    intro ci p t h
    unfold IsText SameLetters at h
    split at h <;> simpa using congrArg List.length h
  rw [(C61_literals hsc _).2.1, C61_view]
  simp only [PatLit.build, PatLit.decode, fixedUtf32, build_lit P (p := [c]) (by simp [special]; omega)]
  refine ⟨_, rfl, ?_⟩
  obtain ⟨h1, h2⟩ | ⟨h1, h2⟩ := attemptFull_lit C (n := n) (p := [c]) (s := codePoints (utf16Encode [c])) (by
    intro v hv
    simp only [codePoints, utf16Encode, utf16Of, List.flatMap_cons, List.flatMap_nil, if_neg (show ¬ c < 0x10000 by omega),
      List.append_nil, List.map_cons, List.map_nil, List.mem_cons, List.not_mem_nil, or_false] at hv
    have key : ∀ k : Nat, k < 65536 → IsCh (k : Int) := fun k hk =>
      (show (-2147483648 : Int) ≤ (k : Int) ∧ (k : Int) < 4294967296 by omega)
    rcases hv with rfl | rfl
    · exact key _ (by omega)
    · exact key _ (by omega)) (by simp; omega)
    (Flags.ofList ((if ml then .multiline else .singleline) :: mods))
  · exfalso
    have := len h1
    simp [codePoints, utf16Encode, utf16Of, if_neg (show ¬ c < 0x10000 by omega)] at this
  · simp only [cMatch, matchAt, h2, Out.toExec, litTree_captures]

/-- C61, the defect: with a signed `char`, a `char` literal of a character outside of ASCII does not match itself: the
literal is read as unsigned, the subject as signed. -/
theorem C61_fails_signed {v : Int} (h1 : -128 ≤ v) (h2 : v < 0) :
    call P C (n + 5) ml .match_ mods (.narrow [v]) (.view [v]) = some (.one (.done {})) := by
  rw [C61_view]
  have hv : (v % 256).toNat = (v + 256).toNat := by omega
  simp only [PatLit.build, PatLit.decode, fixedNarrow, List.map_cons, List.map_nil,
    build_lit P (p := [(v % 256).toNat]) (by simp [special]; omega)]
  obtain ⟨h3, h4⟩ | ⟨h3, h4⟩ := attemptFull_lit C (n := n) (p := [(v % 256).toNat]) (s := [v]) (by
    intro w hw
    rw [List.mem_singleton.1 hw]
    exact (show (-2147483648 : Int) ≤ v ∧ v < 4294967296 by omega)) (by simp; omega)
    (Flags.ofList ((if ml then .multiline else .singleline) :: mods))
  · exfalso
    have hp : ((v % 256).toNat : Int) = v + 256 := by omega
    have no : ∀ ci, ¬ IsText ci [(v % 256).toNat] [v] := by
      intro ci h
      cases ci
      · simp only [IsText, Bool.false_eq_true, if_false, List.map_cons, List.map_nil, List.cons.injEq, and_true, hp] at h
        exact absurd (show v = v + 256 from h) (by omega)
      · simp only [IsText, if_true, SameLetters, List.map_cons, List.map_nil, List.cons.injEq, and_true, hp] at h
        have e1 : lowerCase v = v := if_neg (by omega)
        have e2 : lowerCase (v + 256) = v + 256 := if_neg (by omega)
        rw [e1, e2] at h
        exact absurd (show v = v + 256 from h) (by omega)
    exact no _ h3
  · simp only [Method.plain, cMatch, matchAt, h4, Out.toExec, litTree_captures]

/-- C61, the limit of UTF-8 subjects: a call with the back reference of `(a)\1` does not compile, whatever follows the first
character; with a view it does. -/
theorem C61_fails_utf8_reference : (∀ (C : Cfg) (n : Nat) (ml : Bool) (u : List Nat),
      call {} C (n + 12) ml .startsWith [] (.utf8 [40, 97, 41, 92, 49]) (.u8 (97 :: u)) = some (.one .ill)) ∧
    ∃ y, call {} {} 30 false .startsWith [] (.utf8 [40, 97, 41, 92, 49]) (.view [97, 97, 98]) = some (.one (.done y)) ∧
      y.whole = ⟨some 0, some 2, true⟩ :=
  ⟨fun C n ml u => by cases ml <;> rfl, _, rfl, rfl⟩

/-! Concrete cases. -/

/-- The pattern `é`, written as a `char8_t` literal, and `split` of the UTF-8 text `aébéc`: the pieces are `a`, `b` and
`c`. -/
example : ∃ it, call {} {} 30 false .split [] (.utf8 [0xC3, 0xA9]) (.u8 [97, 0xC3, 0xA9, 98, 0xC3, 0xA9, 99]) =
      some (.pieces it) ∧
    ([0, 1, 2].map fun k => (it k).map fun x => (x.result.whole.b, x.result.whole.e)) =
      [some (some 0, some 1), some (some 3, some 4), some (some 6, some 7)] := ⟨_, rfl, by decide +kernel⟩

/-- `search_all` of `é|b` in a NUL-terminated and in a UTF-8 subject. -/
example : ∃ it, call {} {} 30 false .searchAll [] (.utf8 [0xC3, 0xA9, 124, 98]) (.cstr [98, 97, 233, 0, 98]) = some (.many it) ∧
    ([0, 1, 2].map fun k => (it k).map fun x => x.result.whole) =
      [some ⟨some 0, some 1, true⟩, some ⟨some 2, some 3, true⟩, some ⟨none, none, false⟩] := ⟨_, rfl, by decide +kernel⟩
example : ∃ it, call {} {} 30 false .searchAll [] (.utf8 [0xC3, 0xA9, 124, 98]) (.u8 [97, 0xC3, 0xA9, 98]) = some (.many it) ∧
    ([0, 1, 2].map fun k => (it k).map fun x => x.result.whole) =
      [some ⟨some 1, some 3, true⟩, some ⟨some 3, some 4, true⟩, some ⟨none, none, false⟩] := ⟨_, rfl, by decide +kernel⟩

/-- The hypotheses of `C61_utf8` and `C61_decides` for the pattern `(é+)|b`. -/
example : ∃ r, build {} [40, 233, 43, 41, 124, 98] = .pattern r ∧ r.fits ⟨true, false, false, true⟩ = true ∧
    r.regular = true ∧ r.WellNumbered ∧ Compiles {} r ∧ r.plain = true ∧ r.steady false false false = true :=
  ⟨_, rfl, by decide +kernel, by decide +kernel, ⟨by decide +kernel, by decide +kernel, by decide +kernel⟩,
    ⟨by decide +kernel, .inr (by decide +kernel)⟩, by decide +kernel, by decide +kernel⟩
example : utf8Encode [40, 233, 43, 41, 124, 98] = [40, 0xC3, 0xA9, 43, 41, 124, 98] := by decide +kernel
example : call {} {} 60 false .match_ [] (.utf8 [40, 0xC3, 0xA9, 43, 41, 124, 98]) (.u8 [0xC3, 0xA9, 0xC3, 0xA9]) =
    some (.one (.done { whole := ⟨some 0, some 4, true⟩, groups := [⟨1, none, some 0, some 4, true⟩] })) := rfl

/-- A pipe of three subjects into `ctre::match` of `a`. -/
example : MIter.collect (fun x : Subject => (Method.exec {} 30 {} (.cc (.chr 97)) (x.cursor true) .match_).found) 5
    (pipeSubjects {} 30 {} (.cc (.chr 97)) .match_ [.view [97], .view [98], .cstr [97, 0]]) =
    some [{ whole := ⟨some 0, some 1, true⟩ }, { whole := ⟨some 0, some 1, true⟩ }] := rfl

end Ctre
