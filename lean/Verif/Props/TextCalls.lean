import Verif.Spec.Calls
import Verif.Props.Api
import Verif.Props.TextScan

/-
C81: from the call as it is written to its answer.
-/
namespace Ctre
open Parse Surface

variable {P : PropTable} {C : Cfg} {n : Nat} {ml : Bool} {m : Method} {mods : List Mode} {lit : PatLit} {x : Subject}
  {t s : List Nat} {φ : Nat → Nat} {r : Re} {b : Body}

/-- The modes of a call. -/
def callFlags (ml : Bool) (mods : List Mode) : Flags := Flags.ofList ((if ml then .multiline else .singleline) :: mods)

mutual
theorem easy_fits (o : Needs) : ∀ {r : Re}, r.easy = true → r.fits o = true
  | .cc _, _ | .any, _ | .empty, _ | .str _, _ => rfl
  | .sel l, h | .seq l, h | .cap _ _ l, h => easyAll_fits o (l := l) h
  | .rep _ _ _ l, h => by
    simp only [Re.easy, Bool.and_eq_true] at h
    exact easyAll_fits o h.2
  | .mode _, h | .bref _, h | .brefName _, h | .ahead _ _, h | .behind _ _, h | .boundary _, h | .notBoundary _, h
  | .sBegin, h | .sEnd, h | .sEndLine, h | .lBegin, h | .lEnd, h | .reject _, h | .atomic _, h => by cases h

theorem easyAll_fits (o : Needs) : ∀ {l : List Re}, easyAll l = true → fitsList o l = true
  | [], _ => rfl
  | r :: l, h => by
    simp only [easyAll, Bool.and_eq_true] at h
    simp [fitsList, easy_fits o h.1, easyAll_fits o h.2]
end

theorem PatLit.Spells.build (h : lit.Spells t) (ht : ∀ c ∈ t, IsScalar c) (x : Subject) :
    call P C n ml m mods lit x = call P C n ml m mods (.utf32 t) x := by
  cases h with
  | utf8 => exact (C61_literals ht x).1
  | utf16 => exact (C61_literals ht x).2.1
  | utf32 => rfl
  | ascii _ h => exact (C61_literals ht x).2.2 h

theorem call_eq (hl : lit.Spells t) (ht : ∀ c ∈ t, IsScalar c) (hx : x.Holds s φ) (hs : ∀ c ∈ s, IsScalar c)
    (hr : build P t = .pattern r) (hf : (∃ u, x = .u8 u) → r.fits ⟨true, false, false, true⟩ = true) :
    call P C n ml m mods lit x = some ((m.plain C n (callFlags ml mods) r (codePoints s)).mapPos φ) := by
  rw [hl.build ht]
  have hv : call P C n ml m mods (.utf32 t) (.view (codePoints s)) = some (m.plain C n (callFlags ml mods) r (codePoints s)) := by
    rw [C61_view]
    simp only [PatLit.build, PatLit.decode, fixedUtf32, hr]
    rfl
  cases hx with
  | view => rw [answer_mapPos_id]; exact hv
  | cstr _ rest h0 =>
    rw [answer_mapPos_id, ← hv]
    refine C61_cstr (s := codePoints s) ?_ rest
    intro h
    obtain ⟨c, hc, e⟩ := List.mem_map.1 h
    have : c = 0 := Int.ofNat_inj.1 e
    exact h0 (this ▸ hc)
  | utf8 =>
    rw [C61_utf8 hs, hv]
    · rfl
    · intro r' h'
      simp only [PatLit.build, PatLit.decode, fixedUtf32, hr, Built.pattern.injEq] at h'
      exact h' ▸ hf ⟨_, rfl⟩

theorem codePoints_length (s : List Nat) : (codePoints s).length = s.length := by simp [codePoints]

theorem Rational.call_eq (hb : Rational P.find t b) (hm : b.small = true) (hl : lit.Spells t) (ht : ∀ c ∈ t, IsScalar c) (hx : x.Holds s φ)
    (hs : ∀ c ∈ s, IsScalar c) : build P t = .pattern (bodyTree b) ∧
    call P C n ml m mods lit x = some ((m.plain C n (callFlags ml mods) (bodyTree b) (codePoints s)).mapPos φ) := by
  have hr : build P t = .pattern (bodyTree b) := hb.reading.2 ▸ build_print hb.reading.1
  exact ⟨hr, Ctre.call_eq hl ht hx hs hr fun _ => easy_fits _
    (body_easy b hb.faithful (by have := hb.size; simp only [szMod]; omega) hb.regular hb.firm hm)⟩

/-- C81: whatever kind of literal the pattern is written in and however the subject is represented, the call compiles and returns, and
`match`, `starts_with` and `search` tell whether the code points of the subject are a word of the language of the pattern text, begin with
one, or contain one. -/
theorem C81_decides (hb : Rational P.find t b) (hm : b.small = true) (hl : lit.Spells t) (ht : ∀ c ∈ t, IsScalar c) (hx : x.Holds s φ)
    (hs : ∀ c ∈ s, IsScalar c) (hblk : (callFlags ml mods).blk = false) (hci : b.caseSafe (callFlags ml mods).ci = true) :
    ∃ N, ∀ n, N ≤ n →
      (∃ y, call P C n ml .match_ mods lit x = some (.one (.done y)) ∧
        (y.whole.matched = true ↔ b.Accepts C (callFlags ml mods) (codePoints s))) ∧
      (∃ y, call P C n ml .startsWith mods lit x = some (.one (.done y)) ∧
        (y.whole.matched = true ↔ ∃ u v, codePoints s = u ++ v ∧ b.Accepts C (callFlags ml mods) u)) ∧
      (∃ y, call P C n ml .search mods lit x = some (.one (.done y)) ∧
        (y.whole.matched = true ↔ ∃ u v w, codePoints s = u ++ v ++ w ∧ b.Accepts C (callFlags ml mods) v)) := by
  refine ⟨(bodyTree b).weight + (codePoints s).length + 7, fun n hn => ?_⟩
  have hr := (hb.call_eq (C := C) (n := n) (ml := ml) (m := .match_) (mods := mods) hm hl ht hx hs).1
  obtain ⟨⟨c1, h1, d1⟩, ⟨c2, h2, d2⟩, ⟨c3, h3, d3⟩⟩ :=
    C79_decides_optimised hr hb hm (C := C) (codePoints_isCh hs) hblk hci hn
  refine ⟨⟨c1.mapPos φ, ?_, d1⟩, ⟨c2.mapPos φ, ?_, d2⟩, ⟨c3.mapPos φ, ?_, d3⟩⟩ <;>
    rw [(hb.call_eq hm hl ht hx hs).2] <;> simp only [Method.plain, Answer.mapPos]
  · rw [h1]; rfl
  · rw [h2]; rfl
  · rw [h3]; rfl

theorem getWhole_mapPos {c : Caps} {sl : Slot} (h : c.get 0 = some sl) : (c.mapPos φ).get 0 = some (sl.mapPos φ) := by
  simp only [Caps.get, if_true, Option.some.injEq] at h ⊢
  rw [← h]; rfl

/-- C81 for `search_all`, `split` and `tokenize`, if the empty text is no word of the language: they yield the matches from left to right,
the stretches between them, and the matches without a gap, at the positions of the subject; then they end. -/
theorem C81_iterates (hb : Rational P.find t b) (hm : b.small = true) (hl : lit.Spells t) (ht : ∀ c ∈ t, IsScalar c) (hx : x.Holds s φ)
    (hs : ∀ c ∈ s, IsScalar c) (hblk : (callFlags ml mods).blk = false) (hci : b.caseSafe (callFlags ml mods).ci = true)
    (he : ¬ b.Accepts C (callFlags ml mods) []) :
    ∃ found tokens, Scan (textPick C (codePoints s) (callFlags ml mods) b) s.length 0 found ∧
      Tokens (textPick C (codePoints s) (callFlags ml mods) b) s.length 0 tokens ∧ ∃ N, ∀ n, N ≤ n →
      (∃ it, call P C n ml .searchAll mods lit x = some (.many it) ∧
        (∀ i (hi : i < found.length), ∃ y, it i = some y ∧
          y.result.get 0 = some ⟨some (φ (found[i]).1), some (φ (found[i]).2), true⟩) ∧
        ∃ y, it found.length = some y ∧ y.isEnd = true) ∧
      (∃ it, call P C n ml .split mods lit x = some (.pieces it) ∧
        (∀ i (hi : i < (gaps s.length 0 found).length), ∃ y, it i = some y ∧
          y.result.get 0 = some ⟨some (φ ((gaps s.length 0 found)[i]).1), some (φ ((gaps s.length 0 found)[i]).2), true⟩) ∧
        ∃ y, it (gaps s.length 0 found).length = some y ∧ y.isEnd = true) ∧
      (∃ it, call P C n ml .tokenize mods lit x = some (.many it) ∧
        (∀ i (hi : i < tokens.length), ∃ y, it i = some y ∧
          y.result.get 0 = some ⟨some (φ (tokens[i]).1), some (φ (tokens[i]).2), true⟩) ∧
        ∃ y, it tokens.length = some y ∧ y.isEnd = true) := by
  have hr := (hb.call_eq (C := C) (n := 0) (ml := ml) (m := .match_) (mods := mods) hm hl ht hx hs).1
  have key := fun n (hn : (bodyTree b).weight + (codePoints s).length + 7 ≤ n) =>
    C80_iterates_optimised hr hb hm (C := C) (codePoints_isCh hs) hblk hci he hn
  simp only [codePoints_length] at key
  obtain ⟨found, tokens, h1, h2, _⟩ := key _ (Nat.le_refl _)
  refine ⟨found, tokens, h1, h2, (bodyTree b).weight + s.length + 7, fun n hn => ?_⟩
  obtain ⟨found', tokens', h1', h2', H⟩ := key n hn
  obtain rfl := h1.unique h1'
  obtain rfl := h2.unique h2'
  have hg := H.split
  have hge := H.split_end
  simp only [codePoints_length] at hg hge
  refine ⟨⟨_, (hb.call_eq hm hl ht hx hs).2, ?_, ?_⟩, ⟨_, (hb.call_eq hm hl ht hx hs).2, ?_, ?_⟩, ⟨_, (hb.call_eq hm hl ht hx hs).2, ?_, ?_⟩⟩
  · intro i hi
    obtain ⟨it, τ, rest, k1, k2, _⟩ := H.all i hi
    exact ⟨it.mapPos φ, by simp [k1], getWhole_mapPos k2⟩
  · obtain ⟨it, k1, k2⟩ := H.all_end
    exact ⟨it.mapPos φ, by simp [k1], k2⟩
  · intro i hi
    obtain ⟨it, k1, k2⟩ := hg i hi
    exact ⟨it.mapPos φ, by simp [k1], getWhole_mapPos k2⟩
  · obtain ⟨it, k1, k2⟩ := hge
    exact ⟨it.mapPos φ, by simp [k1], k2⟩
  · intro i hi
    obtain ⟨it, τ, rest, k1, k2, _⟩ := H.token i hi
    exact ⟨it.mapPos φ, by simp [k1], getWhole_mapPos k2⟩
  · obtain ⟨it, k1, k2⟩ := H.token_end
    exact ⟨it.mapPos φ, by simp [k1], k2⟩

/-- C81: the bytes between two reported positions of a UTF-8 subject are the encoding of the code points between the two indices. -/
theorem C81_bytes (s : List Nat) {i j : Nat} (hij : i ≤ j) :
    ((utf8Encode s).drop (utf8Offset s i)).take (utf8Offset s j - utf8Offset s i) = utf8Encode ((s.drop i).take (j - i)) := by
  have e : s = s.take i ++ ((s.drop i).take (j - i) ++ s.drop j) := by
    have : s.drop j = (s.drop i).drop (j - i) := by rw [List.drop_drop]; congr 1; omega
    rw [this, List.take_append_drop, List.take_append_drop]
  have e2 : utf8Offset s j = utf8Offset s i + (utf8Encode ((s.drop i).take (j - i))).length := by
    unfold utf8Offset
    have : s.take j = s.take i ++ (s.drop i).take (j - i) := by
      rw [← List.take_add]; congr 1; omega
    rw [this]
    simp [utf8Encode]
  rw [e2, Nat.add_sub_cancel_left]
  have e3 : utf8Encode s = utf8Encode (s.take i) ++ (utf8Encode ((s.drop i).take (j - i)) ++ utf8Encode (s.drop j)) := by
    conv => lhs; rw [e]
    simp [utf8Encode]
  rw [e3]
  unfold utf8Offset
  simp

/-! ### Cases -/

-- the pattern `(?:ab|c)*(d)?[e-f]{2,3}`, written in a `char` literal and in a `char16_t` literal
example : (PatLit.narrow (sampleRationalText.map fun c : Nat => (c : Int))).Spells sampleRationalText := .ascii _ (by decide)
example : (PatLit.utf16 (utf16Encode sampleRationalText)).Spells sampleRationalText := .utf16 _
example : ∀ c ∈ sampleRationalText, IsScalar c := by decide
example : (callFlags false []).blk = false ∧ (callFlags false []).ci = false := ⟨rfl, rfl⟩

-- in the UTF-8 text "éabdeffef" the second result of `search_all` begins at byte 8
example : ∃ it, call {} {} 120 false .searchAll [] (.utf8 (utf8Encode sampleRationalText))
      (.u8 (utf8Encode [233, 97, 98, 100, 101, 102, 102, 101, 102])) = some (.many it) ∧
    (it 1).map (·.result.whole) = some ⟨some 8, some 10, true⟩ := ⟨_, rfl, by decide +kernel⟩

end Ctre
