import Verif.Props.Escapes
import Verif.Lemmas.Repeated

/-
C32: numbers in patterns.
-/
namespace Ctre
open Parse Surface

theorem canTake_chr {U : Uni} {s : List Ch} {f : Flags} {a b v : Nat} (hs : ∀ w ∈ s, IsCh w) (hv : v < 2147483648) :
    CanTake U s f (.cc (.chr v)) a b 0 s.length ↔
      (a ≤ s.length ∧ (b = 0 ∨ s.length ≤ b)) ∧ ∀ w ∈ s, IsText f.ci [v] [w] := by
  unfold CanTake
  rw [and_assoc]
  refine and_congr_right fun _ => and_congr_right fun _ => ?_
  have hw : ∀ w : Ch, IsCh w → (IsText f.ci [v] [w] ↔ (CC.chr v).matchChar U f.ci w = true) := fun w hw => by
    rw [isText_cons (by simpa using hw) hv]
    simp [isText_nil, CC.matchChar]
  constructor
  · intro h w hmem
    obtain ⟨j, hj, rfl⟩ := List.mem_iff_getElem.1 hmem
    obtain ⟨u, h1, h2⟩ := h j hj
    rw [Nat.zero_add, List.getElem?_eq_getElem hj] at h1
    cases h1
    exact (hw _ (hs _ hmem)).2 h2
  · intro h j hj
    refine ⟨s[j], by rw [Nat.zero_add, List.getElem?_eq_getElem hj], ?_⟩
    exact (hw _ (hs _ (List.getElem_mem hj))).1 (h _ (List.getElem_mem hj))

/-- C32 for the result of `match`: a character with a quantifier matches exactly the subjects that consist of this
character, at least and at most as often as the numbers *modulo 2^64* say; a largest number that is 0 modulo 2^64
means no limit.  Greedy, lazy and possessive quantifiers, with arbitrarily long digit strings. -/
theorem C32_counts (P : PropTable) {c : Char1} (h : c.WF special) (hf : c.Faithful) (hb : c.code < 2147483648)
    {q : Quant} (hq : q.WF) (hn : q.counts = true) :
    ∃ r, build P (c.print ++ q.print) = .pattern r ∧ ∀ (C : Cfg) (s : List Ch) (f : Flags), (∀ v ∈ s, IsCh v) →
      ∃ x, Returns (fun n => cMatch C n s f r) (.done x) ∧ (x.whole.matched = true ↔
        (q.least % 2 ^ 64 ≤ s.length ∧ (q.most % 2 ^ 64 = 0 ∨ s.length ≤ q.most % 2 ^ 64)) ∧ ∀ v ∈ s, IsText f.ci [c.code] [v]) := by
  refine ⟨_, just_build (a := .ch c) (by simpa only [Atom.WF] using h) hq (by rintro rfl; simp [Quant.counts] at hn), fun C s f hs => ?_⟩
  simp only [atomTree, quantTree_counts hn, unpack, charTree_eq hf]
  obtain ⟨x, h1, h2⟩ := match_repeated C s f q.kind (q.least % szMod) (q.most % szMod) c.code
  exact ⟨x, h1, h2.trans (canTake_chr hs hb)⟩

/-- C32: when the numbers are below 2^64, the upper limit is positive and not below the lower limit, the subject
matches exactly when it consists of the character, as often as the quantifier admits. -/
theorem C32_written (P : PropTable) {c : Char1} (h : c.WF special) (hf : c.Faithful) (hb : c.code < 2147483648)
    {q : Quant} (hq : q.WF) (hn : q.counts = true) (hq' : q.Faithful) :
    ∃ r, build P (c.print ++ q.print) = .pattern r ∧ ∀ (C : Cfg) (s : List Ch) (f : Flags), (∀ v ∈ s, IsCh v) →
      ∃ x, Returns (fun n => cMatch C n s f r) (.done x) ∧ (x.whole.matched = true ↔
        q.admits s.length ∧ ∀ v ∈ s, IsText f.ci [c.code] [v]) := by
  obtain ⟨r, h1, h2⟩ := C32_counts P h hf hb hq hn
  refine ⟨r, h1, fun C s f hs => ?_⟩
  obtain ⟨x, h3, h4⟩ := h2 C s f hs
  refine ⟨x, h3, h4.trans (and_congr_left fun _ => ?_)⟩
  cases q with
  | none => simp [Quant.counts] at hn
  | opt k => simp [Quant.counts] at hn
  | star k => simp [Quant.least, Quant.most, Quant.admits]
  | plus k => simp [Quant.least, Quant.most, Quant.admits]
  | exactly ds => simp only [Quant.least, Quant.most, Quant.admits, Quant.Faithful] at hq' ⊢; omega
  | atLeast ds k =>
    have h5 : (Quant.atLeast ds k).most = 0 := rfl
    have h6 : (Quant.atLeast ds k).least = decimal ds := rfl
    rw [h5, h6]
    simp only [Quant.admits, Quant.Faithful, Nat.zero_mod, true_or, and_true] at hq' ⊢
    omega
  | between ds es k => simp only [Quant.least, Quant.most, Quant.admits, Quant.Faithful] at hq' ⊢; omega

/-- `x{3,18446744073709551615}?` -/
example : let q : Quant := .between [51] [49, 56, 52, 52, 54, 55, 52, 52, 48, 55, 51, 55, 48, 57, 53, 53, 49, 54, 49, 53] .lazy
    q.WF ∧ q.counts = true ∧ q.Faithful ∧ q.most = 2 ^ 64 - 1 := by
  refine ⟨?_, rfl, ?_, by decide⟩
  · simp [Quant.WF, isNumber, isDec]
  · simp [Quant.Faithful, decimal]

/-- C32, any repeated atom: `a{n,m}` and the like mean: some number of iterations of `a` between the numbers written,
both taken modulo 2^64, no upper limit if the second is then 0. -/
theorem C32_meaning (P : PropTable) {a : Atom} (ha : a.WF P.find 0) (hf : a.Faithful) (hz : a.size < 2 ^ 64) {q : Quant} (hq : q.WF)
    (hn : q.counts = true) :
    ∃ r, build P (a.print ++ q.print) = .pattern r ∧ ∀ (E : Env) (s : List Ch) (σ τ : MState), σ.pos ≤ s.length →
      (r.Match E s σ τ ↔ ∃ n, q.least % 2 ^ 64 ≤ n ∧ (q.most % 2 ^ 64 = 0 ∨ n ≤ q.most % 2 ^ 64) ∧
        Iterate (fun σ τ => ∃ ρ, a.Match E s σ ρ ∧ τ = withModes σ ρ) n σ τ) := by
  refine ⟨_, just_build ha hq (by rintro rfl; simp [Quant.counts] at hn), fun E s σ τ hp => ?_⟩
  rw [quantTree_counts hn, rep_step]
  refine exists_congr fun k => and_congr_right fun _ => and_congr_right fun _ => ?_
  refine Iterate.congr (I := fun σ => σ.pos ≤ s.length) ?_ ?_ hp
  · intro x y hx
    exact exists_congr fun ρ => and_congr_left fun _ => atom_sem a hf (by simp only [szMod]; omega) hx
  · rintro x y hx ⟨ρ, h1, rfl⟩
    have := Re.match_le h1 hx
    exact this

/-- C32: only the numbers modulo 2^64 matter.  Two patterns that differ only in the spelling of numbers, with equal
values modulo 2^64, are the same pattern. -/
theorem C32_modulo (P : PropTable) {a : Atom} (ha : a.WF P.find 0) {ds ds' : List Nat} (h : isNumber ds) (h' : isNumber ds')
    (he : decimal ds % 2 ^ 64 = decimal ds' % 2 ^ 64) :
    build P (a.print ++ [123] ++ ds ++ [125]) = build P (a.print ++ [123] ++ ds' ++ [125]) := by
  have key : ∀ ds, isNumber ds → build P (a.print ++ [123] ++ ds ++ [125]) = .pattern (quantTree (.exactly ds) (atomTree a)) := by
    intro ds h
    rw [← just_build ha (q := .exactly ds) h (by simp)]
    simp [Quant.print]
  rw [key ds h, key ds' h']
  simp only [quantTree]
  rw [show decimal ds % szMod = decimal ds' % szMod from he]

/-- C32: `\x{...}` and `\u{...}` with any number of digits match exactly the character whose code is the number
modulo 2^64; in particular the character written, if the number is small enough. -/
theorem C32_hexadecimal (P : PropTable) {c : Char1} {ds : List Nat} (hc : c = .x ds ∨ c = .u ds) (h : ds ≠ []) (hd : ∀ d ∈ ds, isHex d)
    (hb : hexadecimal ds % 2 ^ 64 < 2147483648) :
    ∃ r, build P c.print = .pattern r ∧ ∀ (C : Cfg) (s : List Ch) (f : Flags), (∀ v ∈ s, IsCh v) →
      ∃ x, Returns (fun n => cMatch C n s f r) (.done x) ∧ (x.whole.matched = true ↔ IsText f.ci [hexadecimal ds % 2 ^ 64] s) := by
  refine char_match P ?_ ?_ hb
  · rcases hc with rfl | rfl <;> exact ⟨h, hd, by omega⟩
  · rcases hc with rfl | rfl <;> rfl

/-- `\x{10000000000000041}` is the letter A. -/
example : let ds := [49, 48, 48, 48, 48, 48, 48, 48, 48, 48, 48, 48, 48, 48, 48, 52, 49]
    hexadecimal ds = 2 ^ 64 + 0x41 ∧ (∀ d ∈ ds, isHex d) := by
  simp [hexadecimal, hexDigit, isHex, isDec]

/-- C32: `\xHH` and `\uHHHH` denote the number written. -/
theorem C32_fixed_width (P : PropTable) {a b c d : Nat} (ha : isHex a) (hb : isHex b) (hc : isHex c) (hd : isHex d) :
    (∃ r, build P [92, 120, a, b] = .pattern r ∧ ∀ (C : Cfg) (s : List Ch) (f : Flags), (∀ v ∈ s, IsCh v) →
      ∃ x, Returns (fun n => cMatch C n s f r) (.done x) ∧ (x.whole.matched = true ↔ IsText f.ci [hexadecimal [a, b]] s)) ∧
    (∃ r, build P [92, 117, a, b, c, d] = .pattern r ∧ ∀ (C : Cfg) (s : List Ch) (f : Flags), (∀ v ∈ s, IsCh v) →
      ∃ x, Returns (fun n => cMatch C n s f r) (.done x) ∧ (x.whole.matched = true ↔ IsText f.ci [hexadecimal [a, b, c, d]] s)) := by
  refine ⟨char_match P (c := .x2 a b) ⟨ha, hb⟩ rfl ?_, char_match P (c := .u4 a b c d) ⟨ha, hb, hc, hd⟩ rfl ?_⟩
  · have := hexadecimal_small (ds := [a, b]) (n := 2) (by simp [ha, hb]) rfl
    omega
  · have := hexadecimal_small (ds := [a, b, c, d]) (n := 4) (by simp [ha, hb, hc, hd]) rfl
    omega

example : isHex 52 ∧ isHex 49 ∧ isHex 102 ∧ isHex 70 := by simp [isHex, isDec]

/-- C32: `a{18446744073709551617}` is `a{1}` and matches "a". -/
theorem C32_wraps : ∃ r, build {} ([97, 123] ++ [49, 56, 52, 52, 54, 55, 52, 52, 48, 55, 51, 55, 48, 57, 53, 53, 49, 54, 49, 55] ++ [125]) =
    .pattern r ∧ decimal [49, 56, 52, 52, 54, 55, 52, 52, 48, 55, 51, 55, 48, 57, 53, 53, 49, 54, 49, 55] = 2 ^ 64 + 1 ∧
    cMatch {} 20 [97] {} r = .done { whole := ⟨some 0, some 1, true⟩ } := by
  refine ⟨.rep .greedy 1 1 [.cc (.chr 97)], ?_, by decide, by decide +kernel⟩
  exact just_build (P := {}) (a := .ch (.plain 97)) (q := .exactly [49, 56, 52, 52, 54, 55, 52, 52, 48, 55, 51, 55, 48, 57, 53, 53, 49, 54, 49, 55])
    (by simp [Atom.WF, Char1.WF, special]) (by simp [Quant.WF, isNumber, isDec]) (by simp)

end Ctre
