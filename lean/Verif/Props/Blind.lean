import Verif.Lemmas.Blind
import Verif.Props.Recase

/-
C89: characters that the pattern does not tell apart can be exchanged in the subject.
-/
namespace Ctre
open Parse Surface

variable {P : PropTable} {C : Cfg} {n : Nat} {ml : Bool} {m : Method} {mods : List Mode} {lit lit' : PatLit} {t t' : List Nat} {r : Re}
  {b b' : Body} {k : Nat}

/-- C89: `match`, `starts_with` and `search` from any position give the same result, with all positions, on subjects that the pattern does
not tell apart. -/
theorem C89_calls (h : build P t = .pattern r) (hb : Reading P.find t b) (hfa : b.Faithful) {C : Cfg} {s s' : List Ch}
    (hs : b.Twins C.uni s s') (n : Nat) (f : Flags) (p : Nat) :
    matchAt C n s f r p = matchAt C n s' f r p ∧ startsWithAt C n s f r p = startsWithAt C n s' f r p ∧
    searchAt C n s f r p = searchAt C n s' f r p := by
  rw [reading_tree h hb]
  exact calls_twin C n (twins_tree hfa hs) p

theorem plain_twin {s s' : List Ch} (hs : Twin C.uni r.leaves s s') (f : Flags) (m : Method) : m.plain C n f r s = m.plain C n f r s' := by
  have key := calls_twin C n (f := f) hs
  have h1 : searchAt C n s f r = searchAt C n s' f r := funext fun p => (key p).2.2
  have h2 : startsWithAt C n s f r = startsWithAt C n s' f r := funext fun p => (key p).2.1
  have h3 : ∀ k, searchAllNth C n s f r k = searchAllNth C n s' f r k := by
    intro k; simp only [searchAllNth, h1, hs.length]
  have h4 : ∀ k, tokenizeNth C n s f r k = tokenizeNth C n s' f r k := by
    intro k; simp only [tokenizeNth, h2, hs.length]
  have h5 : ∀ k, splitNth C n s f r k = splitNth C n s' f r k := by
    intro k; simp only [splitNth, h1, hs.length]
  cases m with
  | match_ => exact congrArg Answer.one (key 0).1
  | search => exact congrArg Answer.one (key 0).2.2
  | startsWith => exact congrArg Answer.one (key 0).2.1
  | searchAll | iterator => exact congrArg Answer.many (funext h3)
  | tokenize => exact congrArg Answer.many (funext h4)
  | split => exact congrArg Answer.pieces (funext h5)

/-- C89, the whole call, with every function of the interface, every kind of literal and any flags. -/
theorem C89_view (hl : lit.Spells t) (ht : ∀ c ∈ t, IsScalar c) (hb : Reading P.find t b) (hfa : b.Faithful) {s s' : List Ch}
    (hs : b.Twins C.uni s s') : call P C n ml m mods lit (.view s) = call P C n ml m mods lit (.view s') := by
  rw [hl.build ht, hl.build ht, C61_view, C61_view]
  have h : build P t = .pattern (bodyTree b) := hb.2 ▸ build_print hb.1
  simp only [PatLit.build, PatLit.decode, fixedUtf32, h]
  exact congrArg some (plain_twin (twins_tree hfa hs) _ m)

/-- C89 for all representations of the subjects in which the characters with the same index have the same positions. -/
theorem C89_subjects (hl : lit.Spells t) (ht : ∀ c ∈ t, IsScalar c) (hb : Reading P.find t b) (hfa : b.Faithful) (hfw : b.forward = true)
    {s s' : List Nat} {x x' : Subject} {φ : Nat → Nat} (hx : x.Holds s φ) (hx' : x'.Holds s' φ) (hc : ∀ c ∈ s, IsScalar c)
    (hc' : ∀ c ∈ s', IsScalar c) (hs : b.Twins C.uni (codePoints s) (codePoints s')) :
    call P C n ml m mods lit x = call P C n ml m mods lit x' := by
  have h : build P t = .pattern (bodyTree b) := hb.2 ▸ build_print hb.1
  rw [Ctre.call_eq hl ht hx hc h fun _ => body_forward b hfw, Ctre.call_eq hl ht hx' hc' h fun _ => body_forward b hfw,
    plain_twin (twins_tree hfa hs)]

theorem utf8Offset_lengths : ∀ {s s' : List Nat}, (s.map fun c => (utf8Of c).length) = (s'.map fun c => (utf8Of c).length) →
    utf8Offset s = utf8Offset s' := by
  intro s s' h
  have key : ∀ s s' : List Nat, (s.map fun c => (utf8Of c).length) = (s'.map fun c => (utf8Of c).length) →
      (utf8Encode s).length = (utf8Encode s').length := by
    intro s s' h
    simp only [utf8Encode, List.length_flatMap]
    rw [h]
  funext i
  refine key _ _ ?_
  rw [List.map_take, List.map_take, h]

/-- C89 for UTF-8 text in which the exchanged characters take equally many bytes. -/
theorem C89_utf8 (hl : lit.Spells t) (ht : ∀ c ∈ t, IsScalar c) (hb : Reading P.find t b) (hfa : b.Faithful) (hfw : b.forward = true)
    {s s' : List Nat} (hc : ∀ c ∈ s, IsScalar c) (hc' : ∀ c ∈ s', IsScalar c)
    (hn : (s.map fun c => (utf8Of c).length) = (s'.map fun c => (utf8Of c).length))
    (hs : b.Twins C.uni (codePoints s) (codePoints s')) :
    call P C n ml m mods lit (.u8 (utf8Encode s)) = call P C n ml m mods lit (.u8 (utf8Encode s')) :=
  C89_subjects hl ht hb hfa hfw (.utf8 s) (utf8Offset_lengths hn ▸ .utf8 s') hc hc' hs

/-- C89 for a renaming of the characters: it may identify characters if there are no back references. -/
theorem C89_rename (hl : lit.Spells t) (ht : ∀ c ∈ t, IsScalar c) (hb : Reading P.find t b) (hfa : b.Faithful) {s : List Ch} (ρ : Ch → Ch)
    (hρ : ∀ v ∈ s, b.Blind C.uni v (ρ v)) (hi : b.refers = true → ∀ v ∈ s, ∀ w ∈ s, ρ v = ρ w → v = w) :
    call P C n ml m mods lit (.view s) = call P C n ml m mods lit (.view (s.map ρ)) := by
  refine C89_view hl ht hb hfa ⟨by simp, fun i v v' e e' => ?_, fun hr i j h1 h2 => ?_⟩
  · rw [List.getElem?_map, e, Option.map_some, Option.some.injEq] at e'
    exact e' ▸ hρ v (List.mem_of_getElem? e)
  · rw [List.getElem?_map, List.getElem?_map, List.getElem?_eq_getElem h1, List.getElem?_eq_getElem h2]
    simp only [Option.map_some, Option.some.injEq]
    exact ⟨fun e => by rw [e], hi hr _ (List.getElem_mem h1) _ (List.getElem_mem h2)⟩

/-- C89: two code points of 128 or more that are greater than all that are mentioned in a text without Unicode properties are not told
apart, whatever the tables of properties contain. -/
theorem C89_beyond (h : b.beneath k = true) (hk : 128 ≤ k) {c d : Nat} (hc : k ≤ c) (hd : k ≤ d) (hc' : IsScalar c) (hd' : IsScalar d)
    (U : Uni) : b.Blind U (c : Int) (d : Int) := by
  unfold IsScalar at hc' hd'
  exact body_beneath hk (by omega) (by omega) (by omega) (by omega) b h

mutual
theorem atom_blind_refl {U : Uni} (v : Ch) : ∀ a : Atom, a.Blind U v v
  | .ch _ | .cls _ | .set _ _ | .wordBoundary | .notWordBoundary => by simp [Atom.Blind]
  | .dot | .bol | .eol | .subjectEndLine | .unknown _ _ | .subjectBegin | .subjectEnd | .mode _
  | .ref _ | .refNumber _ | .refRelative _ _ | .refName _ => by simp [Atom.Blind]
  | .cap _ b | .named _ _ b | .ahead _ b | .atomic b | .behind _ b | .group b => by
    simp only [Atom.Blind]; exact body_blind_refl v b

theorem cat_blind_refl {U : Uni} (v : Ch) : ∀ c : Cat, c.Blind U v v
  | .one a _ => by simp only [Cat.Blind]; exact atom_blind_refl v a
  | .cons a _ l => ⟨atom_blind_refl v a, cat_blind_refl v l⟩

theorem alt_blind_refl {U : Uni} (v : Ch) : ∀ l : Alt, l.Blind U v v
  | .empty => by simp only [Alt.Blind]
  | .one c => by simp only [Alt.Blind]; exact cat_blind_refl v c
  | .bar c l => ⟨cat_blind_refl v c, alt_blind_refl v l⟩

theorem body_blind_refl {U : Uni} (v : Ch) : ∀ b : Body, b.Blind U v v
  | .alt l | .lead l => by simp only [Body.Blind]; exact alt_blind_refl v l
end

/-- C89: without back references, all greater code points can be replaced by the first one that is not mentioned. -/
theorem C89_cut (hl : lit.Spells t) (ht : ∀ c ∈ t, IsScalar c) (hb : Reading P.find t b) (hfa : b.Faithful) (h : b.beneath k = true)
    (hk : 128 ≤ k) (hks : IsScalar k) (hr : b.refers = false) {s : List Nat} (hs : ∀ c ∈ s, IsScalar c) :
    call P C n ml m mods lit (.view (codePoints s)) = call P C n ml m mods lit (.view (codePoints (cutAt k s))) := by
  refine C89_view hl ht hb hfa ⟨by simp [codePoints, cutAt], fun i v v' e e' => ?_, fun h => absurd h (by rw [hr]; simp)⟩
  simp only [codePoints, cutAt, List.map_map, List.getElem?_map] at e e'
  cases hc : s[i]? with
  | none => rw [hc] at e; cases e
  | some c =>
    rw [hc, Option.map_some, Option.some.injEq] at e e'
    subst e
    rw [← e']
    simp only [Function.comp_apply]
    rcases Nat.le_total k c with hkc | hkc
    · rw [Nat.min_eq_left hkc]
      exact C89_beyond h hk hkc (Nat.le_refl k) (hs c (List.mem_of_getElem? hc)) hks _
    · rw [Nat.min_eq_right hkc]
      exact body_blind_refl _ b

/-- C89: two patterns without back references and Unicode properties that give the same answer on every subject with characters up to
the first one that is not mentioned give the same answer on every subject. -/
theorem C89_finite (hl : lit.Spells t) (ht : ∀ c ∈ t, IsScalar c) (hb : Reading P.find t b) (hfa : b.Faithful) (h : b.beneath k = true)
    (hr : b.refers = false) (hl' : lit'.Spells t') (ht' : ∀ c ∈ t', IsScalar c) (hb' : Reading P.find t' b') (hfa' : b'.Faithful)
    (h' : b'.beneath k = true) (hr' : b'.refers = false) (hk : 128 ≤ k) (hks : IsScalar k)
    (he : ∀ s : List Nat, (∀ c ∈ s, c ≤ k) →
      call P C n ml m mods lit (.view (codePoints s)) = call P C n ml m mods lit' (.view (codePoints s)))
    {s : List Nat} (hs : ∀ c ∈ s, IsScalar c) :
    call P C n ml m mods lit (.view (codePoints s)) = call P C n ml m mods lit' (.view (codePoints s)) := by
  rw [C89_cut hl ht hb hfa h hk hks hr hs, C89_cut hl' ht' hb' hfa' h' hk hks hr' hs]
  refine he _ fun c hc => ?_
  obtain ⟨d, _, rfl⟩ := List.mem_map.1 hc
  exact Nat.min_le_left k d

/-! ### Cases -/

-- `(?i)[a-z]+([_0-9]?)x` does not tell code points from 128 on apart
example : Reading (PropTable.find {}) sampleDefault3Text sampleDefault3 ∧ sampleDefault3.Faithful ∧ sampleDefault3.beneath 128 = true ∧
    sampleDefault3.refers = false ∧ sampleDefault3.forward = true ∧ IsScalar 128 :=
  ⟨sampleDefault3_orderly.reading, sampleDefault3_orderly.faithful, by decide +kernel, by decide +kernel, by decide +kernel,
    by unfold IsScalar; omega⟩

/-- `(.)\1` -/
def sampleTwins : Body := .alt (.one (.cons (.cap 1 (.alt (.one (.one .dot .none)))) .none (.one (.ref 49) .none)))

theorem sampleTwins_reading : Reading (PropTable.find {}) [40, 46, 41, 92, 49] sampleTwins ∧ sampleTwins.Faithful := by
  refine ⟨⟨?_, rfl⟩, ?_⟩
  · simp [sampleTwins, Body.WF, Alt.WF, Cat.WF, Atom.WF, Quant.WF, Cat.groups, Alt.groups, Body.groups, Atom.groups]
  · simp [sampleTwins, Body.Faithful, Alt.Faithful, Cat.Faithful, Atom.Faithful, Quant.Faithful, possessiveItem, Atom.possessive,
      Atom.leadsPossessive, Cat.leadsPossessive, Quant.kind]

-- "aab" and "xxy"
example (U : Uni) : sampleTwins.Twins U [97, 97, 98] [120, 120, 121] ∧ sampleTwins.refers = true := by
  refine ⟨⟨rfl, fun i v v' e e' => ?_, fun _ i j hi hj => ?_⟩, rfl⟩
  · have : (v = 97 ∨ v = 98) ∧ (v' = 120 ∨ v' = 121) := by
      rcases i with _ | _ | _ | i <;> simp at e e' <;> simp [← e, ← e']
    simp only [sampleTwins, Body.Blind, Alt.Blind, Cat.Blind, Atom.Blind, and_true]
    obtain ⟨rfl | rfl, rfl | rfl⟩ := this <;> decide
  · rcases i with _ | _ | _ | i <;> rcases j with _ | _ | _ | j <;> simp at hi hj ⊢

/-! ### The conditions are needed -/

/-- Back references: `(.)\1` tells "aa" from "ab" although it does not tell "a" from "b". -/
theorem C89_fails_equal : (∀ U : Uni, sampleTwins.Blind U 97 98) ∧ ∃ r, build {} sampleTwins.print = .pattern r ∧
    (cMatch {} 40 [97, 97] {} r).success = true ∧ (cMatch {} 40 [97, 98] {} r).success = false :=
  ⟨fun U => by simp [sampleTwins, Body.Blind, Alt.Blind, Cat.Blind, Atom.Blind], _, rfl, by decide +kernel⟩

/-- It is not enough that the characters are not told apart when case is not ignored: `a` contains neither "A" nor "B" then. -/
theorem C89_fails_case : (∀ U : Uni, (CC.chr 97).matchChar U false 65 = (CC.chr 97).matchChar U false 66) ∧
    ∃ r, build {} [97] = .pattern r ∧ (cMatch {} 40 [65] { ci := true } r).success = true ∧
      (cMatch {} 40 [66] { ci := true } r).success = false :=
  ⟨fun _ => rfl, _, rfl, by decide +kernel⟩

/-- The bound 128: no character is written in `\w`, yet it tells "z" from "{". -/
theorem C89_fails_ascii : ∃ b : Body, b.beneath 0 = true ∧ b.print = [92, 119] ∧ ∃ r, build {} b.print = .pattern r ∧
    (cMatch {} 40 [122] {} r).success = true ∧ (cMatch {} 40 [123] {} r).success = false :=
  ⟨.alt (.one (.one (.cls (.letter 119)) .none)), rfl, rfl, _, rfl, by decide +kernel⟩

end Ctre
