import Verif.Lemmas.ParseBackBody
import Verif.Lemmas.PrintInj
import Verif.Props.Accepted

/-
C45: which texts are patterns, and how they are read.
-/
namespace Ctre
open Parse Surface

/-- `b` is a reading of the text `t`. -/
def Surface.Reading (find : List Nat → Option (List Nat) → Option Nat) (t : List Nat) (b : Body) : Prop := b.WF find 0 ∧ b.print = t

/-- C45: the accepted texts are exactly the texts that can be read. -/
theorem C45_accepted_iff (P : PropTable) {t : List Nat} (h : ¬ Unusual t) :
    (∃ r, build P t = .pattern r) ↔ ∃ b, Reading P.find t b := by
  constructor
  · rintro ⟨r, hr⟩
    rcases build_back hr with h' | ⟨b, hw, rfl, _⟩
    · exact (h h').elim
    · exact ⟨b, hw, rfl⟩
  · rintro ⟨b, hw, rfl⟩
    exact ⟨_, build_print hw⟩

/-- C45: no text can be read in two ways. -/
theorem C45_unique {find : List Nat → Option (List Nat) → Option Nat} {t : List Nat} {b b' : Body} (h : Reading find t b)
    (h' : Reading find t b') : b = b' := by
  refine (body_inj b b' (rest := []) (rest' := []) h.1 h'.1 (.inl rfl) (.inl rfl) ?_).1
  rw [h.2, h'.2]

/-- C45: an accepted text has one reading, and the pattern has the meaning of this reading. -/
theorem C45_meaning {P : PropTable} {t : List Nat} {r : Re} (h : build P t = .pattern r) (hu : ¬ Unusual t) :
    ∃ b, Reading P.find t b ∧ (∀ b', Reading P.find t b' → b' = b) ∧
      (b.Faithful → b.size < 2 ^ 64 → ∀ (E : Env) (s : List Ch) (σ τ : MState), σ.pos ≤ s.length →
        (r.Match E s σ τ ↔ b.Match E s σ τ)) := by
  obtain ⟨b, hb⟩ := (C45_accepted_iff P hu).1 ⟨r, h⟩
  refine ⟨b, hb, fun b' hb' => C45_unique hb' hb, fun hf hn => ?_⟩
  obtain ⟨r', hr', hm⟩ := C31_meaning P hb.1 hf hn
  rw [hb.2, h] at hr'
  cases hr'
  exact hm

/-- C45: the results of an accepted text. -/
theorem C45_match_sound {P : PropTable} {t : List Nat} {r : Re} (h : build P t = .pattern r) {b : Body} (hb : Reading P.find t b)
    (hf : b.Faithful) (hn : b.size < 2 ^ 64) (hs : b.selfFree (numberOf b.visible) []) (hneg : b.noNegative = true)
    {C : Cfg} {n : Nat} {s : List Ch} {f : Flags} {x : Caps} (hx : cMatch C n s f r = .done x) (hm : x.whole.matched = true) :
    ∃ τ, b.Match (b.env C) s (MState.start 0 f) τ ∧ τ.pos = s.length ∧ Reports x 0 τ := by
  obtain ⟨r', hr', hm'⟩ := C31_match_sound P hb.1 hf hn hs hneg
  rw [hb.2, h] at hr'
  cases hr'
  exact hm' C n s f x hx hm

theorem C45_search_sound {P : PropTable} {t : List Nat} {r : Re} (h : build P t = .pattern r) {b : Body} (hb : Reading P.find t b)
    (hf : b.Faithful) (hn : b.size < 2 ^ 64) (hs : b.selfFree (numberOf b.visible) []) (hneg : b.noNegative = true)
    {C : Cfg} {n : Nat} {s : List Ch} {f : Flags} {x : Caps} (hx : cSearch C n s f r = .done x) (hm : x.whole.matched = true) :
    ∃ i τ, i ≤ s.length ∧ b.Match (b.env C) s (MState.start i f) τ ∧ Reports x i τ := by
  obtain ⟨r', hr', hm'⟩ := C31_search_sound P hb.1 hf hn hs hneg
  rw [hb.2, h] at hr'
  cases hr'
  exact hm' C n s f x hx hm

/-- C30 for every accepted text: all groups in the order of their opening parentheses are numbered 1, 2, ...; the results
have a slot for each group outside of atomic and lookbehind groups. -/
theorem C30_accepted_from_one {P : PropTable} {t : List Nat} {r : Re} (h : build P t = .pattern r) (hu : ¬ Unusual t) :
    ∃ b, Reading P.find t b ∧ b.opened.map Prod.fst = List.range' 1 b.groups ∧ b.visible.Sublist b.opened ∧
      ∀ (C : Cfg) (n : Nat) (s : List Ch) (f : Flags) (x : Caps),
        (cMatch C n s f r = .done x ∨ cStartsWith C n s f r = .done x ∨ cSearch C n s f r = .done x) →
        x.groups.map (fun g => (g.id, g.name)) = b.visible := by
  obtain ⟨b, hb⟩ := (C45_accepted_iff P hu).1 ⟨r, h⟩
  obtain ⟨h1, _, _, _, h2⟩ := C30_numbering P hb.1
  obtain ⟨r', hr', h3⟩ := C30_results P hb.1
  rw [hb.2, h] at hr'
  cases hr'
  exact ⟨b, hb, h1, h2, h3⟩

/-- The exception is necessary: `(?im)a` is accepted, but cannot be read. -/
theorem C45_fails_letters : (∃ r, build {} [40, 63, 105, 109, 41, 97] = .pattern r) ∧
    ¬ ∃ b, Reading (PropTable.find {}) [40, 63, 105, 109, 41, 97] b := by
  refine ⟨⟨_, rfl⟩, ?_⟩
  rintro ⟨b, hw, hb⟩
  have h1 := parse_print hw
  rw [hb] at h1
  have h2 : parse {} [40, 63, 105, 109, 41, 97] =
      .accept ⟨[.re (.seq [.mode .multiline, .cc (.chr 97)]), .re (.mode .caseInsensitive)], 0⟩ := rfl
  rw [h2] at h1
  simp at h1

/-! ### Cases -/

/-- A test for `Unusual`. -/
def hasUnusual : List Nat → Bool
  | [] => false
  | v :: t => (match v :: t with
      | 40 :: 63 :: x :: y :: _ => modeLetters.contains x && modeLetters.contains y
      | 41 :: 63 :: 43 :: _ => true
      | _ => false) || hasUnusual t

theorem hasUnusual_append : ∀ (u : List Nat) {t : List Nat}, hasUnusual t = true → hasUnusual (u ++ t) = true
  | [], _, h => h
  | v :: u, t, h => by
    simp only [List.cons_append, hasUnusual, Bool.or_eq_true]
    exact .inr (hasUnusual_append u h)

theorem hasUnusual_of {t : List Nat} (h : Unusual t) : hasUnusual t = true := by
  rcases h with ⟨u, v, x, y, hx, hy, rfl⟩ | ⟨u, v, rfl⟩
  · rw [List.append_assoc]
    refine hasUnusual_append u ?_
    simp only [List.cons_append, hasUnusual, Bool.or_eq_true, Bool.and_eq_true, List.contains_iff_mem]
    exact .inl ⟨hx, hy⟩
  · rw [List.append_assoc]
    refine hasUnusual_append u ?_
    simp only [List.cons_append, hasUnusual, Bool.or_eq_true, true_or]

example : ¬ Unusual writtenSample.print := fun h => absurd (hasUnusual_of h) (by decide +kernel)
example : ∃ r, build {} writtenSample.print = .pattern r := ⟨_, rfl⟩
example : Reading (PropTable.find {}) writtenSample.print writtenSample := by
  refine ⟨?_, rfl⟩
  simp [writtenSample, Body.WF, Alt.WF, Cat.WF, Atom.WF, Char1.WF, special, isHex, isDec, Quant.WF, isNumber, SetWF, SetItem.WF,
    specialInSet, Atom.groups, isNameStart, Atom.leadsName, Body.leadsName, Alt.leadsName, Cat.leadsName]
  exact ⟨110, [], by simp⟩
-- a text that is not accepted, and therefore has no reading: `a)`
example : ¬ ∃ b, Reading (PropTable.find {}) [97, 41] b := by
  rw [← C45_accepted_iff {} (fun h => absurd (hasUnusual_of h) (by decide))]
  rintro ⟨r, h⟩
  have : build {} [97, 41] = .syntaxError 1 := rfl
  rw [this] at h
  cases h

end Ctre
