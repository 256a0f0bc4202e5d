import Verif.Lemmas.Spelling
import Verif.Lemmas.ParserFuel
/-
Patterns of one property that does not exist.
-/
namespace Ctre.Parse
open Surface

theorem parse_of_go {P : PropTable} {t : List Nat} {v : Nat} {i : List Nat} {st : List Sym} {c : Ctx} {x : PRes}
    (h : Go P none t [.nt .s] {} (some v) i st c) (hx : decide P 1 (some v) i st c = x) (hn : x ≠ .timeout) : parse P t = x := by
  obtain ⟨k, hk⟩ := h
  have h1 := hk 1
  rw [hx] at h1
  have h2 := parse_terminates P t (n := parseFuel t.length) (by unfold parseFuel; omega)
  have h3 := decide_of_le P (Nat.le_max_left (1 + k) (parseFuel t.length)) (by rw [h1]; exact hn)
  have h4 := decide_of_le P (Nat.le_max_right (1 + k) (parseFuel t.length)) h2
  rw [parse, ← h4, h3, h1]

theorem prop_go {P : PropTable} {neg : Bool} {name : List Nat} {value : Option (List Nat)} (h1 : isPropWord name)
    (h2 : ∀ w, value = some w → isPropWord w) :
    ∃ v st, Go P none ([92, if neg then 80 else 112, 123] ++ name ++ printValue value ++ [125]) [.nt .s] {} (some v) []
      (.act (if neg then .makePropertyNegative else .makeProperty) :: st) ⟨propStack name value [], 0⟩ := by
  have h5 : ∀ st, Run P (name ++ (printValue value ++ [125])) (.nt .propertyName :: .term 125 ::
      .act (if neg then .makePropertyNegative else .makeProperty) :: st) ⟨[], 0⟩ []
      (.act (if neg then .makePropertyNegative else .makeProperty) :: st) ⟨propStack name value [], 0⟩ := fun st =>
    (property_run (P := P) (k := 0) (rest := []) (stk := []) h1 h2 trivial).trans Run.term
  simp only [List.append_assoc, List.cons_append, List.nil_append]
  cases neg
  · obtain ⟨v', h⟩ := h5 _ 123
    exact ⟨v', _, (Go.push rfl).trans (Go.any.trans ((Go.push rfl).trans (Go.any.trans (Go.term.trans h))))⟩
  · obtain ⟨v', h⟩ := h5 _ 123
    exact ⟨v', _, (Go.push rfl).trans (Go.any.trans ((Go.push rfl).trans (Go.any.trans (Go.term.trans h))))⟩

/-- An unknown `\p{name}` is a syntax error behind the brace. -/
theorem binary_reject {P : PropTable} {neg : Bool} {name : List Nat} (h1 : isPropWord name) (h : P.binary name = none) :
    build P ([92, if neg then 80 else 112, 123] ++ name ++ [125]) = .syntaxError (name.length + 4) := by
  obtain ⟨v, st, hg⟩ := prop_go (P := P) (neg := neg) (value := none) h1 (by simp)
  have hx : decide P 1 (some v) [] (.act (if neg then .makePropertyNegative else .makeProperty) :: st)
      ⟨propStack name none [], 0⟩ = .reject [] := by
    cases neg <;> simp [decide, apply, applyTerm, propStack, h]
  have := parse_of_go hg hx (by simp)
  simp only [printValue, List.append_nil] at this
  rw [build, this]
  simp

/-- An unknown `\P{name=value}` does not compile. -/
theorem valued_ill {P : PropTable} {name w : List Nat} (h1 : isPropWord name) (h2 : isPropWord w)
    (h : P.valued name w = none) : build P ([92, 80, 123] ++ name ++ [61] ++ w ++ [125]) = .ill := by
  obtain ⟨v, st, hg⟩ := prop_go (P := P) (neg := true) (value := some w) h1 (by simpa using h2)
  have hx : decide P 1 (some v) [] (.act .makePropertyNegative :: st) ⟨propStack name (some w) [], 0⟩ = .ill := by
    simp [decide, apply, applyTerm, propStack, h]
  have := parse_of_go hg hx (by simp)
  rw [build]
  have e : [92, 80, 123] ++ name ++ [61] ++ w ++ [125] = [92, 80, 123] ++ name ++ printValue (some w) ++ [125] := by simp [printValue]
  rw [e]
  simp only [if_true] at this
  rw [this]

/-- An unknown `\p{name=value}` is accepted as a pattern. -/
theorem valued_reject {P : PropTable} {name w : List Nat} (h1 : isPropWord name) (h2 : isPropWord w)
    (h : P.valued name w = none) : build P ([92, 112, 123] ++ name ++ [61] ++ w ++ [125]) = .pattern (.reject false) := by
  have := just_build (P := P) (a := .unknown name w) (q := .none) ⟨h1, h2, h⟩ trivial (by simp)
  simpa only [Atom.print, Quant.print, List.append_nil, quantTree, atomTree] using this

end Ctre.Parse
