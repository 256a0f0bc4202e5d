import Verif.Spec.Semantics
import Mathlib.Computability.Language
/-
The formal language of a pattern without assertions, lookarounds, back references and modes.

Mathlib's `Language` is a set of words; `+` is union, `*` is concatenation, `^` is the power, `1` is the language of the empty word.
-/
namespace Ctre

mutual
/-- The pattern is a regular expression in the sense of formal languages; groups are allowed. -/
def Re.regular : Re → Bool
  | .cc _ | .any | .str _ | .empty | .reject _ => true
  | .sel l => !l.isEmpty && regularList l
  | .seq l | .rep _ _ _ l | .cap _ _ l | .atomic l => regularList l
  | _ => false

def regularList : List Re → Bool
  | [] => true
  | r :: l => r.regular && regularList l
end

mutual
/-- The language of a pattern, in multiline mode (the dot takes no newline) and with case ignored or not. -/
def Re.lang (U : Uni) (ml ci : Bool) : Re → Language Ch
  | .cc c => {w | ∃ v, w = [v] ∧ c.matchChar U ci v = true}
  | .any => {w | ∃ v, w = [v] ∧ ¬ (ml = true ∧ v = 10)}
  | .str cs => {w | List.Forall₂ (fun c v => (CC.chr c).matchChar U ci v = true) cs w}
  | .sel l => langSum U ml ci l
  | .seq l => langProd U ml ci l
  | .empty => 1
  | .rep _ a b l => {w | ∃ k, a ≤ k ∧ (b = 0 ∨ k ≤ b) ∧ w ∈ langProd U ml ci l ^ k}
  | .cap _ _ l => langProd U ml ci l
  | .atomic l => langProd U ml ci l
  | .mode _ | .bref _ | .brefName _ | .ahead _ _ | .behind _ _ | .boundary _ | .notBoundary _ | .sBegin | .sEnd | .sEndLine
  | .lBegin | .lEnd | .reject _ => 0

/-- Concatenation. -/
def langProd (U : Uni) (ml ci : Bool) : List Re → Language Ch
  | [] => 1
  | r :: l => r.lang U ml ci * langProd U ml ci l

/-- Union. -/
def langSum (U : Uni) (ml ci : Bool) : List Re → Language Ch
  | [] => 0
  | r :: l => r.lang U ml ci + langSum U ml ci l
end

/-- `*` is the Kleene star. -/
theorem lang_star (U : Uni) (ml ci : Bool) (k : RepKind) (r : Re) :
    (Re.rep k 0 0 [r]).lang U ml ci = KStar.kstar (r.lang U ml ci) := by
  ext w
  rw [Language.kstar_eq_iSup_pow, Language.mem_iSup]
  simp only [Re.lang, langProd, mul_one]
  constructor
  · rintro ⟨k, _, _, h⟩; exact ⟨k, h⟩
  · rintro ⟨k, h⟩; exact ⟨k, Nat.zero_le _, .inl trivial, h⟩

/-- `?` is optional. -/
theorem lang_optional (U : Uni) (ml ci : Bool) (k : RepKind) (r : Re) :
    (Re.rep k 0 1 [r]).lang U ml ci = 1 + r.lang U ml ci := by
  ext w
  rw [Language.mem_add]
  simp only [Re.lang, langProd, mul_one]
  constructor
  · rintro ⟨k, _, h | h, hw⟩
    · cases h
    · rcases Nat.le_one_iff_eq_zero_or_eq_one.1 h with rfl | rfl
      · left; simpa using hw
      · right; simpa using hw
  · rintro (h | h)
    · exact ⟨0, by omega, .inr (by omega), by simpa using h⟩
    · exact ⟨1, by omega, .inr (by omega), by simpa using h⟩

/-- The language of `a|b` is the union, the language of `ab` the concatenation. -/
example (U : Uni) (ml ci : Bool) (a b : Re) : (Re.sel [a, b]).lang U ml ci = a.lang U ml ci + b.lang U ml ci := by
  simp [Re.lang, langSum]
example (U : Uni) (ml ci : Bool) (a b : Re) : (Re.seq [a, b]).lang U ml ci = a.lang U ml ci * b.lang U ml ci := by
  simp [Re.lang, langProd]

end Ctre
