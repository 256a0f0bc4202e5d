import Verif.Model.Atoms

/-
Subjects up to ASCII case, and the patterns for which case-insensitive matching ignores it.
-/
namespace Ctre

/-- ASCII lower case. -/
def lowerCase (v : Int) : Int := if 65 ≤ v ∧ v ≤ 90 then v + 32 else v

/-- The subjects differ only in the case of ASCII letters. -/
def SameLetters (s s' : List Ch) : Prop := s.map lowerCase = s'.map lowerCase

/-- The range contains a lower-case ASCII letter exactly when it contains the upper-case one. -/
def rangeHasBothCases (a b : Nat) : Bool :=
  (List.range 26).all fun i => (decide (a ≤ 97 + i) && decide (97 + i ≤ b)) == (decide (a ≤ 65 + i) && decide (65 + i ≤ b))

mutual
/-- Character matchers whose ranges have two lower-case or two upper-case ends or contain the letters in both cases;
no Unicode properties. -/
def CC.caseless : CC → Bool
  | .chr _ => true
  | .range a b => (isLower a && isLower b) || (isUpper a && isUpper b) || rangeHasBothCases a b
  | .enum _ => true
  | .set l | .negSet l | .negate l => caselessCCs l
  | .prop _ => false

def caselessCCs : List CC → Bool
  | [] => true
  | c :: l => CC.caseless c && caselessCCs l
end

mutual
/-- All character matchers are as above; no back reference, no switch to case-sensitive mode. -/
def Re.caseless : Re → Bool
  | .cc c | .boundary c | .notBoundary c => c.caseless
  | .sel l | .seq l | .rep _ _ _ l | .cap _ _ l | .ahead _ l | .behind _ l | .atomic l => caselessList l
  | .bref _ | .brefName _ => false
  | .mode m => decide (m ≠ .caseSensitive)
  | _ => true

def caselessList : List Re → Bool
  | [] => true
  | r :: l => Re.caseless r && caselessList l
end

end Ctre
