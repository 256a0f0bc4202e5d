/-
Pattern literals.  Source: /repo/include/ctll/fixed_string.hpp

A literal is the list of its `N` code units without the terminating NUL; `content` is the list of the first `real_size`
elements of the array `content`.
-/
namespace Ctre

/-- `fixed_string` (/repo/include/ctll/fixed_string.hpp:48-51). -/
structure FixedString where
  content : List Nat := []
  correct : Bool := true
deriving Repr, DecidableEq

/-- `length_and_value_of_utf8_code_point`, as (length, value) (/repo/include/ctll/fixed_string.hpp:21-29). -/
def litUtf8Lead (u : Nat) : Nat × Nat :=
  if u &&& 0b10000000 = 0b00000000 then (1, u)
  else if u &&& 0b11100000 = 0b11000000 then (2, u &&& 0b00011111)
  else if u &&& 0b11110000 = 0b11100000 then (3, u &&& 0b00001111)
  else if u &&& 0b11111000 = 0b11110000 then (4, u &&& 0b00000111)
  else if u &&& 0b11111100 = 0b11111000 then (5, u &&& 0b00000011)
  else if u &&& 0b11111100 = 0b11111100 then (6, u &&& 0b00000001)
  else (0, 0)

/-- `value_of_trailing_utf8_code_point`: the value, `none` when `correct` is cleared, the value then being 0
(/repo/include/ctll/fixed_string.hpp:31-37). -/
def litUtf8Trail (u : Nat) : Option Nat :=
  if u &&& 0b11000000 = 0b10000000 then some (u &&& 0b00111111) else none

/-- The cascade `if (++i < N) info.value = (info.value << 6) | …` with `k` trailing code units to read: the value, the
correctness flag and the unread code units (/repo/include/ctll/fixed_string.hpp:60-74, 96-110). -/
def litUtf8Rest : Nat → Nat → Bool → List Nat → Nat × Bool × List Nat
  | 0, value, ok, l => (value, ok, l)
  | k + 1, value, ok, [] => litUtf8Rest k value ok []
  | k + 1, value, ok, u :: l =>
    match litUtf8Trail u with
    | some t => litUtf8Rest k ((value <<< 6) ||| t) ok l
    | none => litUtf8Rest k ((value <<< 6) ||| 0) false l

/-- The loop for UTF-8 literals; the number bounds the iterations (/repo/include/ctll/fixed_string.hpp:56-83, 92-119). -/
def litUtf8Loop : Nat → Bool → List Nat → FixedString
  | 0, ok, _ => { content := [], correct := ok }
  | _ + 1, ok, [] => { content := [], correct := ok }
  | n + 1, ok, u :: l =>
    match litUtf8Lead u with
    | (0, _) => { content := [], correct := false }
    | (k + 1, value) =>
      let x := litUtf8Rest k value ok l
      let y := litUtf8Loop n x.2.1 x.2.2
      { content := x.1 :: y.content, correct := y.correct }

/-- The constructor for `char8_t`, and for `char` with `CTRE_STRING_IS_UTF8`
(/repo/include/ctll/fixed_string.hpp:53-83, 91-119). Every iteration consumes a code unit, so `N` iterations suffice. -/
def fixedUtf8 (l : List Nat) : FixedString := litUtf8Loop l.length true l

/-- `length_and_value_of_utf16_code_point` (/repo/include/ctll/fixed_string.hpp:39-42). -/
def litUtf16Lead (u : Nat) : Nat × Nat :=
  if u &&& 0b1111110000000000 = 0b1101100000000000 then (2, u &&& 0b0000001111111111) else (1, u)

/-- The loop for UTF-16 literals (/repo/include/ctll/fixed_string.hpp:122-138). -/
def litUtf16Loop : Nat → List Nat → FixedString
  | 0, _ => {}
  | _ + 1, [] => {}
  | n + 1, u :: l =>
    match litUtf16Lead u with
    | (2, value) =>
      match l with
      | [] => {}
      | t :: l' =>
        if t &&& 0b1111110000000000 = 0b1101110000000000 then
          let y := litUtf16Loop n l'
          { y with content := (((value <<< 10) ||| (t &&& 0b0000001111111111)) + 0x10000) :: y.content }
        else { correct := false }
    | (_, value) =>
      let y := litUtf16Loop n l
      { y with content := value :: y.content }

/-- The constructor for `char16_t` (/repo/include/ctll/fixed_string.hpp:121-138). -/
def fixedUtf16 (l : List Nat) : FixedString := litUtf16Loop l.length l

/-- The constructor for `char32_t`, and for `wchar_t` of 32 bits (/repo/include/ctll/fixed_string.hpp:139-144). -/
def fixedUtf32 (l : List Nat) : FixedString := { content := l }

/-- The constructor for `char` without `CTRE_STRING_IS_UTF8`: `static_cast<uint8_t>`
(/repo/include/ctll/fixed_string.hpp:84-89). -/
def fixedNarrow (l : List Int) : FixedString := { content := l.map fun v => (v % 256).toNat }

/-- The comparison loop of `is_same_as` (/repo/include/ctll/fixed_string.hpp:174-177). -/
def sameLoop (a b : List Nat) : Nat → Nat → Bool
  | 0, _ => true
  | n + 1, i => if a[i]? ≠ b[i]? then false else sameLoop a b n (i + 1)

/-- `is_same_as` (/repo/include/ctll/fixed_string.hpp:172-178). -/
def FixedString.isSameAs (a b : FixedString) : Bool :=
  if a.content.length ≠ b.content.length then false else sameLoop a.content b.content a.content.length 0

end Ctre
