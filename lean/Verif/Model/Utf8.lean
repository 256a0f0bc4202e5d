import Verif.Model.Cursor

/-
UTF-8 subjects.  Source: /repo/include/ctre/utf8.hpp

A subject is a list of code units (`char8_t`, values below 256); an iterator is an offset, the member `end` is the
length.  `none` is a read outside the buffer.  Forming a pointer more than one past the end is not modelled as an error.
-/
namespace Ctre

/-- Number of trailing code units by the first code unit: the packed table of `operator++` and `operator*`
(/repo/include/ctre/utf8.hpp:124, 181). -/
def utf8Trail (u : Nat) : Nat := (0x3A55000000000000 >>> ((u >>> 2) &&& 0b111110)) &&& 0b11

/-- `operator++` (/repo/include/ctre/utf8.hpp:116-126). -/
def utf8Next (b : List Nat) (p : Nat) : Option Nat := (b[p]?).map fun u => p + (utf8Trail u + 1)

/-- The loop of `operator--` over trailing code units (/repo/include/ctre/utf8.hpp:135-137). -/
def utf8Scan (b : List Nat) (p : Nat) : Option Nat :=
  match b[p]? with
  | none => none
  | some u =>
    if u &&& 0b11000000 = 0b10000000 then
      match p with
      | 0 => none
      | q + 1 => utf8Scan b q
    else some p

/-- `operator--` (/repo/include/ctre/utf8.hpp:128-140). -/
def utf8Prev (b : List Nat) (p : Nat) : Option Nat :=
  if p > b.length then
    match b.length with
    | 0 => none
    | q + 1 => utf8Scan b q
  else
    match p with
    | 0 => none
    | q + 1 => utf8Scan b q

/-- `operator*` (/repo/include/ctre/utf8.hpp:172-230). -/
def utf8Deref (b : List Nat) (p : Nat) : Option Nat :=
  match b[p]? with
  | none => none
  | some u0 =>
    if u0 &&& 0b10000000 = 0 then some u0
    else
      let length := utf8Trail u0
      if length = 0 then some 0xFFFD
      else if p + length ≥ b.length then some 0xFFFD
      else
        match b[p + 1]? with
        | none => none
        | some u1 =>
          if u1 &&& 0b11000000 ≠ 0b10000000 then some 0xFFFD
          else
            let mask := 0b00111111 >>> length
            let result := ((u0 &&& mask) <<< 6) ||| (u1 &&& 0b00111111)
            if length = 1 then some result
            else
              match b[p + 2]? with
              | none => none
              | some u2 =>
                if u2 &&& 0b11000000 ≠ 0b10000000 then some 0xFFFD
                else
                  let result := (result <<< 6) ||| (u2 &&& 0b00111111)
                  if length = 2 then some result
                  else
                    match b[p + 3]? with
                    | none => none
                    | some u3 =>
                      if u3 &&& 0b11000000 ≠ 0b10000000 then some 0xFFFD
                      else some ((result <<< 6) ||| (u3 &&& 0b00111111))

/-- `utf8_iterator` with `utf8_iterator::sentinel` as `last` and `const char8_t *` in the results
(/repo/include/ctre/utf8.hpp:18-242, /repo/include/ctre/wrapper.hpp:191-193).  `reference` is `char8_t` (utf8.hpp:21),
which `std::reverse_iterator` converts to before C++20; since C++20 it gives the `char32_t` of `operator*`.  The capture iterators have another type, so that back references do not
compile (/repo/include/ctre/evaluation.hpp:445: both iterators have the type `Iterator`). -/
def utf8Cursor (lib20 : Bool) (b : List Nat) : Cursor where
  size := b.length
  atBegin p := some (decide (p = 0))
  atEnd p := some (decide (p ≥ b.length))
  deref p := (utf8Deref b p).map fun v => (v : Int)
  next := utf8Next b
  prev := utf8Prev b
  narrow v := if lib20 then v else v % 256
  store := true
  refs := false

/-- `for (char32_t c : utf8_range(sv))`: the values of an iteration from an offset to the sentinel
(/repo/include/ctre/utf8.hpp:233-243, 78).  `none`: a read outside the buffer, or the fuel is used up. -/
def utf8Collect (b : List Nat) : Nat → Nat → Option (List Nat)
  | 0, _ => none
  | n + 1, p =>
    if p ≥ b.length then some []
    else
      match utf8Deref b p, utf8Next b p with
      | some v, some q => (utf8Collect b n q).map (v :: ·)
      | _, _ => none

end Ctre
