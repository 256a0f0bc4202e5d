/-
The look-up algorithms of the Unicode database.  Source: /repo/include/unicode-db/unicode-db.hpp

A code point is the `Nat` value of a `char32_t`.  Every array read goes through `rd`, which is
`none` when the index is outside the array: a result `none` is undefined behaviour of the C++.
-/
namespace Ctre.Ucd

/-- `a[i]` for an array of `n` elements whose initialiser lists the elements `l` (missing ones are
value-initialised, so zero) (for instance /repo/include/unicode-db/unicode-db.hpp:206-217, 245). -/
def rd (n : Nat) (l : List Nat) (i : Nat) : Option Nat := if i < n then some (l.getD i 0) else none

/-- The loop of `upper_bound` and `lower_bound`
(/repo/include/unicode-db/unicode-db.hpp:112-121, 131-140, 150-159): `right x` says whether the
search goes on behind the element `x`.  Iterators are indices.  `fuel` bounds the number of
iterations; as `count` gets smaller in every iteration the length of the array is enough. -/
def boundLoop (right : Nat → Bool) (d : List Nat) : Nat → Nat → Nat → Option Nat
  | _, first, 0 => some first
  | 0, _, _ + 1 => none
  | fuel + 1, first, count + 1 =>
    match rd d.length d (first + (count + 1) / 2) with
    | none => none
    | some x =>
      if right x then boundLoop right d fuel (first + (count + 1) / 2 + 1) (count + 1 - ((count + 1) / 2 + 1))
      else boundLoop right d fuel first ((count + 1) / 2)

/-- `upper_bound(begin, end, cp, [](cp, v) { return cp < (v >> 8); })`
(/repo/include/unicode-db/unicode-db.hpp:107-124, used at 175-179, 304-308, 7373-7377). -/
def upperBound (d : List Nat) (cp : Nat) : Option Nat :=
  boundLoop (fun v => !decide (cp < v >>> 8)) d d.length 0 d.length

/-- `lower_bound(begin, end, value)` (/repo/include/unicode-db/unicode-db.hpp:145-162). -/
def lowerBound (d : List Nat) (value : Nat) : Option Nat :=
  boundLoop (fun v => decide (v < value)) d d.length 0 d.length

/-- `binary_search` (/repo/include/unicode-db/unicode-db.hpp:164-168). -/
def binarySearch (d : List Nat) (value : Nat) : Option Bool :=
  match lowerBound d value with
  | none => none
  | some first =>
    if first = d.length then some false
    else (rd d.length d first).map fun x => !decide (value < x)

/-- The search shared by `compact_range::value`, `range_array::lookup` and `cp_block`
(/repo/include/unicode-db/unicode-db.hpp:173-184, 302-313, 7371-7380): `some none` when the upper
bound is the end, else the index of the element in front of the upper bound.  When the upper bound
is the first element, `it--` leaves the array. -/
def beforeUpper (d : List Nat) (cp : Nat) : Option (Option Nat) :=
  match upperBound d cp with
  | none => none
  | some it =>
    if it = d.length then some none
    else if it = 0 then none
    else some (some (it - 1))

/-- `range_array::lookup` (/repo/include/unicode-db/unicode-db.hpp:299-314). -/
def rangeLookup (d : List Nat) (cp : Nat) : Option Bool :=
  match beforeUpper d cp with
  | none => none
  | some none => some false
  | some (some i) => (rd d.length d i).map fun v => (v &&& 0xFF) != 0

/-- `compact_range::value` (/repo/include/unicode-db/unicode-db.hpp:169-184). -/
def compactValue (d : List Nat) (cp dflt : Nat) : Option Nat :=
  match beforeUpper d cp with
  | none => none
  | some none => some dflt
  | some (some i) => (rd d.length d i).map fun v => v &&& 0xFF

/-- `flat_array<size>` (/repo/include/unicode-db/unicode-db.hpp:281-297). -/
structure FlatArray where
  size : Nat
  data : List Nat

/-- The array elements: the initialiser, filled up with zeros (/repo/include/unicode-db/unicode-db.hpp:281-283). -/
def FlatArray.elems (t : FlatArray) : List Nat := t.data ++ List.replicate (t.size - t.data.length) 0

/-- `flat_array::lookup` (/repo/include/unicode-db/unicode-db.hpp:284-296).  The test
`it == std::end(data)` in the loop (line 289) is never true. -/
def FlatArray.lookup (t : FlatArray) (u : Nat) : Option Bool :=
  if t.size < 20 then some (t.elems.any fun x => x == u)
  else binarySearch t.elems u

/-- `bool_trie` (/repo/include/unicode-db/unicode-db.hpp:219-236): the template parameters and the
initialisers of the arrays. -/
structure BoolTrie where
  r1S : Nat
  r2S : Nat
  r2F : Nat
  r2B : Nat
  r3S : Nat
  r4S : Nat
  r4F : Nat
  r4B : Nat
  r5S : Nat
  r5F : Nat
  r5B : Nat
  r6S : Nat
  r1 : List Nat
  r2 : List Nat
  r3 : List Nat
  r4 : List Nat
  r5 : List Nat
  r6 : List Nat

/-- `trie_range_leaf` (/repo/include/unicode-db/unicode-db.hpp:275-277). -/
def leafBit (c chunk : Nat) : Bool := (chunk >>> (c &&& 63)) &&& 1 != 0

/-- `bool_trie::lookup` (/repo/include/unicode-db/unicode-db.hpp:238-273).  The subtractions do not
wrap in their branches, and `std::size_t` is wide enough for the sums. -/
def BoolTrie.lookup (t : BoolTrie) (c : Nat) : Option Bool :=
  if c < 0x800 then
    if t.r1S = 0 then some false
    else (rd 32 t.r1 (c >>> 6)).map (leafBit c)
  else if c < 0x10000 then
    if t.r3S = 0 then some false
    else
      let i := (c >>> 6) - 0x20
      match (if t.r2F ≤ i ∧ i < t.r2F + t.r2S then rd t.r2S t.r2 (i - t.r2F) else some 0) with
      | none => none
      | some child => (rd t.r3S t.r3 child).map (leafBit c)
  else if t.r6S = 0 then some false
  else
    let i4 := (c >>> 12) - 0x10
    match (if 0 < t.r4S ∧ t.r4F ≤ i4 ∧ i4 < t.r4F + t.r4S then rd t.r4S t.r4 (i4 - t.r4F) else some 0) with
    | none => none
    | some child =>
      let i5 := (child <<< 6) + ((c >>> 6) &&& 0x3f)
      match (if t.r5S ≠ 0 ∧ t.r5F ≤ i5 ∧ i5 < t.r5F + t.r5S then rd t.r5S t.r5 (i5 - t.r5F) else some 0) with
      | none => none
      | some leaf => (rd t.r6S t.r6 leaf).map (leafBit c)

/-- `propcharnorm` (/repo/include/unicode-db/unicode-db.hpp:319-325). -/
def propCharNorm (a : Nat) : Nat :=
  if 65 ≤ a ∧ a ≤ 90 then a + 32 else if a = 32 ∨ a = 45 then 95 else a

/-- `propcharcomp` (/repo/include/unicode-db/unicode-db.hpp:327-335). -/
def propCharComp (a b : Nat) : Int :=
  if propCharNorm a = propCharNorm b then 0
  else if propCharNorm a < propCharNorm b then -1
  else 1

/-- `propnamecomp` (/repo/include/unicode-db/unicode-db.hpp:337-355).  The sizes are compared when
one of the texts is used up; what remains of both tells the same. -/
def propNameComp : List Nat → List Nat → Int
  | a :: sa, b :: sb => if propCharComp a b ≠ 0 then propCharComp a b else propNameComp sa sb
  | [], [] => 0
  | [], _ :: _ => -1
  | _ :: _, [] => 1

/-- The loops of `age_from_string`, `category_from_string`, `block_from_string`,
`script_from_string` and `binary_prop_from_string`
(/repo/include/unicode-db/unicode-db.hpp:7260-7294, 9507-9514): the value of the first entry
whose name compares equal. -/
def fromString : List (List Nat × Nat) → List Nat → Option Nat
  | [], _ => none
  | (n, v) :: l, s => if propNameComp s n = 0 then some v else fromString l s

end Ctre.Ucd
