import Verif.Model.Atoms

/-
Captures and results.  Source: /repo/include/ctre/return_type.hpp, /repo/include/ctre/find_captures.hpp
-/
namespace Ctre

/-- `captured_content<Id,Name>::storage<Iterator>` (/repo/include/ctre/return_type.hpp:40-46).
An iterator is a position; a value-initialised iterator is `none`. -/
structure Slot where
  /-- `_begin` -/
  b : Option Nat := none
  /-- `_end` -/
  e : Option Nat := none
  /-- `_matched` -/
  matched : Bool := false
deriving Repr, DecidableEq

/-- A numbered, possibly named capture group with its storage
(`captured_content<Id, Name>::storage`, /repo/include/ctre/return_type.hpp:40-50). -/
structure Group where
  id : Nat
  name : Option (List Nat) := none
  slot : Slot := {}
deriving Repr, DecidableEq

/-- `regex_results` (/repo/include/ctre/return_type.hpp:354-356): `captured_content<0>` followed by
the capture groups of the pattern. -/
structure Caps where
  whole : Slot := {}
  groups : List Group := []
deriving Repr, DecidableEq

/-- `regex_results::matched` (/repo/include/ctre/return_type.hpp:402-405). -/
def Caps.setMatched (c : Caps) : Caps := { c with whole := { c.whole with matched := true } }

/-- `regex_results::unmatch` (/repo/include/ctre/return_type.hpp:406-409). -/
def Caps.unmatch (c : Caps) : Caps := { c with whole := { c.whole with matched := false } }

/-- `set_start_mark` (/repo/include/ctre/return_type.hpp:480-483). -/
def Caps.setStart (c : Caps) (p : Nat) : Caps := { c with whole := { c.whole with b := some p } }

/-- `set_end_mark` (/repo/include/ctre/return_type.hpp:484-487). -/
def Caps.setEnd (c : Caps) (p : Nat) : Caps := { c with whole := { c.whole with e := some p } }

/-- `captures<...>::exists<id>` for the groups other than 0
(/repo/include/ctre/return_type.hpp:250-256, 326-328). -/
def hasId (id : Nat) : List Group → Bool
  | [] => false
  | g :: gs => g.id == id || hasId id gs

/-- `captures<...>::select<id>` (/repo/include/ctre/return_type.hpp:279-285, 293-299): the first
group with the identifier.  `none` stands for `capture_not_exists`. -/
def selectId (id : Nat) : List Group → Option Slot
  | [] => none
  | g :: gs => if g.id = id then some g.slot else selectId id gs

/-- `captures<...>::select<Name>` (/repo/include/ctre/return_type.hpp:286-292, 300-321): the first
group with that name.  The lookups by `id<...>` type and by `fixed_string` value compare the same
characters, see `is_same_as`, /repo/include/ctll/fixed_string.hpp:172-178. -/
def selectName (name : List Nat) : List Group → Option Slot
  | [] => none
  | g :: gs => if g.name = some name then some g.slot else selectName name gs

/-- Modify the first group with the identifier (`select<id>` returns a reference,
/repo/include/ctre/return_type.hpp:279-285). -/
def modifyId (id : Nat) (f : Slot → Slot) : List Group → List Group
  | [] => []
  | g :: gs => if g.id = id then { g with slot := f g.slot } :: gs else g :: modifyId id f gs

/-- `start_capture<Id>` (/repo/include/ctre/return_type.hpp:491-494).  Only the begin is set.
`none`: the group does not exist and the C++ code does not compile. Identifier 0 is the whole match
(never used for groups by the parser). -/
def Caps.startCapture (c : Caps) (id p : Nat) : Option Caps :=
  if id = 0 then some { c with whole := { c.whole with b := some p } }
  else if hasId id c.groups then
    some { c with groups := modifyId id (fun s => { s with b := some p }) c.groups }
  else none

/-- `end_capture<Id>` (/repo/include/ctre/return_type.hpp:495-498): sets end and matched flag. -/
def Caps.endCapture (c : Caps) (id p : Nat) : Option Caps :=
  if id = 0 then some { c with whole := { c.whole with e := some p, matched := true } }
  else if hasId id c.groups then
    some { c with groups := modifyId id (fun s => { s with e := some p, matched := true }) c.groups }
  else none

/-- `get<Id>()` (/repo/include/ctre/return_type.hpp:365-374); `none`: the static assertion fails. -/
def Caps.get (c : Caps) (id : Nat) : Option Slot :=
  if id = 0 then some c.whole else selectId id c.groups

/-- `get<Name>()` (/repo/include/ctre/return_type.hpp:375-398); `captured_content<0>` has no name. -/
def Caps.getName (c : Caps) (name : List Nat) : Option Slot := selectName name c.groups

/-- `count()` (/repo/include/ctre/return_type.hpp:399-401). -/
def Caps.count (c : Caps) : Nat := c.groups.length + 1

mutual
/-- `find_captures` (/repo/include/ctre/find_captures.hpp:17-119): capture groups in order of
appearance.  Atomic groups and lookbehinds are not searched (generic overload, line 57). -/
def Re.captures : Re → List Group
  | .sel l => capturesList l
  | .seq l => capturesList l
  | .rep _ _ _ l => capturesList l
  | .ahead _ l => capturesList l
  | .cap id name l => { id := id, name := name } :: capturesList l
  | _ => []

/-- `find_captures` on a list of pattern nodes (/repo/include/ctre/find_captures.hpp:17-119). -/
def capturesList : List Re → List Group
  | [] => []
  | r :: l => r.captures ++ capturesList l
end

/-- `return_type<Iterator, RE>{}` (/repo/include/ctre/return_type.hpp:546 and
/repo/include/ctre/find_captures.hpp:11-13): an empty result with one slot per group. -/
def initCaps (r : Re) : Caps := { groups := r.captures }

end Ctre
