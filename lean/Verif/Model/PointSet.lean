import Verif.Model.First

/-
The array of intervals of the analysis of first characters, as it is stored.
Source: /repo/include/ctre/first.hpp:301-549

`Model/First.lean` has lists of intervals in its place.
-/
namespace Ctre

/-- Result of an operation on the array: it does not compile, it reads or writes outside of the array, or it has a
value (the operations are evaluated by the compiler, /repo/include/ctre/first.hpp:390-549). -/
inductive SetOut (α : Type) where
  | ill
  | oob
  | ok (a : α)
deriving Repr, DecidableEq

/-- One operation after the other (/repo/include/ctre/first.hpp:534-539).  Whether something compiles is decided before
anything is evaluated; here `oob` of the first operation hides `ill` of the second. -/
def SetOut.andThen {α β : Type} (x : SetOut α) (f : α → SetOut β) : SetOut β :=
  match x with
  | .ill => .ill
  | .oob => .oob
  | .ok a => f a

mutual
/-- `calculate_size_of_first` (/repo/include/ctre/first.hpp:302-322). -/
def sizeCC : CC → Nat
  | .negSet l => 1 + sizeList l
  | .enum cs => cs.length
  | .set l => sizeList l
  | _ => 1

/-- `calculate_size_of_first(set<Content...>)` (/repo/include/ctre/first.hpp:320-322). -/
def sizeList : List CC → Nat
  | [] => 0
  | c :: l => sizeCC c + sizeList l
end

/-- `calculate_size_of_first` on an element of a first list (/repo/include/ctre/first.hpp:302-322). -/
def sizeFC : FC → Nat
  | .anything => 1
  | .cc c => sizeCC c

/-- `calculate_size_of_first(ctll::list<Content...>)` (/repo/include/ctre/first.hpp:316-318). -/
def sizeFirst : List FC → Nat
  | [] => 0
  | c :: l => sizeFC c + sizeFirst l

/-- `point_set`: the array and the number of elements in use (/repo/include/ctre/first.hpp:391-402). -/
structure PSet where
  points : List (Int × Int)
  used : Nat
deriving Repr, DecidableEq

/-- `point_set<Capacity>()` (/repo/include/ctre/first.hpp:401-402, 459). -/
def PSet.empty (capacity : Nat) : PSet := ⟨List.replicate (capacity + 1) (0, 0), 0⟩

/-- Assignment to an element; `none` outside of the array (/repo/include/ctre/first.hpp:437, 445, 452). -/
def store (pts : List (Int × Int)) (i : Nat) (p : Int × Int) : Option (List (Int × Int)) :=
  if i < pts.length then some (pts.set i p) else none

/-- The loop of `lower_bound` (/repo/include/ctre/first.hpp:415-432), with indices for pointers. -/
def lbLoop (pts : List (Int × Int)) (low : Int) (first it count : Nat) : Option Nat :=
  if h : count = 0 then some it
  else
    match pts[first + count / 2]? with
    | none => none
    | some p =>
      if p.1 < low then lbLoop pts low (first + count / 2 + 1) (first + count / 2 + 1) (count - (count / 2 + 1))
      else lbLoop pts low first (first + count / 2) (count / 2)
termination_by count
decreasing_by all_goals omega

/-- The loop that moves the rest of the elements up by one (/repo/include/ctre/first.hpp:441-454); `n` elements are
left. -/
def shiftLoop (pts : List (Int × Int)) (it : Nat) (obj : Int × Int) : Nat → Option (List (Int × Int))
  | 0 => store pts it obj
  | n + 1 =>
    match pts[it]? with
    | none => none
    | some tmp =>
      match store pts it obj with
      | none => none
      | some pts' => shiftLoop pts' (it + 1) tmp n

/-- `insert_point`, `insert` (/repo/include/ctre/first.hpp:433-464). -/
def PSet.insert (s : PSet) (p : Int × Int) : SetOut PSet :=
  match lbLoop s.points p.1 0 0 s.used with
  | none => .oob
  | some it =>
    match (if it = s.used then store s.points it p else shiftLoop s.points it p (s.used - it)) with
    | none => .oob
    | some pts => .ok ⟨pts, s.used + 1⟩

/-- Insertion of several intervals (/repo/include/ctre/first.hpp:529-533). -/
def PSet.insertAll (s : PSet) : List (Int × Int) → SetOut PSet
  | [] => .ok s
  | p :: l => (s.insert p).andThen fun s' => s'.insertAll l

/-- `populate(...)` (/repo/include/ctre/first.hpp:524-528). -/
def PSet.fill (s : PSet) : SetOut PSet :=
  match store s.points 0 (i64min, i64max) with
  | none => .oob
  | some pts => .ok ⟨pts, 1⟩

mutual
/-- `populate` (/repo/include/ctre/first.hpp:518-536); an enumeration is a set of characters. -/
def PSet.populateCC (s : PSet) : CC → SetOut PSet
  | .chr c => s.insert ((c : Int), (c : Int))
  | .range a b => s.insert ((a : Int), (b : Int))
  | .enum cs => s.insertAll (cs.map fun c : Nat => ((c : Int), (c : Int)))
  | .set l => s.populateList l
  | .negSet l =>
    match negSetIntervals l with
    | none => .ill
    | some ivs => s.insertAll ivs
  | .negate _ => s.fill
  | .prop _ => s.fill

/-- `populate(set<Content...>)` (/repo/include/ctre/first.hpp:534-536). -/
def PSet.populateList (s : PSet) : List CC → SetOut PSet
  | [] => .ok s
  | c :: l => (s.populateCC c).andThen fun s' => s'.populateList l
end

/-- `populate` on an element of a first list (/repo/include/ctre/first.hpp:518-539). -/
def PSet.populateFC (s : PSet) : FC → SetOut PSet
  | .anything => s.fill
  | .cc c => s.populateCC c

/-- `populate(ctll::list<Content...>)` (/repo/include/ctre/first.hpp:537-539). -/
def PSet.populate (s : PSet) : List FC → SetOut PSet
  | [] => .ok s
  | c :: l => (s.populateFC c).andThen fun s' => s'.populate l

/-- The loop of `check(low, high)` (/repo/include/ctre/first.hpp:465-478) from element `i` on, with `n` elements left. -/
def PSet.checkLoop (s : PSet) (low high : Int) (i : Nat) : Nat → SetOut Bool
  | 0 => .ok false
  | n + 1 =>
    match s.points[i]? with
    | none => .oob
    | some r =>
      if r.1 ≤ low ∧ low ≤ r.2 then .ok true
      else if r.1 ≤ high ∧ high ≤ r.2 then .ok true
      else if low ≤ r.1 ∧ r.1 ≤ high then .ok true
      else if low ≤ r.2 ∧ r.2 ≤ high then .ok true
      else s.checkLoop low high (i + 1) n

/-- `check(low, high)` (/repo/include/ctre/first.hpp:465-478). -/
def PSet.checkIv (s : PSet) (low high : Int) : SetOut Bool := s.checkLoop low high 0 s.used

/-- `x || y`; both have to compile (/repo/include/ctre/first.hpp:506-515). -/
def SetOut.or (x y : SetOut Bool) : SetOut Bool :=
  match x, y with
  | .ill, _ | _, .ill => .ill
  | .oob, _ => .oob
  | .ok true, _ => .ok true
  | .ok false, y => y

/-- `(check(low, high) || ...)` for several intervals (/repo/include/ctre/first.hpp:506-509).  Also used for
`collision |= check(low, high)` (lines 499-505), where the rest is evaluated as well. -/
def PSet.checkAll (s : PSet) : List (Int × Int) → SetOut Bool
  | [] => .ok false
  | p :: l => (s.checkIv p.1 p.2).or (s.checkAll l)

mutual
/-- `check` (/repo/include/ctre/first.hpp:481-515). -/
def PSet.checkCC (s : PSet) : CC → SetOut Bool
  | .chr c => s.checkIv c c
  | .range a b => s.checkIv a b
  | .enum cs => s.checkAll (cs.map fun c : Nat => ((c : Int), (c : Int)))
  | .set l => s.checkList l
  | .negSet l =>
    match negSetIntervals l with
    | none => .ill
    | some ivs => s.checkAll ivs
  | .negate _ => .ill
  | .prop _ => .ok (decide (0 < s.used))

/-- `check(set<Content...>)` (/repo/include/ctre/first.hpp:513-515). -/
def PSet.checkList (s : PSet) : List CC → SetOut Bool
  | [] => .ok false
  | c :: l => (s.checkCC c).or (s.checkList l)
end

/-- `check` on an element of a first list (/repo/include/ctre/first.hpp:487-489). -/
def PSet.checkFC (s : PSet) : FC → SetOut Bool
  | .anything => .ok (decide (0 < s.used))
  | .cc c => s.checkCC c

/-- `check(ctll::list<Content...>)` (/repo/include/ctre/first.hpp:510-512). -/
def PSet.check (s : PSet) : List FC → SetOut Bool
  | [] => .ok false
  | c :: l => (s.checkFC c).or (s.check l)

/-- `collides(rhs, lhs)` (/repo/include/ctre/first.hpp:542-549). -/
def collidesArray (rhs lhs : List FC) : SetOut Bool :=
  ((PSet.empty (sizeFirst rhs)).populate rhs).andThen fun s => s.check lhs

end Ctre
