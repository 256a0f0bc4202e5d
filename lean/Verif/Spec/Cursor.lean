import Verif.Model.Wrapper

/-
Results over different representations of the same subject.
-/
namespace Ctre

/-- What a pattern needs of the iterator: stepping back, back references, lookbehinds, asking whether it is at the
begin of the subject. -/
structure Needs where
  back : Bool
  refs : Bool
  behind : Bool
  start : Bool

mutual
/-- The pattern uses no more than `o`. -/
def Re.fits (o : Needs) : Re → Bool
  | .sBegin => o.start
  | .boundary _ | .notBoundary _ | .lBegin => o.back && o.start
  | .bref _ | .brefName _ => o.refs
  | .behind _ l => o.back && o.behind && o.start && fitsList o l
  | .sel l | .seq l | .rep _ _ _ l | .cap _ _ l | .ahead _ l | .atomic l => fitsList o l
  | _ => true

def fitsList (o : Needs) : List Re → Bool
  | [] => true
  | r :: l => Re.fits o r && fitsList o l
end

/-- Positions of a slot moved by `φ`. -/
def Slot.mapPos (φ : Nat → Nat) (sl : Slot) : Slot := { sl with b := sl.b.map φ, e := sl.e.map φ }

def Group.mapPos (φ : Nat → Nat) (g : Group) : Group := { g with slot := g.slot.mapPos φ }

/-- All positions of a result moved by `φ`. -/
def Caps.mapPos (φ : Nat → Nat) (c : Caps) : Caps := { whole := c.whole.mapPos φ, groups := c.groups.map (Group.mapPos φ) }

def Exec.mapPos (φ : Nat → Nat) : Exec → Exec
  | .done c => .done (c.mapPos φ)
  | e => e

end Ctre
