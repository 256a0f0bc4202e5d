import Verif.Model.Utf8

/-
The remaining operators of the UTF-8 iterator.  Source: /repo/include/ctre/utf8.hpp

Pointers are offsets into one buffer.
-/
namespace Ctre

/-- `operator+(unsigned step)`: `++` while `step > 0` (/repo/include/ctre/utf8.hpp:154-161). -/
def utf8Plus (b : List Nat) (p : Nat) : Nat → Option Nat
  | 0 => some p
  | step + 1 => (utf8Next b p).bind fun q => utf8Plus b q step

/-- `operator-(unsigned step)`: `--` while `step > 0` (/repo/include/ctre/utf8.hpp:163-170). -/
def utf8Minus (b : List Nat) (p : Nat) : Nat → Option Nat
  | 0 => some p
  | step + 1 => (utf8Prev b p).bind fun q => utf8Minus b q step

/-- `operator++(int)`: the value before, and the iterator after (/repo/include/ctre/utf8.hpp:148-152). -/
def utf8PostInc (b : List Nat) (p : Nat) : Option (Nat × Nat) := (utf8Next b p).map fun q => (p, q)

/-- `operator--(int)` (/repo/include/ctre/utf8.hpp:142-146). -/
def utf8PostDec (b : List Nat) (p : Nat) : Option (Nat × Nat) := (utf8Prev b p).map fun q => (p, q)

/-- An operand of a comparison: `utf8_iterator` with its `ptr` and `end`, `const char8_t *`, or `utf8_iterator::sentinel`
(/repo/include/ctre/utf8.hpp:18-61). -/
inductive U8Side where
  | iter (ptr fin : Nat)
  | ptr (p : Nat)
  | sentinel
  deriving DecidableEq

/-- Whether the compiler has `__cpp_impl_three_way_comparison` of at least 201907, so that `!=` and exchanged operands are
rewritten to `==` (/repo/include/ctre/utf8.hpp:45, 62, 87). -/
inductive CppMode where
  | before20
  | since20
  deriving DecidableEq

/-- Outcome of a comparison: the value, no such operator (or one that is only declared), or a read
outside the buffer (the operators of /repo/include/ctre/utf8.hpp:40-103). -/
inductive U8Cmp where
  | val (x : Bool)
  | undeclared
  | outside
  deriving DecidableEq

/-- `*other_ptr` compared with zero by the sentinel (/repo/include/ctre/utf8.hpp:42-44). -/
def isZero (b : List Nat) (p : Nat) : U8Cmp :=
  match b[p]? with
  | none => .outside
  | some u => .val (decide (u = 0))

/-- The friends `operator==` that are there in both cases (/repo/include/ctre/utf8.hpp:39, 42-44, 75-85).  That of two
sentinels has no definition, and two pointers are compared by the language. -/
def eqDeclared (b : List Nat) : U8Side → U8Side → U8Cmp
  | .iter p e, .sentinel => .val (decide (p ≥ e))
  | .iter p _, .ptr q => .val (decide (p = q))
  | .iter p _, .iter q _ => .val (decide (p = q))
  | .sentinel, .ptr q => isZero b q
  | .ptr p, .ptr q => .val (decide (p = q))
  | _, _ => .undeclared

/-- `x == y` (/repo/include/ctre/utf8.hpp:39-58, 75-103). -/
def eqOp (L : CppMode) (b : List Nat) (x y : U8Side) : U8Cmp :=
  match L with
  | .since20 => if eqDeclared b x y = .undeclared then eqDeclared b y x else eqDeclared b x y
  | .before20 =>
    match x, y with
    | .sentinel, .iter p e => .val (decide (p ≥ e))
    | .ptr q, .iter p _ => .val (decide (q = p))
    | .ptr q, .sentinel => isZero b q
    | x, y => eqDeclared b x y

/-- Negation of an outcome: the rewritten `!=` of C++20 (there are no other `!=` then, /repo/include/ctre/utf8.hpp:46-58, 63-75). -/
def U8Cmp.not : U8Cmp → U8Cmp
  | .val x => .val (!x)
  | .undeclared => .undeclared
  | .outside => .outside

/-- `*other_ptr != char8_t{0}` (/repo/include/ctre/utf8.hpp:46-48, 54-56). -/
def isNotZero (b : List Nat) (p : Nat) : U8Cmp :=
  match b[p]? with
  | none => .outside
  | some u => .val (decide (u ≠ 0))

/-- `x != y` (/repo/include/ctre/utf8.hpp:45-58, 62-74, 87-95).  The operator for a pointer on the left, line 92-94, has
`lhs == rhs.ptr`. -/
def neOp (L : CppMode) (b : List Nat) (x y : U8Side) : U8Cmp :=
  match L with
  | .since20 => (eqOp .since20 b x y).not
  | .before20 =>
    match x, y with
    | .iter p e, .sentinel => .val (decide (p < e))
    | .iter p _, .ptr q => .val (decide (p ≠ q))
    | .iter p _, .iter q _ => .val (decide (p ≠ q))
    | .sentinel, .iter p e => .val (decide (p < e))
    | .ptr q, .iter p _ => .val (decide (q = p))
    | .sentinel, .ptr q => isNotZero b q
    | .ptr q, .sentinel => isNotZero b q
    | .ptr p, .ptr q => .val (decide (p ≠ q))
    | .sentinel, .sentinel => .undeclared

end Ctre
