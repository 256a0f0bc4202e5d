import Verif.Model.UniNumeric
import Mathlib.Data.Int.Log
import Mathlib.Data.Rat.Floor
/-
`numeric_value::value()`: arithmetic with `double` as in IEEE 754 (binary64), rounding to nearest, ties to even.

Simplification: the result of rounding is a rational number; exponents are not limited (from a `long long` and an `int16_t` nothing too large
or too small arises), and there is one zero.
-/
namespace Ctre.Ucd

/-- The values of a `double`, the type of the result in /repo/include/unicode-db/unicode-db.hpp:375. -/
inductive Double where
  | num (q : ℚ)
  | infinity (negative : Bool)
  | nan
deriving DecidableEq

/-- The nearest integer, the even one if there are two (IEEE 754-2019, 4.3.1, roundTiesToEven); used by the conversion and the division in
/repo/include/unicode-db/unicode-db.hpp:376. -/
def roundEven (x : ℚ) : ℤ :=
  if x - ⌊x⌋ < 1 / 2 then ⌊x⌋ else if 1 / 2 < x - ⌊x⌋ then ⌊x⌋ + 1 else if ⌊x⌋ % 2 = 0 then ⌊x⌋ else ⌊x⌋ + 1

/-- The result with 53 binary digits; used by the conversion and the division in /repo/include/unicode-db/unicode-db.hpp:376. -/
def roundDouble (q : ℚ) : ℚ := if q = 0 then 0 else roundEven (q / 2 ^ (Int.log 2 |q| - 52)) * 2 ^ (Int.log 2 |q| - 52)

/-- `static_cast<double>` of an integer (/repo/include/unicode-db/unicode-db.hpp:376). -/
def Double.ofInt (n : Int) : Double := .num (roundDouble n)

/-- Division of values of type `double` (/repo/include/unicode-db/unicode-db.hpp:376). -/
def Double.div : Double → Double → Double
  | .num a, .num b => if b = 0 then (if a = 0 then .nan else .infinity (decide (a < 0))) else .num (roundDouble (a / b))
  | .num _, .infinity _ => .num 0
  | .infinity a, .num b => .infinity (a != decide (b < 0))
  | _, _ => .nan

/-- `numeric_value::value()` (/repo/include/unicode-db/unicode-db.hpp:375-377). -/
def NumericValue.value (v : NumericValue) : Double := (Double.ofInt v.numerator).div (Double.ofInt v.denominator)

end Ctre.Ucd
