import Mathlib.Algebra.Order.Field.Rat
import Mathlib.Algebra.Order.Floor.Ring
import Mathlib.Data.Rat.Floor
import Mathlib.Data.Int.Log

/-! The rounding of IEEE 754 to the format `binary64`, to the nearest number and to even in the middle, on numbers that do not overflow.

This is what the C++ type `double` does on the processors for which the code is built (the type with 53 bits of precision and a least exponent of -1022); it is written from the standard
and not from the code. -/

namespace Alfalfa

/-- The integer nearest to `z`, and the even one of two. -/
def nearestEven (z : ℚ) : Int :=
  if z - ⌊z⌋ < 1 / 2 then ⌊z⌋
  else if 1 / 2 < z - ⌊z⌋ then ⌊z⌋ + 1
  else if ⌊z⌋ % 2 = 0 then ⌊z⌋ else ⌊z⌋ + 1

/-- The exponent of the spacing of the numbers of the format near `x`, a positive number: 52 bits after the first bit of `x`, and 2^-1074 for the smallest. -/
def spacing (x : ℚ) : Int := max (Int.log 2 x) (-1022) - 52

/-- `x`, rounded to the format. -/
def roundDouble (x : ℚ) : ℚ :=
  if 0 ≤ x then 2 ^ spacing x * nearestEven (x / 2 ^ spacing x) else -(2 ^ spacing (-x) * nearestEven (-x / 2 ^ spacing (-x)))

end Alfalfa
