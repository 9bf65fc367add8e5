import Verif.Model.Pixels
import Mathlib.Algebra.BigOperators.Fin
import Mathlib.Algebra.Order.Group.Int
import Mathlib.Algebra.Order.Group.Unbundled.Abs

/-! What the measures of the distance of two blocks of pixels are. -/

namespace Alfalfa.Spec

/-- How much brighter one pixel is than the other. -/
def lighter {n : Nat} (a b : Square n) (column row : Fin n) : Int := ((a column row).toNat : Int) - (b column row).toNat

/-- The sum of the distances, of their squares, and of the differences of two blocks. -/
def sumOfDistances {n : Nat} (a b : Square n) : Int := ∑ c : Fin n, ∑ r : Fin n, |lighter a b c r|
def sumOfSquares {n : Nat} (a b : Square n) : Int := ∑ c : Fin n, ∑ r : Fin n, lighter a b c r ^ 2
def sumOfDifferences {n : Nat} (a b : Square n) : Int := ∑ c : Fin n, ∑ r : Fin n, lighter a b c r

/-- The variance of the differences, times the number of pixels: the sum of the squares minus the square of the sum over the number of pixels, rounded down. -/
def spread {n : Nat} (a b : Square n) : Int := sumOfSquares a b - sumOfDifferences a b ^ 2 / (n ^ 2 : Int)

end Alfalfa.Spec
