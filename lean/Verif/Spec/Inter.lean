import Mathlib.Algebra.BigOperators.Fin
import Verif.Spec.Pixels

/-! What inter prediction shall give. -/

namespace Alfalfa.InterSpec

/-- The nearest number in `0 .. n - 1`. -/
def nearestIndex (v : Int) (n : Nat) : Nat := (max 0 (min v (n - 1))).toNat

/-- The picture continued over the whole plane: the pixel at the nearest coordinates that are in the picture. -/
def extended (p : Plane) (x y : Int) : UInt8 := p.px (nearestIndex x p.width) (nearestIndex y p.height)

/-- The six-tap filters of the format for the eight positions between two pixels (RFC 6386, section 18.3). -/
def taps : List (List Int) :=
  [[0, 0, 128, 0, 0, 0], [0, -6, 123, 12, -1, 0], [2, -11, 108, 36, -8, 1], [0, -9, 93, 50, -6, 0],
   [3, -16, 77, 77, -16, 3], [0, -6, 50, 93, -9, 0], [1, -8, 36, 108, -11, 2], [0, -1, 12, 123, -6, 0]]

/-- A value in units of 1/128, rounded to the nearest (upwards from the middle) and limited to 0 .. 255. -/
def rounded (v : Int) : Nat := (max 0 (min 255 ((v + 64) / 128))).toNat

/-- The value `m` eighths after the third of six pixels in a line. -/
def between (m : Nat) (x : Fin 6 → UInt8) : Nat := rounded (∑ k : Fin 6, ((taps.getD m []).getD k 0) * ((x k).toNat : Int))

/-- The value of the continued picture at `x / 8`, `y / 8`: first interpolated along the six rows around, then along the column. -/
def interpolated (p : Plane) (x y : Int) : Nat :=
  between (y % 8).toNat fun k => UInt8.ofNat (between (x % 8).toNat fun j => extended p (x / 8 + (j : Int) - 2) (y / 8 + (k : Int) - 2))

end Alfalfa.InterSpec
