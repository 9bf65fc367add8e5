import Verif.Model.Decoder
import Verif.Spec.Grid

/-! Pictures as functions of the coordinates. -/

namespace Alfalfa

/-- The pixel of a plane at column `x`, row `y` (0 outside of the plane). -/
def Plane.px (p : Plane) (x y : Nat) : UInt8 := if x < p.width then p.cells.getD (y * p.width + x) 0 else 0

/-- `q` has the size of `p`, and its pixels are those of `p` except in the `n` by `n` square with its first pixel at `x`, `y`,
where they are `f`. -/
structure Plane.Painted {n : Nat} (p q : Plane) (x y : Nat) (f : Fin n → Fin n → UInt8) : Prop where
  full : q.Full
  width : q.width = p.width
  height : q.height = p.height
  inside : ∀ c r : Fin n, q.px (x + c) (y + r) = f c r
  outside : ∀ u v, u < p.width → v < p.height → (u < x ∨ x + n ≤ u ∨ v < y ∨ y + n ≤ v) → q.px u v = p.px u v

end Alfalfa
