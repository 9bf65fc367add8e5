import Verif.Model.Decoder

/-! Access to the pixels of a plane: single pixels, raw pointers into the storage, square blocks
(src/util/2d.hh:276-416, src/decoder/vp8_raster.hh:43-160). -/

namespace Alfalfa

/-- `clamp255` (src/decoder/vp8_raster.hh:43-49). -/
def clamp255 (v : Int) : UInt8 := if v < 0 then 0 else if v > 255 then 255 else UInt8.ofNat v.toNat

/-- The value `*( pointer )` where the pointer is `i` places after the first pixel of the storage; outside of the storage
there is nothing to read. -/
def Grid.load {T : Type} (g : Grid T) (i : Int) : Option T := if 0 ≤ i then g.cells[i.toNat]? else none

/-- The assignment `*( pointer ) = v`. -/
def Grid.store {T : Type} (g : Grid T) (i : Int) (v : T) : Option (Grid T) :=
  if 0 ≤ i ∧ i.toNat < g.cells.length then some { g with cells := g.cells.set i.toNat v } else none

/-- `&at( column, row )`: the place of a pixel in the storage; the assertion in `at` must hold (src/util/2d.hh:92-102). -/
def Grid.address {T : Type} (g : Grid T) (column row : Nat) : Option Int := (g.maybeAt column row).map Int.ofNat

/-- An array filled by a loop over its `n` elements, each of which may fail. -/
def allSome {T : Type} {n : Nat} (f : Fin n → Option T) : Option (Fin n → T) :=
  if h : ∀ i, (f i).isSome = true then some fun i => (f i).get (h i) else none

/-- A square of pixels by column and row. -/
abbrev Square (n : Nat) := Fin n → Fin n → UInt8

/-- The assertions in the constructor of `TwoDSubRange` (src/util/2d.hh:285-294) for a block of `n` by `n` pixels with its first
pixel at `x`, `y`; all numbers are far below 2^32. -/
def Grid.subRange {T : Type} (g : Grid T) (n x y : Nat) : Option Unit :=
  if x + n ≤ g.width ∧ y + n ≤ g.height then some () else none

/-- All assignments `output.at( column, row ) = f( column, row )`, row by row (src/util/2d.hh:385-413).  Where the code makes them in
another order or makes several at once, the values do not depend on the pixels being written, so that the order is
irrelevant. -/
def Plane.putSquare {n : Nat} (p : Plane) (x y : Nat) (f : Square n) : Option Plane := do
  p.subRange n x y
  (List.finRange n).foldlM (fun p (r : Fin n) => (List.finRange n).foldlM (fun p (c : Fin n) => p.put (x + c) (y + r) (f c r)) p) p

/-- The pixels of a block. -/
def Plane.getSquare (p : Plane) (n x y : Nat) : Option (Square n) := do
  p.subRange n x y
  allSome fun c => allSome fun r => p.at? (x + c) (y + r)

end Alfalfa
