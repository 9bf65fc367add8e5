import Verif.Model.Grid

/-! What a two-dimensional buffer is expected to be. -/

namespace Alfalfa

/-- A finished buffer of a size that 32-bit arithmetic can address: it has all its cells. -/
structure Grid.Full {T : Type} (g : Grid T) : Prop where
  width : 0 < g.width
  height : 0 < g.height
  small : g.width * g.height < 2 ^ 32
  cells : g.cells.length = g.width * g.height

/-- The slot `s` is the one of the cell at `column + dc`, `row + dr`, if that cell exists, and `none` if it does not. -/
def IsNeighbour (width height column row : Nat) (dc dr : Int) (s : Option Nat) : Prop :=
  (∀ c r : Nat, (c : Int) = column + dc → (r : Int) = row + dr → c < width → r < height → s = some (r * width + c)) ∧
  ((column : Int) + dc < 0 ∨ (width : Int) ≤ column + dc ∨ (row : Int) + dr < 0 ∨ (height : Int) ≤ row + dr → s = none)

/-- The four neighbours of a cell. -/
structure Context.Exact (ctx : Context) (w h c r : Nat) : Prop where
  column : ctx.column = c
  row : ctx.row = r
  width : ctx.width = w
  height : ctx.height = h
  left : IsNeighbour w h c r (-1) 0 ctx.left
  aboveLeft : IsNeighbour w h c r (-1) (-1) ctx.aboveLeft
  above : IsNeighbour w h c r 0 (-1) ctx.above
  aboveRight : IsNeighbour w h c r 1 (-1) ctx.aboveRight

end Alfalfa
