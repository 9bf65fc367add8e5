import Mathlib.Data.List.Basic

/-! `TwoDStorage` (src/util/2d.hh): a vector of `width * height` cells addressed by column and row, and the pointers to
neighbours that each cell is given when it is built.

Coordinates are `unsigned int`: arithmetic on them is modulo 2^32.  A failed `assert` is `none`.  A pointer to a cell is the
number of its slot in the vector; the vector is never resized after its `reserve`, so that slots do not move. -/

namespace Alfalfa

/-- `TwoDStorage` (src/util/2d.hh:39-45). -/
@[ext] structure Grid (T : Type) where
  width : Nat
  height : Nat
  cells : List T
deriving Repr, DecidableEq

/-- The slot `row * width_ + column` (src/util/2d.hh:95,101). -/
def Grid.slot {T : Type} (g : Grid T) (column row : Nat) : Nat := (row * g.width + column) % 2 ^ 32

/-- `at` for reading (src/util/2d.hh:98-102); `none` also when the slot has not been built. -/
def Grid.at? {T : Type} (g : Grid T) (column row : Nat) : Option T :=
  if column < g.width ∧ row < g.height then g.cells[g.slot column row]? else none

/-- `at( column, row ) = v` (src/util/2d.hh:92-96). -/
def Grid.put {T : Type} (g : Grid T) (column row : Nat) (v : T) : Option (Grid T) :=
  if column < g.width ∧ row < g.height ∧ g.slot column row < g.cells.length then
    some { g with cells := g.cells.set (g.slot column row) v }
  else none

/-- `maybe_at` (src/util/2d.hh:104-111). -/
def Grid.maybeAt {T : Type} (g : Grid T) (column row : Nat) : Option Nat :=
  if column < g.width ∧ row < g.height then some (g.slot column row) else none

/-- `x - 1` on an `unsigned int`. -/
def minusOne (x : Nat) : Nat := (x + (2 ^ 32 - 1)) % 2 ^ 32

/-- `struct Context` (src/util/2d.hh:50-72). -/
structure Context where
  column : Nat
  row : Nat
  width : Nat
  height : Nat
  left : Option Nat
  aboveLeft : Option Nat
  above : Option Nat
  aboveRight : Option Nat
deriving Repr, DecidableEq

/-- The constructor of `Context` (src/util/2d.hh:56-65). -/
def Grid.context {T : Type} (g : Grid T) (column row : Nat) : Context :=
  { column, row, width := g.width, height := g.height
    left := g.maybeAt (minusOne column) row
    aboveLeft := g.maybeAt (minusOne column) (minusOne row)
    above := g.maybeAt column (minusOne row)
    aboveRight := g.maybeAt ((column + 1) % 2 ^ 32) (minusOne row) }

/-- The inner loop of the constructor (src/util/2d.hh:85-88): `n` more columns of row `row`.  `make` is the constructor of a
cell: it may look at its context and at the vector built so far, and it may fail. -/
def Grid.buildRow {T : Type} (make : Context → List T → Option T) (row : Nat) : Nat → Nat → Grid T → Option (Grid T)
  | 0, _, g => some g
  | n + 1, column, g => do
    let x ← make (g.context column row) g.cells
    buildRow make row n (column + 1) { g with cells := g.cells ++ [x] }

/-- The outer loop (src/util/2d.hh:84-89): `n` more rows. -/
def Grid.buildRows {T : Type} (make : Context → List T → Option T) : Nat → Nat → Grid T → Option (Grid T)
  | 0, _, g => some g
  | n + 1, row, g => do
    let g ← g.buildRow make row g.width 0
    buildRows make n (row + 1) g

/-- The constructor (src/util/2d.hh:74-90). -/
def Grid.build {T : Type} (make : Context → List T → Option T) (width height : Nat) : Option (Grid T) :=
  if 0 < width ∧ 0 < height then Grid.buildRows make height 0 { width, height, cells := [] } else none

/-- The order in which `forall`, `forall_ij` and `operator==` visit the cells (src/util/2d.hh:126-182): row by row. -/
def visits (width height : Nat) : List (Nat × Nat) :=
  (List.range height).flatMap fun row => (List.range width).map fun column => (column, row)

/-- `operator==` (src/util/2d.hh:166-182): `none` when an `at` fails. -/
def Grid.equals {T : Type} [DecidableEq T] (a b : Grid T) : Option Bool :=
  if a.width ≠ b.width ∨ a.height ≠ b.height then some false
  else (visits a.width a.height).foldl (fun same p => do
    let same ← same
    if same then
      let x ← a.at? p.1 p.2
      let y ← b.at? p.1 p.2
      pure (decide (x = y))
    else pure false) (some true)

/-- `copy_from` (src/util/2d.hh:188-194). -/
def Grid.copyFrom {T : Type} (g other : Grid T) : Option (Grid T) :=
  if g.width = other.width ∧ g.height = other.height then some { g with cells := other.cells } else none

end Alfalfa
