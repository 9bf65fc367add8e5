import Verif.Model.Pixels
import Verif.Model.MotionVector

/-! Inter prediction (src/decoder/prediction.cc:645-971), the portable versions of the functions that also exist for SSE, and the
two ways of reading outside of a picture (src/decoder/vp8_raster.hh:318-365, src/decoder/safe_raster.cc). -/

namespace Alfalfa

/-- `sixtap_filters` (src/decoder/prediction.cc:645-653). -/
def sixtapFilters : Fin 8 → Fin 6 → Int :=
  ![![0, 0, 128, 0, 0, 0],
    ![0, -6, 123, 12, -1, 0],
    ![2, -11, 108, 36, -8, 1],
    ![0, -9, 93, 50, -6, 0],
    ![3, -16, 77, 77, -16, 3],
    ![0, -6, 50, 93, -9, 0],
    ![1, -8, 36, 108, -11, 2],
    ![0, -1, 12, 123, -6, 0]]

/-- One application of a filter (src/decoder/prediction.cc:875-881,902-908,946-952,962-968): `clamp255( ( ... + 64 ) >> 7 )`. -/
def sixtap (filter : Fin 6 → Int) (x : Fin 6 → UInt8) : UInt8 :=
  clamp255 (((x 0).toNat * filter 0 + (x 1).toNat * filter 1 + (x 2).toNat * filter 2 + (x 3).toNat * filter 3 +
    (x 4).toNat * filter 4 + (x 5).toNat * filter 5 + 64) >>> 7)

/-- `EdgeExtendedRaster::at` (src/decoder/vp8_raster.hh:327-338). -/
def edgeExtended (p : Plane) (column row : Int) : Option UInt8 :=
  let c := if column < 0 then 0 else column
  let c := if c > (p.width : Int) - 1 then (p.width : Int) - 1 else c
  let r := if row < 0 then 0 else row
  let r := if r > (p.height : Int) - 1 then (p.height : Int) - 1 else r
  p.at? c.toNat r.toNat

/-- `mv.x() & 7` (src/decoder/prediction.cc:822,937,957). -/
def fraction (v : Int) : Fin 8 := ⟨(v % 8).toNat, by omega⟩

/-- `safe_inter_predict` (src/decoder/prediction.cc:919-971); `reference` is `reference.at( column, row )`.  The sums
`source_column + column` mix `int` and `unsigned int` and come out right modulo 2^32. -/
def safeInterPredict (n : Nat) (reference : Int → Int → Option UInt8) (mv : MotionVector) (sourceColumn sourceRow : Int) :
    Option (Square n) :=
  if mv.x % 8 = 0 ∧ mv.y % 8 = 0 then
    allSome fun c : Fin n => allSome fun r : Fin n => reference (sourceColumn + c.val) (sourceRow + r.val)
  else do
    let intermediate ← allSome fun r : Fin (n + 5) => allSome fun c : Fin n => do
      let x ← allSome fun k : Fin 6 => reference (sourceColumn + c.val - 2 + k.val) (sourceRow + r.val - 2)
      pure (sixtap (sixtapFilters (fraction mv.x)) x)
    pure fun c r => sixtap (sixtapFilters (fraction mv.y)) fun k => intermediate ⟨r.val + k.val, by omega⟩ c

/-- `unsafe_inter_predict` (src/decoder/prediction.cc:813-917).  The pointers that the loops advance are written as the offset they
have been advanced by: `size` steps in a row and then `stride - size`. -/
def unsafeInterPredict (n : Nat) (reference : Plane) (stride : Nat) (mv : MotionVector) (sourceColumn sourceRow : Int) :
    Option (Square n) :=
  if stride ≠ reference.width then none
  else if mv.x % 8 = 0 ∧ mv.y % 8 = 0 then do
    let src ← reference.address sourceColumn.toNat sourceRow.toNat
    allSome fun c : Fin n => allSome fun r : Fin n => reference.load (src + r.val * stride + c.val)
  else do
    let src ← reference.address (sourceColumn - 2).toNat (sourceRow - 2).toNat
    let intermediate ← allSome fun r : Fin (n + 5) => allSome fun c : Fin n => do
      let x ← allSome fun k : Fin 6 => reference.load (src + r.val * stride + c.val + k.val)
      pure (sixtap (sixtapFilters (fraction mv.x)) x)
    pure fun c r => sixtap (sixtapFilters (fraction mv.y)) fun k => intermediate ⟨r.val + k.val, by omega⟩ c

/-- `inter_predict( mv, reference )` of the `n` by `n` block at `column`, `row` (src/decoder/prediction.cc:655-674).  The comparisons
`source_column + size + 3 > reference.width()` are between unsigned numbers, but are only reached when the left side is
positive. -/
def interSquare (n : Nat) (reference : Plane) (stride : Nat) (mv : MotionVector) (column row : Nat) : Option (Square n) :=
  let sourceColumn : Int := (column * n : Nat) + mv.x >>> 3
  let sourceRow : Int := (row * n : Nat) + mv.y >>> 3
  if sourceColumn - 2 < 0 ∨ sourceColumn + n + 3 > reference.width ∨ sourceRow - 2 < 0 ∨ sourceRow + n + 3 > reference.height then
    safeInterPredict n (edgeExtended reference) mv sourceColumn sourceRow
  else unsafeInterPredict n reference stride mv sourceColumn sourceRow

/-- The same into the block itself (src/decoder/vp8_raster.hh:124-125). -/
def interPredict (n : Nat) (p reference : Plane) (mv : MotionVector) (column row : Nat) : Option Plane := do
  p.subRange n (n * column) (n * row)
  let f ← interSquare n reference p.width mv column row
  p.putSquare (n * column) (n * row) f

/-! ### The padded copy used by the encoder's motion search -/

/-- `MARGIN_WIDTH` (src/decoder/vp8_raster.hh:350). -/
def marginWidth : Nat := 256

/-- One row of the padded copy: the first pixel of row `y` repeated, the row, the last pixel repeated (the three `memset`s and
`memcpy`s of each case of src/decoder/safe_raster.cc:65-99). -/
def paddedRow (p : Plane) (y : Nat) : Option (List UInt8) := do
  let first ← p.at? 0 y
  let src ← p.address 0 y
  let middle ← allSome fun i : Fin p.width => p.load (src + i.val)
  let last ← p.at? (p.width - 1) y
  pure (List.replicate marginWidth first ++ (List.ofFn middle ++ List.replicate marginWidth last))

/-- `SafeRaster( source )` (src/decoder/safe_raster.cc:33-101), as the list of the rows, each of which is written in full. -/
def safeRaster (p : Plane) : Option (List (List UInt8)) :=
  (List.range (p.height + marginWidth * 2)).mapM fun nrow =>
    if nrow < marginWidth then paddedRow p 0
    else if nrow ≥ marginWidth + p.height then paddedRow p (p.height - 1)
    else paddedRow p (nrow - marginWidth)

/-- `SafeRaster::at` (src/decoder/safe_raster.cc:103-107). -/
def safeAt (rows : List (List UInt8)) (column row : Int) : Option UInt8 :=
  if (marginWidth : Int) + column ≥ 0 ∧ (marginWidth : Int) + row ≥ 0 then
    (rows[((marginWidth : Int) + row).toNat]?).bind (·[((marginWidth : Int) + column).toNat]?)
  else none

end Alfalfa
