import Verif.Model.Pixels

/-! Intra prediction (src/decoder/prediction.cc:99-643), the portable versions of the functions that also exist for SSE. -/

namespace Alfalfa

/-- `struct Predictors` of an `n` by `n` block (src/decoder/vp8_raster.hh:71-81): `m` pixels of the row above are set, `n` of them
above the block and for 4x4 blocks four more to the right; `corner` is `above[ -1 ]`. -/
@[ext] structure Edge (n m : Nat) where
  left : Fin n → UInt8
  above : Fin m → UInt8
  corner : UInt8

/-- The left predictor (src/decoder/prediction.cc:107-115) of the block at `column`, `row` counted in blocks. -/
def leftColumn (p : Plane) (n column row : Nat) : Option (Fin n → UInt8) :=
  if column > 0 then allSome fun i : Fin n => p.at? (n * column - 1) (n * row + i) else some fun _ => 129

/-- The row above (src/decoder/prediction.cc:117-123). -/
def rowAbove (p : Plane) (n column row : Nat) : Option (Fin n → UInt8) :=
  if row > 0 then do
    let src ← p.address (n * column) (n * row - 1)
    allSome fun i : Fin n => p.load (src + i.val)
  else some fun _ => 127

/-- The pixel above and to the left (src/decoder/prediction.cc:125-134). -/
def cornerPixel (p : Plane) (n column row : Nat) : Option UInt8 :=
  if column > 0 ∧ row > 0 then p.at? (n * column - 1) (n * row - 1)
  else if row > 0 then some 129
  else some 127

/-- `predictors()` up to the row above-right (src/decoder/prediction.cc:99-138). -/
def leftAndAbove (p : Plane) (n column row : Nat) : Option (Edge n n) := do
  let left ← leftColumn p n column row
  let above ← rowAbove p n column row
  let corner ← cornerPixel p n column row
  pure { left, above, corner }

/-- The row above-right of a 4x4 block (src/decoder/prediction.cc:142-164). -/
def aboveRight (p : Plane) (column row : Nat) : Option (Fin 4 → UInt8) :=
  if row = 0 then some fun _ => 127
  else if 4 * (column + 1) ≥ p.width then
    if row ≥ 4 then do
      let x ← p.at? (4 * (column + 1) - 1) (4 * (row / 4 * 4) - 1)
      pure fun _ => x
    else some fun _ => 127
  else if column % 4 = 3 ∧ row % 4 ≠ 0 then
    if row ≥ 4 then do
      let src ← p.address (4 * (column + 1)) (4 * (row / 4 * 4) - 1)
      allSome fun i : Fin 4 => p.load (src + i.val)
    else some fun _ => 127
  else do
    let src ← p.address (4 * (column + 1)) (4 * row - 1)
    allSome fun i : Fin 4 => p.load (src + i.val)

/-- `predictors()` of a 4x4 block (src/decoder/prediction.cc:99-167). -/
def edge4 (p : Plane) (column row : Nat) : Option (Edge 4 8) := do
  let e ← leftAndAbove p 4 column row
  let right ← aboveRight p column row
  pure { left := e.left, corner := e.corner
         above := fun i => if h : i.val < 4 then e.above ⟨i.val, h⟩ else right ⟨i.val - 4, by omega⟩ }

variable {n m : Nat}

/-- `above[ i ]` for a pixel right above the block. -/
def Edge.up (e : Edge n m) (h : n ≤ m) (i : Fin n) : UInt8 := e.above (Fin.castLE h i)

/-- `true_motion_predict` (src/decoder/prediction.cc:197-209). -/
def trueMotion (h : n ≤ m) (e : Edge n m) : Square n := fun column row =>
  clamp255 ((e.left row).toNat + (e.up h column).toNat - e.corner.toNat)

/-- `horizontal_predict` (src/decoder/prediction.cc:241-248). -/
def horizontal (e : Edge n m) : Square n := fun _ row => e.left row

/-- `vertical_predict` (src/decoder/prediction.cc:280-287). -/
def vertical (h : n ≤ m) (e : Edge n m) : Square n := fun column _ => e.up h column

/-- The loops that add up `size` pixels (src/decoder/prediction.cc:392-398,417-418,424-425); the sum is at most 16 * 255 and fits in
the `int16_t`. -/
def pixelSum (f : Fin n → UInt8) : Nat := (List.ofFn f).foldl (fun s x => s + x.toNat) 0

/-- `dc_predict_simple` (src/decoder/prediction.cc:385-403); `log2` is `log2size`. -/
def dcSimple (h : n ≤ m) (log2 : Nat) (e : Edge n m) : Square n := fun _ _ =>
  UInt8.ofNat ((pixelSum (e.up h) + pixelSum e.left + (1 <<< log2)) >>> (log2 + 1))

/-- `dc_predict` (src/decoder/prediction.cc:405-431). -/
def dcPredict (h : n ≤ m) (log2 column row : Nat) (e : Edge n m) : Square n :=
  if column ≠ 0 ∧ row ≠ 0 then dcSimple h log2 e
  else if row > 0 then fun _ _ => UInt8.ofNat ((pixelSum (e.up h) + (1 <<< (log2 - 1))) >>> log2)
  else if column > 0 then fun _ _ => UInt8.ofNat ((pixelSum e.left + (1 <<< (log2 - 1))) >>> log2)
  else fun _ _ => 128

/-- `avg3` (src/decoder/prediction.cc:469-472). -/
def avg3 (x y z : UInt8) : UInt8 := UInt8.ofNat ((x.toNat + 2 * y.toNat + z.toNat + 2) >>> 2)

/-- `avg2` (src/decoder/prediction.cc:474-477). -/
def avg2 (x y : UInt8) : UInt8 := UInt8.ofNat ((x.toNat + y.toNat + 1) >>> 1)

/-- `Predictors::east` (src/decoder/vp8_raster.hh:80): the edge from the bottom of the left column up and along the row above. -/
def Edge.east (e : Edge 4 8) (i : Fin 13) : UInt8 :=
  if h : i.val ≤ 3 then e.left ⟨3 - i.val, by omega⟩
  else if h' : i.val = 4 then e.corner
  else e.above ⟨i.val - 5, by omega⟩

/-- A 4x4 block given by its rows. -/
def ofRows (rows : Fin 4 → Fin 4 → UInt8) : Square 4 := fun column row => rows row column

/-- `vertical_smoothed_predict` (src/decoder/prediction.cc:479-487). -/
def verticalSmoothed (e : Edge 4 8) : Square 4 := fun column _ =>
  ![avg3 e.corner (e.above 0) (e.above 1), avg3 (e.above 0) (e.above 1) (e.above 2), avg3 (e.above 1) (e.above 2) (e.above 3),
    avg3 (e.above 2) (e.above 3) (e.above 4)] column

/-- `horizontal_smoothed_predict` (src/decoder/prediction.cc:489-498). -/
def horizontalSmoothed (e : Edge 4 8) : Square 4 := fun _ row =>
  ![avg3 e.corner (e.left 0) (e.left 1), avg3 (e.left 0) (e.left 1) (e.left 2), avg3 (e.left 1) (e.left 2) (e.left 3),
    avg3 (e.left 2) (e.left 3) (e.left 3)] row

/-- `left_down_predict` (src/decoder/prediction.cc:500-514). -/
def leftDown (e : Edge 4 8) : Square 4 :=
  let a := e.above
  let v0 := avg3 (a 0) (a 1) (a 2)
  let v1 := avg3 (a 1) (a 2) (a 3)
  let v2 := avg3 (a 2) (a 3) (a 4)
  let v3 := avg3 (a 3) (a 4) (a 5)
  let v4 := avg3 (a 4) (a 5) (a 6)
  let v5 := avg3 (a 5) (a 6) (a 7)
  let v6 := avg3 (a 6) (a 7) (a 7)
  ofRows ![![v0, v1, v2, v3], ![v1, v2, v3, v4], ![v2, v3, v4, v5], ![v3, v4, v5, v6]]

/-- `right_down_predict` (src/decoder/prediction.cc:516-527). -/
def rightDown (e : Edge 4 8) : Square 4 :=
  let a := e.east
  let v0 := avg3 (a 0) (a 1) (a 2)
  let v1 := avg3 (a 1) (a 2) (a 3)
  let v2 := avg3 (a 2) (a 3) (a 4)
  let v3 := avg3 (a 3) (a 4) (a 5)
  let v4 := avg3 (a 4) (a 5) (a 6)
  let v5 := avg3 (a 5) (a 6) (a 7)
  let v6 := avg3 (a 6) (a 7) (a 8)
  ofRows ![![v3, v4, v5, v6], ![v2, v3, v4, v5], ![v1, v2, v3, v4], ![v0, v1, v2, v3]]

/-- `vertical_right_predict` (src/decoder/prediction.cc:529-543); `vCR` is the value of `output.at( C, R )`. -/
def verticalRight (e : Edge 4 8) : Square 4 :=
  let a := e.east
  let v03 := avg3 (a 1) (a 2) (a 3)
  let v02 := avg3 (a 2) (a 3) (a 4)
  let v01 := avg3 (a 3) (a 4) (a 5)
  let v13 := v01
  let v00 := avg2 (a 4) (a 5)
  let v12 := v00
  let v11 := avg3 (a 4) (a 5) (a 6)
  let v23 := v11
  let v10 := avg2 (a 5) (a 6)
  let v22 := v10
  let v21 := avg3 (a 5) (a 6) (a 7)
  let v33 := v21
  let v20 := avg2 (a 6) (a 7)
  let v32 := v20
  let v31 := avg3 (a 6) (a 7) (a 8)
  let v30 := avg2 (a 7) (a 8)
  ofRows ![![v00, v10, v20, v30], ![v01, v11, v21, v31], ![v02, v12, v22, v32], ![v03, v13, v23, v33]]

/-- `vertical_left_predict` (src/decoder/prediction.cc:545-559). -/
def verticalLeft (e : Edge 4 8) : Square 4 :=
  let a := e.above
  let v00 := avg2 (a 0) (a 1)
  let v01 := avg3 (a 0) (a 1) (a 2)
  let v10 := avg2 (a 1) (a 2)
  let v02 := v10
  let v03 := avg3 (a 1) (a 2) (a 3)
  let v11 := v03
  let v20 := avg2 (a 2) (a 3)
  let v12 := v20
  let v21 := avg3 (a 2) (a 3) (a 4)
  let v13 := v21
  let v30 := avg2 (a 3) (a 4)
  let v22 := v30
  let v31 := avg3 (a 3) (a 4) (a 5)
  let v23 := v31
  let v32 := avg3 (a 4) (a 5) (a 6)
  let v33 := avg3 (a 5) (a 6) (a 7)
  ofRows ![![v00, v10, v20, v30], ![v01, v11, v21, v31], ![v02, v12, v22, v32], ![v03, v13, v23, v33]]

/-- `horizontal_down_predict` (src/decoder/prediction.cc:573-587). -/
def horizontalDown (e : Edge 4 8) : Square 4 :=
  let a := e.east
  let v03 := avg2 (a 0) (a 1)
  let v13 := avg3 (a 0) (a 1) (a 2)
  let v23 := avg2 (a 1) (a 2)
  let v02 := v23
  let v33 := avg3 (a 1) (a 2) (a 3)
  let v12 := v33
  let v01 := avg2 (a 2) (a 3)
  let v22 := v01
  let v11 := avg3 (a 2) (a 3) (a 4)
  let v32 := v11
  let v00 := avg2 (a 3) (a 4)
  let v21 := v00
  let v10 := avg3 (a 3) (a 4) (a 5)
  let v31 := v10
  let v20 := avg3 (a 4) (a 5) (a 6)
  let v30 := avg3 (a 5) (a 6) (a 7)
  ofRows ![![v00, v10, v20, v30], ![v01, v11, v21, v31], ![v02, v12, v22, v32], ![v03, v13, v23, v33]]

/-- `horizontal_up_predict` (src/decoder/prediction.cc:603-618). -/
def horizontalUp (e : Edge 4 8) : Square 4 :=
  let l := e.left
  let v00 := avg2 (l 0) (l 1)
  let v10 := avg3 (l 0) (l 1) (l 2)
  let v01 := avg2 (l 1) (l 2)
  let v20 := v01
  let v11 := avg3 (l 1) (l 2) (l 3)
  let v30 := v11
  let v02 := avg2 (l 2) (l 3)
  let v21 := v02
  let v12 := avg3 (l 2) (l 3) (l 3)
  let v31 := v12
  let v33 := l 3
  ofRows ![![v00, v10, v20, v30], ![v01, v11, v21, v31], ![v02, v12, v33, v33], ![v33, v33, v33, v33]]

/-- `Block8::intra_predict`, `Block16::intra_predict` (src/decoder/prediction.cc:435-467); `none` is `LogicError`. -/
def intraSquare (h : n ≤ m) (log2 mode column row : Nat) (e : Edge n m) : Option (Square n) :=
  match mode with
  | 0 => some (dcPredict h log2 column row e)
  | 1 => some (vertical h e)
  | 2 => some (horizontal e)
  | 3 => some (trueMotion h e)
  | _ => none

/-- `Block4::intra_predict` (src/decoder/prediction.cc:622-643). -/
def intraSquare4 (mode : Nat) (e : Edge 4 8) : Option (Square 4) :=
  match mode with
  | 0 => some (dcSimple (by decide) 2 e)
  | 1 => some (trueMotion (by decide) e)
  | 2 => some (verticalSmoothed e)
  | 3 => some (horizontalSmoothed e)
  | 4 => some (leftDown e)
  | 5 => some (rightDown e)
  | 6 => some (verticalRight e)
  | 7 => some (verticalLeft e)
  | 8 => some (horizontalDown e)
  | 9 => some (horizontalUp e)
  | _ => none

/-- `intra_predict( mode )` on a 16x16 block (src/decoder/vp8_raster.hh:117). -/
def intraPredict16 (p : Plane) (mode column row : Nat) : Option Plane := do
  p.subRange 16 (16 * column) (16 * row)
  let e ← leftAndAbove p 16 column row
  let f ← intraSquare (Nat.le_refl 16) 4 mode column row e
  p.putSquare (16 * column) (16 * row) f

/-- `intra_predict( mode )` on an 8x8 block. -/
def intraPredict8 (p : Plane) (mode column row : Nat) : Option Plane := do
  p.subRange 8 (8 * column) (8 * row)
  let e ← leftAndAbove p 8 column row
  let f ← intraSquare (Nat.le_refl 8) 3 mode column row e
  p.putSquare (8 * column) (8 * row) f

/-- `intra_predict( mode )` on a 4x4 block. -/
def intraPredict4 (p : Plane) (mode column row : Nat) : Option Plane := do
  p.subRange 4 (4 * column) (4 * row)
  let e ← edge4 p column row
  let f ← intraSquare4 mode e
  p.putSquare (4 * column) (4 * row) f

end Alfalfa
