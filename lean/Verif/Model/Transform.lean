import Verif.Model.Pixels
import Verif.Model.MotionVector

/-! The transforms (src/decoder/transform.cc, src/decoder/dct.cc), the portable versions. -/

namespace Alfalfa

/-- `coefficients_.at( i )` with an index computed by the loops, always below 16. -/
def at16 (c : Fin 16 → Int) (i : Nat) : Int := if h : i < 16 then c ⟨i, h⟩ else 0

/-- The array `intermediate` of `iwht` (src/decoder/transform.cc:55-67): `i` is the column, `k` the row. -/
def iwhtColumn (c : Fin 16 → Int) (i k : Nat) : Int :=
  let a1 := at16 c (i + 0) + at16 c (i + 12)
  let b1 := at16 c (i + 4) + at16 c (i + 8)
  let c1 := at16 c (i + 4) - at16 c (i + 8)
  let d1 := at16 c (i + 0) - at16 c (i + 12)
  toInt16 (match k with
    | 0 => a1 + b1
    | 1 => c1 + d1
    | 2 => a1 - b1
    | _ => d1 - c1)

/-- `intermediate.at( i )` of `iwht`, in the order of the array. -/
def iwhtIntermediate (c : Fin 16 → Int) (i : Fin 16) : Int := iwhtColumn c (i.val % 4) (i.val / 4)

/-- `DCTCoefficients::iwht` (src/decoder/transform.cc:47-88): the DC coefficient for the block at `column`, `row`. -/
def iwht (c : Fin 16 → Int) (column row : Fin 4) : Int :=
  let m := iwhtIntermediate c
  let offset := row.val * 4
  let a1 := at16 m (offset + 0) + at16 m (offset + 3)
  let b1 := at16 m (offset + 1) + at16 m (offset + 2)
  let c1 := at16 m (offset + 1) - at16 m (offset + 2)
  let d1 := at16 m (offset + 0) - at16 m (offset + 3)
  let a2 := a1 + b1
  let b2 := c1 + d1
  let c2 := a1 - b1
  let d2 := d1 - c1
  toInt16 (match column with
    | 0 => (a2 + 3) >>> 3
    | 1 => (b2 + 3) >>> 3
    | 2 => (c2 + 3) >>> 3
    | 3 => (d2 + 3) >>> 3)

/-- `MUL_20091`, `MUL_35468` (src/decoder/transform.cc:100-101); no product of an `int16_t` overflows. -/
def mul20091 (a : Int) : Int := ((a * 20091) >>> 16) + a
def mul35468 (a : Int) : Int := (a * 35468) >>> 16

/-- The array `intermediate` of `idct_add` (src/decoder/transform.cc:109-119): `intermediate.at( i * 4 + k )`. -/
def idctColumn (c : Fin 16 → Int) (i k : Nat) : Int :=
  let t0 := at16 c (i + 0) + at16 c (i + 8)
  let t1 := at16 c (i + 0) - at16 c (i + 8)
  let t2 := mul35468 (at16 c (i + 4)) - mul20091 (at16 c (i + 12))
  let t3 := mul20091 (at16 c (i + 4)) + mul35468 (at16 c (i + 12))
  toInt16 (match k with
    | 0 => t0 + t3
    | 1 => t1 + t2
    | 2 => t1 - t2
    | _ => t0 - t3)

/-- `intermediate.at( i )` of `idct_add`, in the order of the array. -/
def idctIntermediate (c : Fin 16 → Int) (i : Fin 16) : Int := idctColumn c (i.val / 4) (i.val % 4)

/-- What `idct_add` adds to the pixel at `column`, `row` (src/decoder/transform.cc:121-135). -/
def idct (c : Fin 16 → Int) (column row : Fin 4) : Int :=
  let m := idctIntermediate c
  let i := row.val
  let t0 := at16 m (i + 0) + at16 m (i + 8)
  let t1 := at16 m (i + 0) - at16 m (i + 8)
  let t2 := mul35468 (at16 m (i + 4)) - mul20091 (at16 m (i + 12))
  let t3 := mul20091 (at16 m (i + 4)) + mul35468 (at16 m (i + 12))
  match column with
  | 0 => (t0 + t3 + 4) >>> 3
  | 1 => (t1 + t2 + 4) >>> 3
  | 2 => (t1 - t2 + 4) >>> 3
  | 3 => (t0 - t3 + 4) >>> 3

/-- `DCTCoefficients::idct_add` (src/decoder/transform.cc:103-137) to the 4x4 block at `x`, `y`. -/
def idctAdd (c : Fin 16 → Int) (p : Plane) (x y : Nat) : Option Plane := do
  let old ← p.getSquare 4 x y
  p.putSquare x y fun column row => clamp255 ((old column row).toNat + idct c column row)

/-- The first loop of `subtract_dct` (src/decoder/dct.cc:70-84): row `i` of the differences, coefficient `k`. -/
def fdctRow (input : Fin 16 → Int) (i k : Nat) : Int :=
  let a1 := (at16 input (4 * i + 0) + at16 input (4 * i + 3)) * 8
  let b1 := (at16 input (4 * i + 1) + at16 input (4 * i + 2)) * 8
  let c1 := (at16 input (4 * i + 1) - at16 input (4 * i + 2)) * 8
  let d1 := (at16 input (4 * i + 0) - at16 input (4 * i + 3)) * 8
  toInt16 (match k with
    | 0 => a1 + b1
    | 1 => (c1 * 2217 + d1 * 5352 + 14500) >>> 12
    | 2 => a1 - b1
    | _ => (d1 * 2217 - c1 * 5352 + 7500) >>> 12)

/-- The coefficients after the first loop. -/
def fdctIntermediate (input : Fin 16 → Int) (i : Fin 16) : Int := fdctRow input (i.val / 4) (i.val % 4)

/-- The second loop (src/decoder/dct.cc:88-102), which overwrites its own column only. -/
def fdct (input : Fin 16 → Int) (i : Fin 16) : Int :=
  let m := fdctIntermediate input
  let j := i.val % 4
  let a1 := at16 m (j + 0) + at16 m (j + 12)
  let b1 := at16 m (j + 4) + at16 m (j + 8)
  let c1 := at16 m (j + 4) - at16 m (j + 8)
  let d1 := at16 m (j + 0) - at16 m (j + 12)
  toInt16 (match i.val / 4 with
    | 0 => (a1 + b1 + 7) >>> 4
    | 1 => ((c1 * 2217 + d1 * 5352 + 12000) >>> 16) + (if d1 ≠ 0 then 1 else 0)
    | 2 => (a1 - b1 + 7) >>> 4
    | _ => (d1 * 2217 - c1 * 5352 + 51000) >>> 16)

/-- `DCTCoefficients::subtract_dct` (src/decoder/dct.cc:45-104). -/
def subtractDct (block prediction : Square 4) : Fin 16 → Int :=
  fdct fun i => (block ⟨i.val % 4, by omega⟩ ⟨i.val / 4, by omega⟩).toNat - (prediction ⟨i.val % 4, by omega⟩ ⟨i.val / 4, by omega⟩).toNat

/-- The first loop of `wht` (src/decoder/dct.cc:120-133). -/
def whtRow (input : Fin 16 → Int) (i k : Nat) : Int :=
  let a1 := (at16 input (4 * i + 0) + at16 input (4 * i + 2)) * 4
  let d1 := (at16 input (4 * i + 1) + at16 input (4 * i + 3)) * 4
  let c1 := (at16 input (4 * i + 1) - at16 input (4 * i + 3)) * 4
  let b1 := (at16 input (4 * i + 0) - at16 input (4 * i + 2)) * 4
  toInt16 (match k with
    | 0 => a1 + d1 + (if a1 ≠ 0 then 1 else 0)
    | 1 => b1 + c1
    | 2 => b1 - c1
    | _ => a1 - d1)

/-- The coefficients after the first loop. -/
def whtIntermediate (input : Fin 16 → Int) (i : Fin 16) : Int := whtRow input (i.val / 4) (i.val % 4)

/-- `a2 += a2 < 0` and `( a2 + 3 ) >> 3` (src/decoder/dct.cc:149-157). -/
def whtRound (a : Int) : Int := (a + (if a < 0 then 1 else 0) + 3) >>> 3

/-- `DCTCoefficients::wht` (src/decoder/dct.cc:106-164). -/
def wht (input : Fin 16 → Int) (i : Fin 16) : Int :=
  let m := whtIntermediate input
  let j := i.val % 4
  let a1 := at16 m (j + 0) + at16 m (j + 8)
  let d1 := at16 m (j + 4) + at16 m (j + 12)
  let c1 := at16 m (j + 4) - at16 m (j + 12)
  let b1 := at16 m (j + 0) - at16 m (j + 8)
  toInt16 (whtRound (match i.val / 4 with
    | 0 => a1 + d1
    | 1 => b1 + c1
    | 2 => b1 - c1
    | _ => a1 - d1))

end Alfalfa
