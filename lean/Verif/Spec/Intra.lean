import Mathlib.Algebra.BigOperators.Fin
import Verif.Model.Tree
import Verif.Spec.Pixels

/-! What intra prediction shall give (RFC 6386, section 12). -/

namespace Alfalfa.IntraSpec

/-- The picture with a row of 127 above it and a column of 129 to the left of it; the row begins before the column. -/
def framed (p : Plane) (x y : Int) : Nat := if y < 0 then 127 else if x < 0 then 129 else (p.px x.toNat y.toNat).toNat

/-- The pixels along the edge of the `n` by `n` block at `column`, `row` (in blocks): `0` is the corner, `1`, `2`, ... are the
pixels above from left to right, and `-1`, `-2`, ... the pixels to the left from top to bottom. -/
def edge (p : Plane) (n column row : Nat) (i : Int) : Nat :=
  if i ≤ 0 then framed p (n * column - 1) (n * row - 1 - i) else framed p (n * column - 1 + i) (n * row - 1)

/-- The same for 4x4 blocks of the luma plane, with the four pixels above and to the right of the block.  For the rightmost blocks
of a macroblock these are taken from the row above the macroblock, and right of the picture they repeat the last pixel. -/
def edge4 (p : Plane) (column row : Nat) (i : Int) : Nat :=
  if i ≤ 4 then edge p 4 column row i
  else framed p (min (4 * column - 1 + i) (p.width - 1)) (if column % 4 = 3 then 16 * (row / 4 : Nat) - 1 else 4 * row - 1)

/-- Limited to 0 .. 255. -/
def limited (v : Int) : Nat := (max 0 (min 255 v)).toNat

/-- The mean of what is there of the row above and the column to the left, rounded; 128 if neither is in the picture. -/
def mean (n : Nat) (above left : Bool) (e : Int → Nat) : Nat :=
  let a := ∑ i : Fin n, e (1 + i)
  let l := ∑ i : Fin n, e (-1 - i)
  match above, left with
  | true, true => (a + l + n) / (2 * n)
  | true, false => (a + n / 2) / n
  | false, true => (l + n / 2) / n
  | false, false => 128

/-- The pixel `c`, `r` of a predicted macroblock (`n` is 16 for luma, 8 for chroma) with the edge `e`. -/
def whole (n : Nat) (mode : Nat) (above left : Bool) (e : Int → Nat) (c r : Nat) : Nat :=
  if mode = DC_PRED then mean n above left e
  else if mode = V_PRED then e (1 + c)
  else if mode = H_PRED then e (-1 - r)
  else limited (e (-1 - r) + e (1 + c) - e 0)

/-- The rounded mean of the edge pixels `i` and `i + 1`. -/
def mean2 (e : Int → Nat) (i : Int) : Nat := (e i + e (i + 1) + 1) / 2

/-- The rounded mean of the edge pixels around `i`, the middle one counted twice. -/
def mean3 (e : Int → Nat) (i : Int) : Nat := (e (i - 1) + 2 * e i + e (i + 1) + 2) / 4

/-- The pixel `c`, `r` of a predicted 4x4 block with the edge `e`, which has eight pixels above and four to the left. -/
def sub (mode : Nat) (edge : Int → Nat) (c r : Nat) : Nat :=
  -- beyond its ends the edge repeats its last pixel
  let e : Int → Nat := fun i => edge (max (-4) (min i 8))
  if mode = B_DC_PRED then mean 4 true true e
  else if mode = B_TM_PRED then limited (e (-1 - r) + e (1 + c) - e 0)
  else if mode = B_VE_PRED then mean3 e (1 + c)
  else if mode = B_HE_PRED then mean3 e (-1 - r)
  else if mode = B_LD_PRED then mean3 e (c + r + 2)
  else if mode = B_RD_PRED then mean3 e (c - r)
  else if mode = B_VR_PRED then
    let k : Int := 2 * c - r
    if k < 0 then mean3 e (k + 1) else if k % 2 = 0 then mean2 e (k / 2) else mean3 e ((k + 1) / 2)
  else if mode = B_VL_PRED then
    -- the last two pixels of the last column do not follow the pattern
    if (c, r) = (3, 2) then mean3 e 6 else if (c, r) = (3, 3) then mean3 e 7
    else if r % 2 = 0 then mean2 e (c + r / 2 + 1) else mean3 e (c + r / 2 + 2)
  else if mode = B_HD_PRED then
    let k : Int := 2 * r - c
    if k < 0 then mean3 e (-1 - k) else if k % 2 = 0 then mean2 e (-1 - k / 2) else mean3 e (-(k + 1) / 2)
  else
    let k : Int := c + 2 * r
    if k % 2 = 0 then mean2 e (-2 - k / 2) else mean3 e (-2 - k / 2)

end Alfalfa.IntraSpec
