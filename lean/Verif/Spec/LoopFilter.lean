import Verif.Spec.Pixels

/-! The loop filter of the format (RFC 6386, section 15), on the numbers of eight pixels `p3 p2 p1 p0 q0 q1 q2 q3` across an edge, and on
pictures as functions of the coordinates. -/

namespace Alfalfa.LoopFilterSpec

/-- Limited to a signed byte. -/
def c (v : Int) : Int := max (-128) (min 127 v)

/-- Pixels to signed numbers and back, limited. -/
def u2s (v : Nat) : Int := (v : Int) - 128
def s2u (v : Int) : Nat := (c v + 128).toNat

/-- The distance of two pixels. -/
def far (a b : Nat) : Nat := max a b - min a b

/-- Whether to filter at all: no two neighbours differ by more than `I`, and the step across the edge is at most `E`. -/
def filterYes (I E : Nat) (v : Fin 8 → Nat) : Prop :=
  (∀ i : Fin 8, i.val < 7 → i ≠ 3 → far (v i) (v (i + 1)) ≤ I) ∧ far (v 3) (v 4) * 2 + far (v 2) (v 5) / 2 ≤ E

instance (I E : Nat) (v : Fin 8 → Nat) : Decidable (filterYes I E v) := inferInstanceAs (Decidable (_ ∧ _))

/-- High edge variance. -/
def hev (threshold : Nat) (v : Fin 8 → Nat) : Prop := threshold < far (v 2) (v 3) ∨ threshold < far (v 5) (v 4)

instance (t : Nat) (v : Fin 8 → Nat) : Decidable (hev t v) := inferInstanceAs (Decidable (_ ∨ _))

/-- The base of all adjustments. -/
def base (outer : Bool) (v : Fin 8 → Nat) : Int :=
  c ((if outer then c (u2s (v 2) - u2s (v 5)) else 0) + 3 * (u2s (v 4) - u2s (v 3)))

/-- `common_adjust`: the adjustments of `q0` (which is also the result) and of `p0`. -/
def commonQ (outer : Bool) (v : Fin 8 → Nat) : Int := c (base outer v + 4) / 8
def commonP (outer : Bool) (v : Fin 8 → Nat) : Int := c (base outer v + 3) / 8

/-- The filter for edges inside a macroblock, with the limits `I` and `E` and the threshold `T`. -/
def subblock (I E T : Nat) (v : Fin 8 → Nat) : Fin 8 → Nat :=
  if filterYes I E v then
    if hev T v then fun
      | 3 => s2u (u2s (v 3) + commonP true v)
      | 4 => s2u (u2s (v 4) - commonQ true v)
      | i => v i
    else
      let a := (commonQ false v + 1) / 2
      fun
      | 2 => s2u (u2s (v 2) + a)
      | 3 => s2u (u2s (v 3) + commonP false v)
      | 4 => s2u (u2s (v 4) - commonQ false v)
      | 5 => s2u (u2s (v 5) - a)
      | i => v i
  else v

/-- The filter for edges between macroblocks. -/
def macroblock (I E T : Nat) (v : Fin 8 → Nat) : Fin 8 → Nat :=
  if filterYes I E v then
    if hev T v then fun
      | 3 => s2u (u2s (v 3) + commonP true v)
      | 4 => s2u (u2s (v 4) - commonQ true v)
      | i => v i
    else
      let w := base true v
      let a27 := c ((27 * w + 63) / 128)
      let a18 := c ((18 * w + 63) / 128)
      let a9 := c ((9 * w + 63) / 128)
      fun
      | 1 => s2u (u2s (v 1) + a9)
      | 2 => s2u (u2s (v 2) + a18)
      | 3 => s2u (u2s (v 3) + a27)
      | 4 => s2u (u2s (v 4) - a27)
      | 5 => s2u (u2s (v 5) - a18)
      | 6 => s2u (u2s (v 6) - a9)
      | i => v i
  else v

/-! ### Strength -/

/-- The level limited to what six bits can hold. -/
def limit63 (v : Int) : Nat := (max 0 (min 63 v)).toNat

/-- The interior limit. -/
def interior (level sharpness : Nat) : Nat :=
  max 1 (if sharpness = 0 then level else min (9 - sharpness) (if sharpness ≤ 4 then level / 2 else level / 4))

/-- The threshold of high edge variance. -/
def threshold (keyFrame : Bool) (level : Nat) : Nat :=
  if keyFrame then (if 40 ≤ level then 2 else if 15 ≤ level then 1 else 0)
  else if 40 ≤ level then 3 else if 20 ≤ level then 2 else if 15 ≤ level then 1 else 0

/-! ### Pictures -/

/-- A filter of eight numbers as one of eight pixels. -/
def onPixels (f : (Fin 8 → Nat) → Fin 8 → Nat) (v : Fin 8 → UInt8) (i : Fin 8) : UInt8 := UInt8.ofNat (f (fun i => (v i).toNat) i)

/-- Filter across the vertical edge left of the pixels `x`, `y` to `x`, `y + n - 1`. -/
def acrossVertical (f : (Fin 8 → Nat) → Fin 8 → Nat) (n x y : Nat) (img : Nat → Nat → UInt8) (u v : Nat) : UInt8 :=
  if h : (y ≤ v ∧ v < y + n) ∧ x - 4 ≤ u ∧ u < x - 4 + 8 then onPixels f (fun i => img (x - 4 + i) v) ⟨u - (x - 4), by omega⟩ else img u v

/-- Filter across the horizontal edge above the pixels `x`, `y` to `x + n - 1`, `y`. -/
def acrossHorizontal (f : (Fin 8 → Nat) → Fin 8 → Nat) (n x y : Nat) (img : Nat → Nat → UInt8) (u v : Nat) : UInt8 :=
  if h : (x ≤ u ∧ u < x + n) ∧ y - 4 ≤ v ∧ v < y - 4 + 8 then onPixels f (fun i => img u (y - 4 + i)) ⟨v - (y - 4), by omega⟩ else img u v

/-- The filter of a macroblock in one of the planes, where it has `n` by `n` pixels: the left edge unless it is the edge of
the picture, the vertical edges inside unless there is nothing coded, and the same for the horizontal edges. -/
def block (keyFrame : Bool) (level sharpness : Nat) (inside : Bool) (n column row : Nat) (img : Nat → Nat → UInt8) : Nat → Nat → UInt8 :=
  let I := interior level sharpness
  let T := threshold keyFrame level
  let mb := macroblock I (2 * (level + 2) + I) T
  let sb := subblock I (2 * level + I) T
  let edges := (List.range n).filter fun k => 0 < k ∧ 4 ∣ k
  let img := if 0 < column then acrossVertical mb n (n * column) (n * row) img else img
  let img := if inside then edges.foldl (fun img k => acrossVertical sb n (n * column + k) (n * row) img) img else img
  let img := if 0 < row then acrossHorizontal mb n (n * column) (n * row) img else img
  if inside then edges.foldl (fun img k => acrossHorizontal sb n (n * column) (n * row + k) img) img else img

end Alfalfa.LoopFilterSpec
