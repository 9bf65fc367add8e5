import Verif.Model.Tree

/-! Motion vectors (src/decoder/vp8_header_structures.hh:163-210, src/decoder/macroblock.cc:176-299,
src/encoder/serializer.cc:196-245). -/

namespace Alfalfa

/-- Conversion of an integer to `int16_t`. -/
def toInt16 (z : Int) : Int := Int.bmod z 65536

/-- `class MotionVector` (src/decoder/vp8_header_structures.hh:163-176); the components are `int16_t`. -/
structure MotionVector where
  x : Int := 0
  y : Int := 0
deriving Repr, DecidableEq

/-- `MotionVector::empty` (src/decoder/vp8_header_structures.hh:204). -/
def MotionVector.empty (v : MotionVector) : Bool := v.x == 0 && v.y == 0

/-- `MotionVector::operator-()` (src/decoder/vp8_header_structures.hh:196). -/
def MotionVector.neg (v : MotionVector) : MotionVector := { x := toInt16 (-v.x), y := toInt16 (-v.y) }

/-- `MotionVector::operator+=` (src/decoder/vp8_header_structures.hh:179). -/
def MotionVector.add (v w : MotionVector) : MotionVector := { x := toInt16 (v.x + w.x), y := toInt16 (v.y + w.y) }

/-- `MotionVector::operator-=` (src/decoder/vp8_header_structures.hh:180): adds the negated vector. -/
def MotionVector.sub (v w : MotionVector) : MotionVector := v.add w.neg

/-- `MotionVector::clamp` (src/decoder/macroblock.cc:176-181). -/
def MotionVector.clamp (v : MotionVector) (toLeft toRight toTop toBottom : Int) : MotionVector :=
  { x := min (max v.x toLeft) toRight, y := min (max v.y toTop) toBottom }

/-- One component of `MotionVector::luma_to_chroma` (src/decoder/macroblock.cc:294-298): the sum is truncated to
`int16_t` first. -/
def lumaToChroma1 (a b c d : Int) : Int :=
  let s := toInt16 (a + b + c + d)
  toInt16 (if 0 ≤ s then (s + 4) >>> 3 else -((-s + 4) >>> 3))

/-- `MotionVector::luma_to_chroma` (src/decoder/macroblock.cc:289-299). -/
def lumaToChroma (s1 s2 s3 s4 : MotionVector) : MotionVector :=
  { x := lumaToChroma1 s1.x s2.x s3.x s4.x, y := lumaToChroma1 s1.y s2.y s3.y s4.y }

/-- `SafeArray<Probability,n>::at` : out of range throws. -/
def probAt {n : Nat} (p : Fin n → Prob) (k : Nat) : Option Prob := if h : k < n then some (p ⟨k, h⟩) else none

/-- `component_probs.slice<SHORT, 7>()`, and the equivalent array of the writer
(src/decoder/macroblock.cc:218, src/encoder/serializer.cc:207-213); `SHORT` is 2. -/
def smallMvProbs (p : Fin 19 → Prob) : List Prob := [p 2, p 3, p 4, p 5, p 6, p 7, p 8]

/-- The bit loops of `MotionVector::read_component` (src/decoder/macroblock.cc:205-212) over the bit positions in the
order read; `BITS` is 9. -/
def readMvBits (p : Fin 19 → Prob) : List Nat → Nat → Parser Nat
  | [], x => pure x
  | i :: rest, x => do
    let q ← liftM (probAt p (9 + i))
    let b ← getBit q
    readMvBits p rest (x + b.toNat <<< i)

/-- Bit positions 0, 1, 2, then 9 down to 4 (src/decoder/macroblock.cc:205,210). -/
def longMvBits : List Nat := [0, 1, 2, 9, 8, 7, 6, 5, 4]

/-- The magnitude, halved, in `MotionVector::read_component` (src/decoder/macroblock.cc:202-219). -/
def readMvMagnitude (p : Fin 19 → Prob) : Parser Nat := do
  let long ← getBit (p 0)
  if long then
    let x ← readMvBits p longMvBits 0
    if x &&& 0xfff0 = 0 then pure (x + 8)
    else
      let b ← getBit (p 12)
      pure (if b then x + 8 else x)
  else readTree smallMvTree (smallMvProbs p)

/-- `MotionVector::read_component` (src/decoder/macroblock.cc:198-229).  The magnitude stays below 1024, so `int16_t`
does not wrap. -/
def readMvComponent (p : Fin 19 → Prob) : Parser Int := do
  let x ← readMvMagnitude p
  if x <<< 1 = 0 then pure 0
  else
    let s ← getBit (p 1)
    pure (if s then -((x <<< 1 : Nat) : Int) else ((x <<< 1 : Nat) : Int))

/-- The bits of the long form at the given positions, in order (src/encoder/serializer.cc:221-227). -/
def encMvBits (x : Nat) (p : Fin 19 → Prob) (l : List Nat) : Option Bits :=
  l.mapM (fun i => do let q ← probAt p (9 + i); pure ((x >>> i) &&& 1 == 1, q))

/-- The magnitude in `encode( encoder, int16_t, component_probs )` (src/encoder/serializer.cc:205-232). -/
def encMvMagnitude (x : Nat) (p : Fin 19 → Prob) : Option Bits :=
  if x < 8 then do
    let t ← writeTree smallMvTree x (smallMvProbs p)
    pure ((false, p 0) :: t)
  else do
    let bits ← encMvBits x p longMvBits
    pure ((true, p 0) :: bits ++ (if x &&& 0xfff0 ≠ 0 then [((x >>> 3) &&& 1 == 1, p 12)] else []))

/-- `encode( encoder, int16_t, component_probs )` (src/encoder/serializer.cc:196-237).  `num >> 1` is an arithmetic
shift. -/
def encMvComponent (num : Int) (p : Fin 19 → Prob) : Option Bits := do
  let n := num >>> 1
  let mag ← encMvMagnitude n.natAbs p
  pure (mag ++ if n.natAbs ≠ 0 then [(decide (n < 0), p 1)] else [])

/-- `MotionVector( data, motion_vector_probs )` (src/decoder/macroblock.cc:283-287): `y` first. -/
def readMv (p : Fin 2 → Fin 19 → Prob) : Parser MotionVector := do
  let y ← readMvComponent (p 0)
  let x ← readMvComponent (p 1)
  pure { x, y }

/-- `encode( encoder, MotionVector, motion_vector_probs )` (src/encoder/serializer.cc:239-245). -/
def encMv (v : MotionVector) (p : Fin 2 → Fin 19 → Prob) : Option Bits := do
  let a ← encMvComponent v.y (p 0)
  let b ← encMvComponent v.x (p 1)
  pure (a ++ b)

end Alfalfa
