import Verif.Model.Pixels
import Verif.Model.Quantizer

/-! The loop filter (src/decoder/loopfilter.{hh,cc}, src/decoder/loopfilter_filters.hh), the portable versions. -/

namespace Alfalfa

/-! ### The strength -/

/-- `clamp63` (src/decoder/loopfilter.cc:36-41). -/
def clamp63 (input : Int) : Nat := if input > 63 then 63 else if input < 0 then 0 else input.toNat

/-- `struct FilterParameters` (src/decoder/loopfilter.hh:46-62); `type` is only ever `Simple` or `Normal`. -/
structure FilterParameters where
  simple : Bool
  level : Int
  sharpness : Nat
deriving Repr, DecidableEq

/-- `mode_adjustment` (src/decoder/loopfilter.cc:57-70). -/
def modeAdjustment (mode : Fin 4 → Int) (reference : Fin 4) (yMode : Nat) : Int :=
  if reference = 0 then (if yMode = B_PRED then mode 0 else 0)
  else if yMode = ZEROMV then mode 1
  else if yMode = SPLITMV then mode 3
  else mode 2

/-- `FilterParameters::adjust` (src/decoder/loopfilter.cc:72-79). -/
def FilterParameters.adjust (p : FilterParameters) (a : FilterAdjustments) (reference : Fin 4) (yMode : Nat) : FilterParameters :=
  { p with level := p.level + (a.ref reference + modeAdjustment a.mode reference yMode) }

/-- The members of `NormalLoopFilter` and of the `SimpleLoopFilter` in it (src/decoder/loopfilter.hh:64-92); the vectors repeat one
element. -/
structure LoopFilter where
  level : Nat
  interior : Nat
  macroblockLimit : Nat
  subblockLimit : Nat
  hevThreshold : Nat
deriving Repr, DecidableEq

/-- The local variable `interior_limit` (src/decoder/loopfilter.cc:87-98), of type `uint8_t`. -/
def interiorLimit (level sharpness : Nat) : Nat :=
  let interior := level
  let interior := if sharpness ≠ 0 then
      let interior := interior >>> (if sharpness > 4 then 2 else 1)
      if (interior : Int) > 9 - sharpness then toUInt8 (9 - sharpness) else interior
    else interior
  if interior < 1 then 1 else interior

/-- `SimpleLoopFilter( params )` and `NormalLoopFilter( key_frame, params )` (src/decoder/loopfilter.cc:81-125). -/
def FilterParameters.filter (p : FilterParameters) (keyFrame : Bool) : LoopFilter :=
  let level := clamp63 p.level
  let interior := interiorLimit level p.sharpness
  let hev := if level ≥ 15 then 1 else 0
  let hev := if level ≥ 40 then hev + 1 else hev
  let hev := if level ≥ 20 ∧ !keyFrame then hev + 1 else hev
  { level, interior, macroblockLimit := toUInt8 ((level + 2) * 2 + interior : Nat),
    subblockLimit := toUInt8 (level * 2 + interior : Nat), hevThreshold := hev }

/-! ### Eight pixels across an edge

The pixels `p3`, `p2`, `p1`, `p0`, `q0`, `q1`, `q2`, `q3` are numbered from 0 to 7.  The masks `-1` and `0` of type `signed char` are
Booleans here: `value & mask` is `if mask then value else 0`. -/

/-- `vp8_signed_char_clamp` (src/decoder/loopfilter_filters.hh:50-55). -/
def signedClamp (t : Int) : Int :=
  let t := if t < -128 then -128 else t
  if t > 127 then 127 else t

/-- The difference of two pixels as `int`. -/
def pixelDiff (a b : UInt8) : Int := (a.toNat : Int) - b.toNat

/-- `vp8_filter_mask` (src/decoder/loopfilter_filters.hh:58-71). -/
def filterMask (limit blimit : Nat) (v : Fin 8 → UInt8) : Bool :=
  !(decide ((pixelDiff (v 0) (v 1)).natAbs > limit) ||
    decide ((pixelDiff (v 1) (v 2)).natAbs > limit) ||
    decide ((pixelDiff (v 2) (v 3)).natAbs > limit) ||
    decide ((pixelDiff (v 5) (v 4)).natAbs > limit) ||
    decide ((pixelDiff (v 6) (v 5)).natAbs > limit) ||
    decide ((pixelDiff (v 7) (v 6)).natAbs > limit) ||
    decide ((pixelDiff (v 3) (v 4)).natAbs * 2 + (pixelDiff (v 2) (v 5)).natAbs / 2 > blimit))

/-- `vp8_hevmask` (src/decoder/loopfilter_filters.hh:74-80). -/
def hevMask (threshold : Nat) (v : Fin 8 → UInt8) : Bool :=
  decide ((pixelDiff (v 2) (v 3)).natAbs > threshold) || decide ((pixelDiff (v 5) (v 4)).natAbs > threshold)

/-- `(signed char) x ^ 0x80`. -/
def toSigned (x : UInt8) : Int := (x.toNat : Int) - 128

/-- `u ^ 0x80` for a `signed char`, converted to `uint8_t`. -/
def fromSigned (u : Int) : UInt8 := UInt8.ofNat (toUInt8 (u + 128))

/-- `value & mask`. -/
def masked (mask : Bool) (value : Int) : Int := if mask then value else 0

/-- `vp8_filter` (src/decoder/loopfilter_filters.hh:82-128).  It assigns to `p1`, `p0`, `q0` and `q1`. -/
def subblockFilter (mask hev : Bool) (v : Fin 8 → UInt8) : Fin 8 → UInt8 :=
  let ps1 := toSigned (v 2)
  let ps0 := toSigned (v 3)
  let qs0 := toSigned (v 4)
  let qs1 := toSigned (v 5)
  let value := signedClamp (ps1 - qs1)
  let value := masked hev value
  let value := signedClamp (value + 3 * (qs0 - ps0))
  let value := masked mask value
  let filter1 := signedClamp (value + 4)
  let filter2 := signedClamp (value + 3)
  let filter1 := filter1 >>> 3
  let filter2 := filter2 >>> 3
  let oq0 := fromSigned (signedClamp (qs0 - filter1))
  let op0 := fromSigned (signedClamp (ps0 + filter2))
  let value := filter1
  let value := value + 1
  let value := value >>> 1
  let value := masked (!hev) value
  let oq1 := fromSigned (signedClamp (qs1 - value))
  let op1 := fromSigned (signedClamp (ps1 + value))
  ![v 0, v 1, op1, op0, oq0, oq1, v 6, v 7]

/-- `vp8_mbfilter` (src/decoder/loopfilter_filters.hh:130-183).  It assigns to `p2`, `p1`, `p0`, `q0`, `q1` and `q2`. -/
def macroblockFilter (mask hev : Bool) (v : Fin 8 → UInt8) : Fin 8 → UInt8 :=
  let ps2 := toSigned (v 1)
  let ps1 := toSigned (v 2)
  let ps0 := toSigned (v 3)
  let qs0 := toSigned (v 4)
  let qs1 := toSigned (v 5)
  let qs2 := toSigned (v 6)
  let value := signedClamp (ps1 - qs1)
  let value := signedClamp (value + 3 * (qs0 - ps0))
  let value := masked mask value
  let filter2 := value
  let filter2 := masked hev filter2
  let filter1 := signedClamp (filter2 + 4)
  let filter2 := signedClamp (filter2 + 3)
  let filter1 := filter1 >>> 3
  let filter2 := filter2 >>> 3
  let qs0 := signedClamp (qs0 - filter1)
  let ps0 := signedClamp (ps0 + filter2)
  let value := masked (!hev) value
  let filter2 := value
  let u := signedClamp ((63 + filter2 * 27) >>> 7)
  let oq0 := fromSigned (signedClamp (qs0 - u))
  let op0 := fromSigned (signedClamp (ps0 + u))
  let u := signedClamp ((63 + filter2 * 18) >>> 7)
  let oq1 := fromSigned (signedClamp (qs1 - u))
  let op1 := fromSigned (signedClamp (ps1 + u))
  let u := signedClamp ((63 + filter2 * 9) >>> 7)
  let oq2 := fromSigned (signedClamp (qs2 - u))
  let op2 := fromSigned (signedClamp (ps2 + u))
  ![v 0, op2, op1, op0, oq0, oq1, oq2, v 7]

/-- The two masks and the filter across the edge of a macroblock (src/decoder/loopfilter.cc:165-184). -/
def LoopFilter.macroblockLine (f : LoopFilter) (v : Fin 8 → UInt8) : Fin 8 → UInt8 :=
  macroblockFilter (filterMask f.interior f.macroblockLimit v) (hevMask f.hevThreshold v) v

/-- The two masks and the filter across an edge inside a macroblock (src/decoder/loopfilter.cc:280-299). -/
def LoopFilter.subblockLine (f : LoopFilter) (v : Fin 8 → UInt8) : Fin 8 → UInt8 :=
  subblockFilter (filterMask f.interior f.subblockLimit v) (hevMask f.hevThreshold v) v

/-! ### Pictures -/

/-- Load the eight pixels at `central - 4 * step` to `central + 3 * step`, and store those of `places` after filtering. -/
def filterLine (p : Plane) (central step : Int) (f : (Fin 8 → UInt8) → Fin 8 → UInt8) (places : List (Fin 8)) : Option Plane := do
  let v ← allSome fun i : Fin 8 => p.load (central + ((i.val : Int) - 4) * step)
  places.foldlM (fun p (i : Fin 8) => p.store (central + ((i.val : Int) - 4) * step) (f v i)) p

/-- The pixels that `vp8_mbfilter` and `vp8_filter` assign to. -/
def macroblockPlaces : List (Fin 8) := [4, 3, 5, 2, 6, 1]
def subblockPlaces : List (Fin 8) := [4, 3, 5, 2]

/-- `&block.at( column, row )` in the block of `n` by `n` pixels with its first pixel at `x`, `y` (src/util/2d.hh:296-300). -/
def blockAddress (p : Plane) (n x y column row : Nat) : Option Int :=
  if column < n ∧ row < n then p.address (x + column) (y + row) else none

/-- The body of the loops over `row`. -/
def filterRow (f : (Fin 8 → UInt8) → Fin 8 → UInt8) (places : List (Fin 8)) (n x y column : Nat) (p : Plane) (row : Nat) : Option Plane := do
  let central ← blockAddress p n x y column row
  filterLine p central 1 f places

/-- The body of the loops over `column`. -/
def filterColumn (f : (Fin 8 → UInt8) → Fin 8 → UInt8) (places : List (Fin 8)) (n x y row : Nat) (p : Plane) (column : Nat) : Option Plane := do
  let central ← blockAddress p n x y column row
  filterLine p central p.width f places

/-- `filter_mb_vertical_c` (src/decoder/loopfilter.cc:157-186) of the block `column`, `row`, counted in blocks of `n` pixels. -/
def filterMbVertical (f : LoopFilter) (n column row : Nat) (p : Plane) : Option Plane :=
  (List.range n).foldlM (filterRow f.macroblockLine macroblockPlaces n (n * column) (n * row) 0) p

/-- `filter_mb_horizontal_c` (src/decoder/loopfilter.cc:211-246). -/
def filterMbHorizontal (f : LoopFilter) (n column row : Nat) (p : Plane) : Option Plane :=
  (List.range n).foldlM (filterColumn f.macroblockLine macroblockPlaces n (n * column) (n * row) 0) p

/-- The values of `center_column` and `center_row`: 4, 8, ... below `n`. -/
def centers (n : Nat) : List Nat := (List.range (n / 4 - 1)).map fun k => 4 * (k + 1)

/-- `filter_sb_vertical_c` (src/decoder/loopfilter.cc:271-302). -/
def filterSbVertical (f : LoopFilter) (n column row : Nat) (p : Plane) : Option Plane :=
  (centers n).foldlM (fun p center =>
    (List.range n).foldlM (filterRow f.subblockLine subblockPlaces n (n * column) (n * row) center) p) p

/-- `filter_sb_horizontal_c` (src/decoder/loopfilter.cc:333-368). -/
def filterSbHorizontal (f : LoopFilter) (n column row : Nat) (p : Plane) : Option Plane :=
  (centers n).foldlM (fun p center =>
    (List.range n).foldlM (filterColumn f.subblockLine subblockPlaces n (n * column) (n * row) center) p) p

/-- One of the four steps on the three planes of a macroblock, e.g. `filter_mb_vertical` (src/decoder/loopfilter.cc:205-207); the
constructor of the macroblock makes three blocks (src/decoder/vp8_raster.hh:182-192). -/
def onPlanes (g : Nat → Nat → Nat → Plane → Option Plane) (column row : Nat) (r : Raster) : Option Raster := do
  let y ← g 16 column row r.y
  let u ← g 8 column row r.u
  let v ← g 8 column row r.v
  pure { r with y, u, v }

/-- A step that is taken only sometimes. -/
def stepIf (c : Bool) (g : Raster → Option Raster) (r : Raster) : Option Raster := if c then g r else some r

/-- `NormalLoopFilter::filter` (src/decoder/loopfilter.cc:133-154). -/
def LoopFilter.apply (f : LoopFilter) (skipSubblockEdges : Bool) (column row : Nat) (r : Raster) : Option Raster := do
  let r ← stepIf (decide (column > 0)) (onPlanes (filterMbVertical f) column row) r
  let r ← stepIf (!skipSubblockEdges) (onPlanes (filterSbVertical f) column row) r
  let r ← stepIf (decide (row > 0)) (onPlanes (filterMbHorizontal f) column row) r
  stepIf (!skipSubblockEdges) (onPlanes (filterSbHorizontal f) column row) r

end Alfalfa
