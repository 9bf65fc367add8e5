import Verif.Model.DecoderState

/-! Quantizers (src/decoder/quantization.{hh,cc}, src/decoder/frame.cc:185-206). -/

namespace Alfalfa

/-- `dc_qlookup` (src/decoder/quantization.cc:42-52). -/
def dcLookup : List Nat :=
  [4, 5, 6, 7, 8, 9, 10, 10, 11, 12, 13, 14, 15,
   16, 17, 17, 18, 19, 20, 20, 21, 21, 22, 22, 23, 23,
   24, 25, 25, 26, 27, 28, 29, 30, 31, 32, 33, 34, 35,
   36, 37, 37, 38, 39, 40, 41, 42, 43, 44, 45, 46, 46,
   47, 48, 49, 50, 51, 52, 53, 54, 55, 56, 57, 58, 59,
   60, 61, 62, 63, 64, 65, 66, 67, 68, 69, 70, 71, 72,
   73, 74, 75, 76, 76, 77, 78, 79, 80, 81, 82, 83, 84,
   85, 86, 87, 88, 89, 91, 93, 95, 96, 98, 100, 101, 102,
   104, 106, 108, 110, 112, 114, 116, 118, 122, 124, 126, 128, 130,
   132, 134, 136, 138, 140, 143, 145, 148, 151, 154, 157]

/-- `ac_qlookup` (src/decoder/quantization.cc:54-64). -/
def acLookup : List Nat :=
  [4, 5, 6, 7, 8, 9, 10, 11, 12, 13, 14, 15, 16,
   17, 18, 19, 20, 21, 22, 23, 24, 25, 26, 27, 28, 29,
   30, 31, 32, 33, 34, 35, 36, 37, 38, 39, 40, 41, 42,
   43, 44, 45, 46, 47, 48, 49, 50, 51, 52, 53, 54, 55,
   56, 57, 58, 60, 62, 64, 66, 68, 70, 72, 74, 76, 78,
   80, 82, 84, 86, 88, 90, 92, 94, 96, 98, 100, 102, 104,
   106, 108, 110, 112, 114, 116, 119, 122, 125, 128, 131, 134, 137,
   140, 143, 146, 149, 152, 155, 158, 161, 164, 167, 170, 173, 177,
   181, 185, 189, 193, 197, 201, 205, 209, 213, 217, 221, 225, 229,
   234, 239, 245, 249, 254, 259, 264, 269, 274, 279, 284]

/-- `clamp_q` (src/decoder/quantization.cc:66-72); the argument is converted to `int16_t`. -/
def clampQ (q : Int) : Int :=
  let q := toInt16 q
  if q < 0 then 0 else if q > 127 then 127 else q

/-- `struct Quantizer` (src/decoder/quantization.hh:37-48). -/
@[ext] structure Quantizer where
  yAc : Nat
  yDc : Nat
  y2Ac : Nat
  y2Dc : Nat
  uvAc : Nat
  uvDc : Nat
deriving Repr, DecidableEq

/-- `lookup.at( clamp_q( index ) )`; `none` is a failed bounds check. -/
def lookup (table : List Nat) (q : Int) : Option Nat := if 0 ≤ clampQ q then table[(clampQ q).toNat]? else none

/-- `Quantizer( quant_indices )` (src/decoder/quantization.cc:83-94). -/
def quantizer (i : QuantIndices) : Option Quantizer := do
  let yAc ← lookup acLookup i.yAcQi
  let yDc ← lookup dcLookup (i.yAcQi + i.yDc.getD 0)
  let y2Ac ← lookup acLookup (i.yAcQi + i.y2Ac.getD 0)
  let y2Dc ← lookup dcLookup (i.yAcQi + i.y2Dc.getD 0)
  let uvAc ← lookup acLookup (i.yAcQi + i.uvAc.getD 0)
  let uvDc ← lookup dcLookup (i.yAcQi + i.uvDc.getD 0)
  let y2Ac := y2Ac * 155 / 100
  let y2Dc := y2Dc * 2
  pure { yAc, yDc, y2Ac := if y2Ac < 8 then 8 else y2Ac, y2Dc, uvAc, uvDc := if uvDc > 132 then 132 else uvDc }

/-- Conversion of an integer to `uint8_t`. -/
def toUInt8 (z : Int) : Nat := (z % 256).toNat

/-- The assignment to `segment_indices.y_ac_qi` (src/decoder/frame.cc:195-199): an `Unsigned<7>` is made from any `uint8_t`
(src/decoder/vp8_header_structures.hh:63). -/
def segmentIndices (s : Segmentation) (i : QuantIndices) (k : Fin 4) : QuantIndices :=
  { i with yAcQi := toUInt8 (s.quantizer k + (if s.absolute then 0 else (i.yAcQi : Int))) }

/-- `calculate_segment_quantizers` (src/decoder/frame.cc:185-206), when there is a segmentation. -/
def segmentQuantizer (s : Segmentation) (i : QuantIndices) (k : Fin 4) : Option Quantizer := quantizer (segmentIndices s i k)

/-- `DCTCoefficients::dequantize` (src/decoder/quantization.cc:95-126): the products are stored as `int16_t`. -/
def dequantize (dc ac : Nat) (c : Fin 16 → Int) (i : Fin 16) : Int := toInt16 (c i * (if i = 0 then dc else ac : Nat))

/-- `DCTCoefficients::quantize` (src/decoder/quantization.cc:148-157): division of integers towards zero, undefined for a factor
of zero. -/
def quantize (dc ac : Nat) (c : Fin 16 → Int) : Option (Fin 16 → Int) :=
  if dc = 0 ∨ ac = 0 then none else some fun i => toInt16 ((c i).tdiv (if i = 0 then dc else ac : Nat))

/-- `Y2Block::dequantize`, `YBlock::dequantize`, `UVBlock::dequantize` (src/decoder/quantization.cc:128-146). -/
def Quantizer.dequantizeY2 (q : Quantizer) : (Fin 16 → Int) → Fin 16 → Int := dequantize q.y2Dc q.y2Ac
def Quantizer.dequantizeY (q : Quantizer) : (Fin 16 → Int) → Fin 16 → Int := dequantize q.yDc q.yAc
def Quantizer.dequantizeUV (q : Quantizer) : (Fin 16 → Int) → Fin 16 → Int := dequantize q.uvDc q.uvAc

/-- `Y2Block::quantize`, `YBlock::quantize`, `UVBlock::quantize` (src/decoder/quantization.cc:159-178). -/
def Quantizer.quantizeY2 (q : Quantizer) : (Fin 16 → Int) → Option (Fin 16 → Int) := quantize q.y2Dc q.y2Ac
def Quantizer.quantizeY (q : Quantizer) : (Fin 16 → Int) → Option (Fin 16 → Int) := quantize q.yDc q.yAc
def Quantizer.quantizeUV (q : Quantizer) : (Fin 16 → Int) → Option (Fin 16 → Int) := quantize q.uvDc q.uvAc

end Alfalfa
