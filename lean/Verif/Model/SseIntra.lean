import Verif.Model.Sse
import Verif.Model.Intra

/-! The intra predictors for processors with SSE2 and SSSE3 (src/decoder/intrapred_sse2.asm, src/decoder/intrapred_ssse3.asm), those that
src/decoder/prediction.cc:169-381,561-601 calls. -/

namespace Alfalfa.Sse

/-- What `movu`, `mova` read from these bytes. -/
def bytesAt (f : Int → UInt8) (start : Int) : Reg := fun j => (f (start + j)).toBitVec

/-- `times 8 dw` (src/decoder/intrapred_sse2.asm:15-23). -/
def wordsOf (c : Nat) : Reg := ofWords fun _ => BitVec.ofNat 16 c

/-- `pb_1` (src/decoder/intrapred_sse2.asm:14). -/
def pb1 : Reg := fun _ => 1

/-- `psrlq` by `n` bytes: each half of the register moves down. -/
def psrlq (a : Reg) (n : Nat) : Reg := fun j => if j % 8 + n < 8 then a (j + n) else 0

/-- `movhlps`: the upper half of the second register becomes the lower half. -/
def movhlps (a b : Reg) : Reg := fun j => if j < 8 then b (j + 8) else a j

/-- A block whose rows are the lower bytes of these registers. -/
def rowsOf {n : Nat} (rows : Fin n → Reg) : Square n := fun column row => ⟨rows row column.val⟩

/-- `X_PLUS_2Y_PLUS_Z_PLUS_2_RSH_2` (src/decoder/intrapred_sse2.asm:36-42): what is left in the fourth register. -/
def threeTap (x y z : Reg) : Reg :=
  let r := pavgb x z
  let z := pand (pxor z x) pb1
  pavgb (psubb r z) y

/-- `vpx_dc_predictor_4x4_sse2` (src/decoder/intrapred_sse2.asm:129-149). -/
def dcPred4 (above left : Int → UInt8) : Square 4 :=
  let m2 := movd (bytesAt left 0)
  let m0 := movd (bytesAt above 0)
  let m0 := punpckl 4 m0 m2
  let m0 := psadbw m0 zero
  let m0 := psraw (paddw m0 (wordsOf 4)) 3
  let m0 := pshuflw m0 0
  let m0 := packuswb m0 m0
  rowsOf fun _ => m0

/-- `vpx_dc_left_predictor_4x4_sse2`, `vpx_dc_top_predictor_4x4_sse2` (src/decoder/intrapred_sse2.asm:151-189); `edge` is `left` or `above`. -/
def dcOne4 (edge : Int → UInt8) : Square 4 :=
  let m0 := movd (bytesAt edge 0)
  let m0 := psadbw m0 zero
  let m0 := psraw (paddw m0 (wordsOf 2)) 2
  let m0 := pshuflw m0 0
  let m0 := packuswb m0 m0
  rowsOf fun _ => m0

/-- `vpx_dc_predictor_8x8_sse2` (src/decoder/intrapred_sse2.asm:191-218). -/
def dcPred8 (above left : Int → UInt8) : Square 8 :=
  let m0 := movq (bytesAt above 0)
  let m2 := movq (bytesAt left 0)
  let m0 := paddw (psadbw m0 zero) (psadbw m2 zero)
  let m0 := psraw (paddw m0 (wordsOf 8)) 4
  let m0 := punpckl 1 m0 m0
  let m0 := pshuflw m0 0
  rowsOf fun _ => m0

/-- `vpx_dc_top_predictor_8x8_sse2`, `vpx_dc_left_predictor_8x8_sse2` (src/decoder/intrapred_sse2.asm:220-269). -/
def dcOne8 (edge : Int → UInt8) : Square 8 :=
  let m0 := movq (bytesAt edge 0)
  let m0 := psadbw m0 zero
  let m0 := psraw (paddw m0 (wordsOf 4)) 3
  let m0 := punpckl 1 m0 m0
  let m0 := pshuflw m0 0
  rowsOf fun _ => m0

/-- `vpx_dc_predictor_16x16_sse2` (src/decoder/intrapred_sse2.asm:304-336). -/
def dcPred16 (above left : Int → UInt8) : Square 16 :=
  let m0 := bytesAt above 0
  let m2 := bytesAt left 0
  let m0 := paddw (psadbw m0 zero) (psadbw m2 zero)
  let m2 := movhlps m2 m0
  let m0 := paddw m0 m2
  let m0 := psraw (paddw m0 (wordsOf 16)) 5
  let m0 := pshuflw m0 0
  let m0 := punpckl 8 m0 m0
  let m0 := packuswb m0 m0
  rowsOf fun _ => m0

/-- `vpx_dc_top_predictor_16x16_sse2`, `vpx_dc_left_predictor_16x16_sse2` (src/decoder/intrapred_sse2.asm:339-398).  `m2` is not set before `movhlps`, which keeps its upper half. -/
def dcOne16 (edge : Int → UInt8) (m2 : Reg) : Square 16 :=
  let m0 := psadbw (bytesAt edge 0) zero
  let m2 := movhlps m2 m0
  let m0 := paddw m0 m2
  let m0 := psraw (paddw m0 (wordsOf 8)) 4
  let m0 := pshuflw m0 0
  let m0 := punpckl 8 m0 m0
  let m0 := packuswb m0 m0
  rowsOf fun _ => m0

/-- `vpx_dc_128_predictor_4x4_sse2` and those for 8x8 and 16x16 (src/decoder/intrapred_sse2.asm:271-302,400-422). -/
def dc128 (n : Nat) : Square n := rowsOf fun _ _ => 128

/-- `vpx_v_predictor_4x4_sse2`, `vpx_v_predictor_8x8_sse2`, `vpx_v_predictor_16x16_sse2` (src/decoder/intrapred_sse2.asm:557-599). -/
def sseVertical (n : Nat) (above : Int → UInt8) : Square n := rowsOf fun _ => bytesAt above 0

/-- `vpx_h_predictor_4x4_sse2` (src/decoder/intrapred_sse2.asm:623-636). -/
def hPred4 (left : Int → UInt8) : Square 4 :=
  let m0 := movd (bytesAt left 0)
  let m0 := punpckl 1 m0 m0
  let m0 := punpckl 1 m0 m0
  rowsOf ![m0, pshufd m0 1, pshufd m0 2, pshufd m0 3]

/-- `vpx_h_predictor_8x8_sse2` (src/decoder/intrapred_sse2.asm:638-661): two turns of the loop. -/
def hPred8 (left : Int → UInt8) : Square 8 :=
  let m0 := movq (bytesAt left 0)
  let m0 := punpckl 1 m0 m0
  let m0' := pshufd m0 0xe
  rowsOf ![pshuflw m0 0, pshuflw m0 0x55, pshuflw m0 0xaa, pshuflw m0 0xff, pshuflw m0' 0, pshuflw m0' 0x55, pshuflw m0' 0xaa, pshuflw m0' 0xff]

/-- `vpx_h_predictor_16x16_sse2` (src/decoder/intrapred_sse2.asm:663-687): turn `row / 4` of the loop. -/
def hPred16 (left : Int → UInt8) : Square 16 :=
  rowsOf fun row =>
    let m0 := movd (bytesAt left (4 * (row.val / 4 : Nat)))
    let m0 := punpckl 1 m0 m0
    let m0 := punpckl 1 m0 m0
    pshufd m0 (if row.val % 4 = 0 then 0 else if row.val % 4 = 1 then 0x55 else if row.val % 4 = 2 then 0xaa else 0xff)

/-- `vpx_tm_predictor_4x4_sse2` (src/decoder/intrapred_sse2.asm:718-746). -/
def tmPred4 (above left : Int → UInt8) : Square 4 :=
  let m0 := movq (bytesAt above (-1))
  let m0 := punpckl 1 m0 zero
  let m2 := pshuflw m0 0
  let m0 := psrldq m0 2
  let m0 := psubw m0 m2
  let m2 := movd (bytesAt left 0)
  let m2 := punpckl 1 m2 zero
  let line := fun imm => let m4 := paddw (pshuflw m2 imm) m0; packuswb m4 m4
  rowsOf ![line 0, line 0x55, line 0xaa, line 0xff]

/-- `vpx_tm_predictor_8x8_sse2` (src/decoder/intrapred_sse2.asm:748-779): turn `row / 2` of the loop, in which `m2` has been shifted that often. -/
def tmPred8 (above left : Int → UInt8) : Square 8 :=
  let m2 := movd (bytesAt above (-1))
  let m0 := movq (bytesAt above 0)
  let m2 := punpckl 1 m2 zero
  let m0 := punpckl 1 m0 zero
  let m2 := pshuflw m2 0
  let m2 := punpckl 8 m2 m2
  let m0 := psubw m0 m2
  let m2 := movq (bytesAt left 0)
  let m2 := punpckl 1 m2 zero
  rowsOf fun row =>
    let m2 := (fun r => psrldq r 4)^[row.val / 2] m2
    let m4 := pshuflw m2 0
    let m3 := pshuflw m2 0x55
    let m4 := punpckl 8 m4 m4
    let m3 := punpckl 8 m3 m3
    let m4 := paddw m4 m0
    let m3 := paddw m3 m0
    let m4 := packuswb m4 m3
    if row.val % 2 = 0 then m4 else fun j => m4 (j + 8)

/-- `vpx_tm_predictor_16x16_sse2` (src/decoder/intrapred_sse2.asm:781-821): turn `row % 8` of the loop, in which `m3` and `m5` have been shifted that often. -/
def tmPred16 (above left : Int → UInt8) : Square 16 :=
  let m2 := bytesAt above (-16)
  let m0 := bytesAt above 0
  let m2 := punpckh 8 1 m2 zero
  let m4 := punpckh 8 1 m0 zero
  let m0 := punpckl 1 m0 zero
  let m2 := pshufhw m2 0xff
  let m3 := bytesAt left 0
  let m2 := punpckh 8 8 m2 m2
  let m0 := psubw m0 m2
  let m4 := psubw m4 m2
  let m5 := punpckh 8 1 m3 zero
  let m3 := punpckl 1 m3 zero
  rowsOf fun row =>
    let m := (fun r => psrldq r 2)^[row.val % 8] (if row.val < 8 then m3 else m5)
    let m6 := pshuflw m 0
    let m6 := punpckl 8 m6 m6
    packuswb (paddw m6 m0) (paddw m6 m4)

/-- `sh_b32104567`, `sh_b8091a2b345` (src/decoder/intrapred_ssse3.asm:23-24). -/
def shB32104567 : Reg := fun j => BitVec.ofNat 8 ([3, 2, 1, 0, 4, 5, 6, 7].getD j 0)
def shB8091a2b345 : Reg := fun j => BitVec.ofNat 8 ([8, 0, 9, 1, 10, 2, 11, 3, 4, 5].getD j 0)

/-- `vpx_d153_predictor_4x4_ssse3` (src/decoder/intrapred_ssse3.asm:312-342). -/
def d153 (above left : Int → UInt8) : Square 4 :=
  let m0 := movd (bytesAt left 0)
  let m1 := movd (bytesAt above (-1))
  let m0 := punpckl 4 m0 m1
  let m0 := pshufb m0 shB32104567
  let m1 := psrldq m0 1
  let m2 := psrldq m0 2
  let m3 := threeTap m0 m1 m2
  let m1 := pavgb m1 m0
  let m3 := punpckl 8 m3 m1
  let m3 := pshufb m3 shB8091a2b345
  let m3' := psrldq m3 2
  let m3'' := psrldq m3' 2
  let m3''' := psrldq m3'' 2
  rowsOf ![m3''', m3'', m3', m3]

/-- `vpx_d207_predictor_4x4_sse2` (src/decoder/intrapred_sse2.asm:101-127). -/
def d207 (left : Int → UInt8) : Square 4 :=
  let m0 := movd (bytesAt left 0)
  let m4 := punpckl 1 m0 m0
  let m4 := punpckl 2 m4 m4
  let m4 := psrldq m4 12
  let m0 := punpckl 4 m0 m4
  let m1 := psrldq m0 1
  let m2 := psrldq m0 2
  let m3 := threeTap m0 m1 m2
  let m1 := pavgb m1 m0
  let m1 := punpckl 1 m1 m3
  let m1' := psrlq m1 2
  let m1'' := psrlq m1' 2
  rowsOf ![m1, m1', m1'', m4]

end Alfalfa.Sse

namespace Alfalfa
open Sse

/-- The array that `above` points into (src/decoder/vp8_raster.hh:73-77); `rest` is what it holds where nothing has been written. -/
def Edge.aboveStorage {n m : Nat} (e : Edge n m) (rest : Int → UInt8) : Int → UInt8 := fun i =>
  if i = -1 then e.corner else if h : 0 ≤ i ∧ i.toNat < m then e.above ⟨i.toNat, h.2⟩ else rest i

/-- The array `left` (src/decoder/vp8_raster.hh:78), and what is after it. -/
def Edge.leftStorage {n m : Nat} (e : Edge n m) (rest : Int → UInt8) : Int → UInt8 := fun i =>
  if h : 0 ≤ i ∧ i.toNat < n then e.left ⟨i.toNat, h.2⟩ else rest i

/-- `dc_predict` of 8x8 blocks (src/decoder/prediction.cc:339-359). -/
def sseDcPredict8 (column row : Nat) (above left : Int → UInt8) : Square 8 :=
  if column ≠ 0 ∧ row ≠ 0 then dcPred8 above left
  else if row > 0 then dcOne8 above
  else if column > 0 then dcOne8 left
  else dc128 8

/-- `dc_predict` of 16x16 blocks (src/decoder/prediction.cc:361-381). -/
def sseDcPredict16 (column row : Nat) (above left : Int → UInt8) (m2 : Reg) : Square 16 :=
  if column ≠ 0 ∧ row ≠ 0 then dcPred16 above left
  else if row > 0 then dcOne16 above m2
  else if column > 0 then dcOne16 left m2
  else dc128 16

/-- `Block8::intra_predict` (src/decoder/prediction.cc:435-467) with the functions for SSE. -/
def sseIntraSquare8 (mode column row : Nat) (above left : Int → UInt8) : Option (Square 8) :=
  match mode with
  | 0 => some (sseDcPredict8 column row above left)
  | 1 => some (sseVertical 8 above)
  | 2 => some (hPred8 left)
  | 3 => some (tmPred8 above left)
  | _ => none

/-- `Block16::intra_predict` (src/decoder/prediction.cc:435-467) with the functions for SSE. -/
def sseIntraSquare16 (mode column row : Nat) (above left : Int → UInt8) (m2 : Reg) : Option (Square 16) :=
  match mode with
  | 0 => some (sseDcPredict16 column row above left m2)
  | 1 => some (sseVertical 16 above)
  | 2 => some (hPred16 left)
  | 3 => some (tmPred16 above left)
  | _ => none

/-- `Block4::intra_predict` (src/decoder/prediction.cc:622-643) with the functions for SSE where there are any. -/
def sseIntraSquare4 (mode : Nat) (e : Edge 4 8) (above left : Int → UInt8) : Option (Square 4) :=
  match mode with
  | 0 => some (dcPred4 above left)
  | 1 => some (tmPred4 above left)
  | 2 => some (verticalSmoothed e)
  | 3 => some (horizontalSmoothed e)
  | 4 => some (leftDown e)
  | 5 => some (rightDown e)
  | 6 => some (verticalRight e)
  | 7 => some (verticalLeft e)
  | 8 => some (d153 above left)
  | 9 => some (d207 left)
  | _ => none

/-- `intra_predict( mode )` on a 16x16 block (src/decoder/vp8_raster.hh:117) with the functions for SSE. -/
def sseIntraPredict16 (rest rest' : Int → UInt8) (m2 : Reg) (p : Plane) (mode column row : Nat) : Option Plane := do
  p.subRange 16 (16 * column) (16 * row)
  let e ← leftAndAbove p 16 column row
  let f ← sseIntraSquare16 mode column row (e.aboveStorage rest) (e.leftStorage rest') m2
  p.putSquare (16 * column) (16 * row) f

/-- `intra_predict( mode )` on an 8x8 block (src/decoder/vp8_raster.hh:117) with the functions for SSE. -/
def sseIntraPredict8 (rest rest' : Int → UInt8) (p : Plane) (mode column row : Nat) : Option Plane := do
  p.subRange 8 (8 * column) (8 * row)
  let e ← leftAndAbove p 8 column row
  let f ← sseIntraSquare8 mode column row (e.aboveStorage rest) (e.leftStorage rest')
  p.putSquare (8 * column) (8 * row) f

/-- `intra_predict( mode )` on a 4x4 block (src/decoder/vp8_raster.hh:117) with the functions for SSE. -/
def sseIntraPredict4 (rest rest' : Int → UInt8) (p : Plane) (mode column row : Nat) : Option Plane := do
  p.subRange 4 (4 * column) (4 * row)
  let e ← edge4 p column row
  let f ← sseIntraSquare4 mode e (e.aboveStorage rest) (e.leftStorage rest')
  p.putSquare (4 * column) (4 * row) f

end Alfalfa
