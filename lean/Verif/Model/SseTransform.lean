import Verif.Model.Sse
import Verif.Model.Transform

/-! The transforms for processors with SSE2 (src/decoder/iwalsh_sse2.asm, idctllm_mmx.asm, subtract_sse2.asm, dct_sse2.asm, fwalsh_sse2.asm and the intrinsics of
src/decoder/quantization.cc).  Each instruction that changes a vector register is one line; that `movdqa` traps for an address that is no multiple of 16 is not modelled. -/

namespace Alfalfa

open Sse

/-- Numbers of 16 bits in memory from number `base` on, loaded into a register. -/
def loadWords (c : Fin 16 → Int) (base : Nat) : Reg := ofWords fun i => BitVec.ofInt 16 (at16 c (base + i))

/-- `DCTCoefficients::dequantize` (src/decoder/quantization.cc:97-118), with the factors cast to `int16_t`. -/
def sseDequantize (dc ac : Nat) (c : Fin 16 → Int) (i : Fin 16) : Int :=
  let q0 := BitVec.ofNat 16 dc
  let q1 := BitVec.ofNat 16 ac
  let coeffs0 := loadWords c 0
  let coeffs1 := loadWords c 8
  let factors0 := ofWords fun i => if i = 0 then q0 else q1
  let factors1 := ofWords fun _ => q1
  let coeffs0 := pmullw coeffs0 factors0
  let coeffs1 := pmullw coeffs1 factors1
  if i.val < 8 then (word coeffs0 i).toInt else (word coeffs1 (i.val - 8)).toInt

/-- `vp8_short_inv_walsh4x4_sse2` (src/decoder/iwalsh_sse2.asm:24-76): the registers `xmm5` and `xmm4` before they are stored. -/
def sseIwhtRegs (c : Fin 16 → Int) : Reg × Reg :=
  let xmm0 := loadWords c 0
  let xmm1 := loadWords c 8
  let xmm2 := pshufd xmm1 0x4e
  let xmm3 := xmm0
  let xmm0 := paddw xmm0 xmm2
  let xmm3 := psubw xmm3 xmm2
  let xmm4 := xmm0
  let xmm0 := punpckl 8 xmm0 xmm3
  let xmm4 := punpckh 8 8 xmm4 xmm3
  let xmm1 := xmm4
  let xmm4 := paddw xmm4 xmm0
  let xmm0 := psubw xmm0 xmm1
  let xmm3 := xmm4
  let xmm4 := punpckl 2 xmm4 xmm0
  let xmm3 := punpckh 8 2 xmm3 xmm0
  let xmm1 := xmm4
  let xmm4 := punpckl 2 xmm4 xmm3
  let xmm1 := punpckh 8 2 xmm1 xmm3
  let xmm2 := pshufd xmm1 0x4e
  let xmm3 := xmm4
  let xmm0 := ofWords fun _ => 3
  let xmm4 := paddw xmm4 xmm2
  let xmm3 := psubw xmm3 xmm2
  let xmm5 := xmm4
  let xmm4 := punpckl 8 xmm4 xmm3
  let xmm5 := punpckh 8 8 xmm5 xmm3
  let xmm1 := xmm5
  let xmm5 := paddw xmm5 xmm4
  let xmm4 := psubw xmm4 xmm1
  let xmm5 := paddw xmm5 xmm0
  let xmm4 := paddw xmm4 xmm0
  let xmm5 := psraw xmm5 3
  let xmm4 := psraw xmm4 3
  (xmm5, xmm4)

/-- The stores (src/decoder/iwalsh_sse2.asm:78-116): the words of `xmm5` go to the blocks 0, 4, 8, 12, 1, 5, 9, 13 and those of `xmm4` to 2, 6, 10, 14, 3, 7, 11, 15; a block is
32 bytes long and block `4 * row + column` is `output.at( row ).at( column )` (src/decoder/transform.cc:50-52). -/
def sseIwht (c : Fin 16 → Int) (column row : Fin 4) : Int :=
  let (xmm5, xmm4) := sseIwhtRegs c
  ((match column with
    | 0 => word xmm5 row
    | 1 => word xmm5 (4 + row)
    | 2 => word xmm4 row
    | 3 => word xmm4 (4 + row)) : BitVec 16).toInt

/-- The constants of src/decoder/idctllm_mmx.asm:288-295. -/
def sinConst : Reg := ofWords fun _ => 0x8A8C
def cosConst : Reg := ofWords fun _ => 0x4E7B
def fours : Reg := ofWords fun _ => 4

/-- One pass over four registers (src/decoder/idctllm_mmx.asm:67-100, and 122-158 with `bias`, which is `fours` there): `mm2`, `mm4`, `mm0`, `mm6`. -/
def mmxPass (bias mm0 mm1 mm2 mm3 : Reg) : Reg × Reg × Reg × Reg :=
  let mm0 := psubw mm0 mm2
  let mm2 := paddw mm2 mm2
  let mm5 := mm1
  let mm2 := paddw mm2 mm0
  let mm5 := pmulhw mm5 sinConst
  let mm5 := paddw mm5 mm1
  let mm7 := mm3
  let mm7 := pmulhw mm7 cosConst
  let mm7 := paddw mm7 mm3
  let mm7 := psubw mm7 mm5
  let mm5 := mm1
  let mm4 := mm3
  let mm5 := pmulhw mm5 cosConst
  let mm5 := paddw mm5 mm1
  let mm3 := pmulhw mm3 sinConst
  let mm3 := paddw mm3 mm4
  let mm3 := paddw mm3 mm5
  let mm0 := paddw mm0 bias
  let mm2 := paddw mm2 bias
  let mm6 := mm2
  let mm4 := mm0
  let mm2 := paddw mm2 mm3
  let mm4 := paddw mm4 mm7
  let mm0 := psubw mm0 mm7
  let mm6 := psubw mm6 mm3
  (mm2, mm4, mm0, mm6)

/-- The exchange of rows and columns (src/decoder/idctllm_mmx.asm:102-120, 166-182), in registers of 8 bytes: `mm0`, `mm1`, `mm2`, `mm5`. -/
def mmxTranspose (mm2 mm4 mm0 mm6 : Reg) : Reg × Reg × Reg × Reg :=
  let mm1 := mm2
  let mm3 := mm4
  let mm1 := punpckl 2 mm1 mm0
  let mm2 := punpckh 4 2 mm2 mm0
  let mm3 := punpckl 2 mm3 mm6
  let mm4 := punpckh 4 2 mm4 mm6
  let mm0 := mm1
  let mm5 := mm2
  let mm0 := punpckl 4 mm0 mm3
  let mm1 := punpckh 4 4 mm1 mm3
  let mm2 := punpckl 4 mm2 mm4
  let mm5 := punpckh 4 4 mm5 mm4
  (mm0, mm1, mm2, mm5)

/-- `vp8_short_idct4x4llm_mmx` (src/decoder/idctllm_mmx.asm:50-182): what is added to the four rows.  The first pass adds no constant. -/
def mmxIdctRegs (c : Fin 16 → Int) : Reg × Reg × Reg × Reg :=
  let (mm2, mm4, mm0, mm6) := mmxPass zero (loadWords c 0) (loadWords c 4) (loadWords c 8) (loadWords c 12)
  let (mm0, mm1, mm2, mm3) := mmxTranspose mm2 mm4 mm0 mm6
  let (mm2, mm4, mm0, mm6) := mmxPass fours mm0 mm1 mm2 mm3
  let mm2 := psraw mm2 3
  let mm0 := psraw mm0 3
  let mm4 := psraw mm4 3
  let mm6 := psraw mm6 3
  mmxTranspose mm2 mm4 mm0 mm6

/-- `movd`, `punpcklbw`, `paddsw`, `packuswb` (src/decoder/idctllm_mmx.asm:184-211): a row of pixels with these numbers added. -/
def mmxAddRow (residue pixels : Reg) : Reg :=
  let mm7 := zero
  let mm4 := movd pixels
  let mm4 := punpckl 1 mm4 mm7
  let mm0 := paddsw residue mm4
  packuswbMm mm0 mm7

/-- The four pixels of a row. -/
def squareRow (b : Square 4) (row : Fin 4) : Reg := fun j => if h : j < 4 then (b ⟨j, h⟩ row).toBitVec else 0

/-- `DCTCoefficients::idct_add` (src/decoder/transform.cc:91-98) of a block of pixels: the new block. -/
def sseIdctAdd (c : Fin 16 → Int) (old : Square 4) : Square 4 := fun column row =>
  let (mm0, mm1, mm2, mm5) := mmxIdctRegs c
  let m := match row with
    | 0 => mm0
    | 1 => mm1
    | 2 => mm2
    | 3 => mm5
  ⟨mmxAddRow m (squareRow old row) column⟩

/-- `vpx_subtract_block_sse2` for four rows of four pixels (src/decoder/subtract_sse2.asm:90-104, 117-127): a row of the differences. -/
def sseSubtractRow (block prediction : Square 4) (row : Fin 4) : Reg :=
  let m7 := zero
  let m0 := movd (squareRow block row)
  let m1 := movd (squareRow prediction row)
  let m0 := punpckl 1 m0 m7
  let m1 := punpckl 1 m1 m7
  psubw m0 m1

/-- Constants of src/decoder/dct_sse2.asm:374-432. -/
def dwords (x : Int) : Reg := ofDwords fun _ => BitVec.ofInt 32 x
def pairs (x y : Int) : Reg := ofWords fun i => if i % 2 = 0 then BitVec.ofInt 16 x else BitVec.ofInt 16 y
def cmpMask : Reg := ofWords fun i => if i < 4 then 1 else 0

/-- `vp8_short_fdct4x4_sse2` (src/decoder/dct_sse2.asm:69-91), of four rows of four numbers of 16 bits: `xmm0` with `b1`, `a1` of each row and `xmm3` with `c1`, `d1`. -/
def sseFdctSums (r0 r1 r2 r3 : Reg) : Reg × Reg :=
  let xmm0 := movq r0
  let xmm2 := movq r1
  let xmm1 := movq r2
  let xmm3 := movq r3
  let xmm0 := punpckl 8 xmm0 xmm2
  let xmm1 := punpckl 8 xmm1 xmm3
  let xmm2 := xmm0
  let xmm0 := punpckl 4 xmm0 xmm1
  let xmm2 := punpckh 8 4 xmm2 xmm1
  let xmm1 := xmm0
  let xmm0 := punpckl 4 xmm0 xmm2
  let xmm1 := pshufhw xmm1 0xb1
  let xmm2 := pshufhw xmm2 0xb1
  let xmm1 := punpckh 8 4 xmm1 xmm2
  let xmm3 := xmm0
  let xmm0 := paddw xmm0 xmm1
  let xmm3 := psubw xmm3 xmm1
  let xmm0 := psllw xmm0 3
  let xmm3 := psllw xmm3 3
  (xmm0, xmm3)

/-- The rest of the first pass (src/decoder/dct_sse2.asm:93-120): `xmm0` with two rows of coefficients and `xmm2` with two. -/
def sseFdctFirst (xmm0 xmm3 : Reg) : Reg × Reg :=
  let xmm1 := xmm0
  let xmm0 := pmaddwd xmm0 (pairs 1 1)
  let xmm1 := pmaddwd xmm1 (pairs 1 (-1))
  let xmm4 := xmm3
  let xmm3 := pmaddwd xmm3 (pairs 5352 2217)
  let xmm4 := pmaddwd xmm4 (pairs 2217 (-5352))
  let xmm3 := paddd xmm3 (dwords 14500)
  let xmm4 := paddd xmm4 (dwords 7500)
  let xmm3 := psrad xmm3 12
  let xmm4 := psrad xmm4 12
  let xmm0 := packssdw xmm0 xmm1
  let xmm3 := packssdw xmm3 xmm4
  let xmm2 := xmm0
  let xmm0 := punpckl 8 xmm0 xmm3
  let xmm2 := punpckh 8 8 xmm2 xmm3
  let xmm3 := xmm0
  let xmm0 := punpckl 2 xmm0 xmm2
  let xmm3 := punpckh 8 2 xmm3 xmm2
  let xmm2 := xmm0
  let xmm0 := punpckl 2 xmm0 xmm3
  let xmm2 := punpckh 8 2 xmm2 xmm3
  (xmm0, xmm2)

/-- The sums of the second pass (src/decoder/dct_sse2.asm:123-134): `xmm0` with `b1`, `a1` of each column, `xmm3` with `c1`, `d1`, and `xmm2` for the comparison. -/
def sseFdctColumns (xmm0 xmm2 : Reg) : Reg × Reg × Reg :=
  let xmm2 := pshufd xmm2 0x4e
  let xmm3 := xmm0
  let xmm0 := paddw xmm0 xmm2
  let xmm3 := psubw xmm3 xmm2
  let xmm0 := pshufd xmm0 0xd8
  let xmm2 := xmm3
  let xmm3 := pshufd xmm3 0xd8
  let xmm0 := pshuflw xmm0 0xd8
  let xmm3 := pshuflw xmm3 0xd8
  let xmm0 := pshufhw xmm0 0xd8
  let xmm3 := pshufhw xmm3 0xd8
  (xmm0, xmm3, xmm2)

/-- The rest of the second pass (src/decoder/dct_sse2.asm:122, 135-164): the two registers that are stored. -/
def sseFdctSecond (xmm0 xmm3 xmm2 : Reg) : Reg × Reg :=
  let xmm5 := dwords 7
  let xmm1 := xmm0
  let xmm0 := pmaddwd xmm0 (pairs 1 1)
  let xmm1 := pmaddwd xmm1 (pairs 1 (-1))
  let xmm4 := zero
  let xmm0 := paddd xmm0 xmm5
  let xmm1 := paddd xmm1 xmm5
  let xmm2 := pcmpeqw xmm2 xmm4
  let xmm0 := psrad xmm0 4
  let xmm1 := psrad xmm1 4
  let xmm2 := pandn xmm2 cmpMask
  let xmm4 := xmm3
  let xmm3 := pmaddwd xmm3 (pairs 5352 2217)
  let xmm4 := pmaddwd xmm4 (pairs 2217 (-5352))
  let xmm3 := paddd xmm3 (dwords 12000)
  let xmm4 := paddd xmm4 (dwords 51000)
  let xmm0 := packssdw xmm0 xmm1
  let xmm3 := psrad xmm3 16
  let xmm4 := psrad xmm4 16
  let xmm3 := packssdw xmm3 xmm4
  let xmm1 := xmm0
  let xmm3 := paddw xmm3 xmm2
  let xmm0 := punpckl 8 xmm0 xmm3
  let xmm1 := punpckh 8 8 xmm1 xmm3
  (xmm0, xmm1)

/-- `vp8_short_fdct4x4_sse2` (src/decoder/dct_sse2.asm:63-166). -/
def sseFdctRegs (r0 r1 r2 r3 : Reg) : Reg × Reg :=
  let (xmm0, xmm3) := sseFdctSums r0 r1 r2 r3
  let (xmm0, xmm2) := sseFdctFirst xmm0 xmm3
  let (xmm0, xmm3, xmm2) := sseFdctColumns xmm0 xmm2
  sseFdctSecond xmm0 xmm3 xmm2

/-- `DCTCoefficients::subtract_dct` (src/decoder/dct.cc:45-57). -/
def sseSubtractDct (block prediction : Square 4) (i : Fin 16) : Int :=
  let (xmm0, xmm1) := sseFdctRegs (sseSubtractRow block prediction 0) (sseSubtractRow block prediction 1) (sseSubtractRow block prediction 2) (sseSubtractRow block prediction 3)
  if i.val < 8 then (word xmm0 i).toInt else (word xmm1 (i.val - 8)).toInt

/-- `vp8_short_walsh4x4_sse2` (src/decoder/fwalsh_sse2.asm:30-64): the first pass.  The constants are those of lines 152-164. -/
def sseWhtFirst (input : Fin 16 → Int) : Reg × Reg :=
  let xmm0 := movq (loadWords input 0)
  let xmm1 := movq (loadWords input 4)
  let xmm2 := movq (loadWords input 8)
  let xmm3 := movq (loadWords input 12)
  let xmm0 := punpckl 2 xmm0 xmm1
  let xmm2 := punpckl 2 xmm2 xmm3
  let xmm1 := xmm0
  let xmm0 := punpckl 4 xmm0 xmm2
  let xmm1 := punpckh 8 4 xmm1 xmm2
  let xmm2 := xmm0
  let xmm0 := paddw xmm0 xmm1
  let xmm2 := psubw xmm2 xmm1
  let xmm0 := psllw xmm0 2
  let xmm2 := psllw xmm2 2
  let xmm1 := xmm0
  let xmm0 := punpckl 8 xmm0 xmm2
  let xmm1 := punpckh 8 8 xmm1 xmm2
  let xmm6 := movq xmm0
  let xmm7 := zero
  let xmm7 := pcmpeqw xmm7 xmm6
  let xmm7 := paddw xmm7 (pairs 1 1)
  let xmm2 := xmm0
  let xmm0 := paddw xmm0 xmm1
  let xmm2 := psubw xmm2 xmm1
  let xmm0 := paddw xmm0 xmm7
  (xmm0, xmm2)

/-- The sums of the second pass (src/decoder/fwalsh_sse2.asm:66-101): `xmm0`, `xmm1`, `xmm2`, `xmm3`. -/
def sseWhtSums (xmm0 xmm2 : Reg) : Reg × Reg × Reg × Reg :=
  let xmm3 := pshuflw xmm0 0xd8
  let xmm0 := pshufhw xmm3 0xd8
  let xmm3 := pshuflw xmm2 0xd8
  let xmm1 := pshufhw xmm3 0xd8
  let xmm2 := xmm0
  let xmm0 := pmaddwd xmm0 (pairs 1 1)
  let xmm2 := pmaddwd xmm2 (pairs 1 (-1))
  let xmm3 := xmm1
  let xmm1 := pmaddwd xmm1 (pairs 1 1)
  let xmm3 := pmaddwd xmm3 (pairs 1 (-1))
  let xmm4 := pshufd xmm0 0xd8
  let xmm5 := pshufd xmm2 0xd8
  let xmm6 := pshufd xmm1 0x72
  let xmm7 := pshufd xmm3 0x72
  let xmm0 := xmm4
  let xmm0 := punpckl 8 xmm0 xmm5
  let xmm4 := punpckh 8 8 xmm4 xmm5
  let xmm1 := xmm6
  let xmm1 := punpckl 8 xmm1 xmm7
  let xmm6 := punpckh 8 8 xmm6 xmm7
  let xmm2 := xmm0
  let xmm0 := paddd xmm0 xmm4
  let xmm2 := psubd xmm2 xmm4
  let xmm3 := xmm1
  let xmm1 := paddd xmm1 xmm6
  let xmm3 := psubd xmm3 xmm6
  (xmm0, xmm1, xmm2, xmm3)

/-- The rounding of one register (src/decoder/fwalsh_sse2.asm:103-129): `x + ( x < 0 ) + 3`, shifted; the instructions for the four registers are interleaved. -/
def sseWhtRound (xmm0 : Reg) : Reg :=
  let xmm4 := zero
  let xmm4 := pcmpgtd xmm4 xmm0
  let xmm4 := pand xmm4 (dwords 1)
  let xmm0 := paddd xmm0 xmm4
  let xmm0 := paddd xmm0 (dwords 3)
  psrad xmm0 3

/-- The end (src/decoder/fwalsh_sse2.asm:130-141): the two registers that are stored. -/
def sseWhtPack (xmm0 xmm1 xmm2 xmm3 : Reg) : Reg × Reg :=
  let xmm4 := xmm0
  let xmm0 := punpckl 8 xmm0 xmm1
  let xmm4 := punpckh 8 8 xmm4 xmm1
  let xmm5 := xmm2
  let xmm2 := punpckh 8 8 xmm2 xmm3
  let xmm5 := punpckl 8 xmm5 xmm3
  let xmm0 := packssdw xmm0 xmm4
  let xmm2 := packssdw xmm2 xmm5
  (xmm0, xmm2)

/-- `vp8_short_walsh4x4_sse2` (src/decoder/fwalsh_sse2.asm:14-150). -/
def sseWhtRegs (input : Fin 16 → Int) : Reg × Reg :=
  let (xmm0, xmm2) := sseWhtFirst input
  let (xmm0, xmm1, xmm2, xmm3) := sseWhtSums xmm0 xmm2
  sseWhtPack (sseWhtRound xmm0) (sseWhtRound xmm1) (sseWhtRound xmm2) (sseWhtRound xmm3)

/-- `DCTCoefficients::wht` (src/decoder/dct.cc:106-112). -/
def sseWht (input : Fin 16 → Int) (i : Fin 16) : Int :=
  let (xmm0, xmm2) := sseWhtRegs input
  if i.val < 8 then (word xmm0 i).toInt else (word xmm2 (i.val - 8)).toInt

end Alfalfa
