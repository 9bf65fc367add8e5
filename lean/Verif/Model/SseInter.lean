import Verif.Model.Sse
import Verif.Model.Inter

/-! The six-tap filters for processors with SSSE3 (src/decoder/subpixel_ssse3.asm), and inter prediction with them (the parts of src/decoder/prediction.cc
for `HAVE_SSE2`).  Addresses are offsets in the storage of the picture; a read outside of the storage gives `none`.  That `movdqa` fails at addresses that are not
multiples of 16 is not modelled. -/

namespace Alfalfa

open Sse

/-- `movd`, `movq` and `movdqu` from memory (for example src/decoder/subpixel_ssse3.asm:74,322,782): `n` bytes at `start`, and zeros. -/
def reads (load : Int → Option UInt8) (start : Int) (n : Nat) : Option Reg := do
  let x ← allSome fun k : Fin n => load (start + k.val)
  pure fun j => if h : j < n then (x ⟨j, h⟩).toBitVec else 0

/-- `times 8 db a, b` (src/decoder/subpixel_ssse3.asm:1472). -/
def times8 (a b : Int) : Reg := fun j => BitVec.ofInt 8 (if j % 2 = 0 then a else b)

/-- `k0_k5`, `k1_k3`, `k2_k4` (src/decoder/subpixel_ssse3.asm:1471-1497). -/
def k0k5 (i : Fin 8) : Reg := times8 (![0, 0, 2, 0, 3, 0, 1, 0] i) (![0, 0, 1, 0, 3, 0, 2, 0] i)
def k1k3 (i : Fin 8) : Reg := times8 (![0, -6, -11, -9, -16, -6, -8, -1] i) (![0, 12, 36, 50, 77, 93, 108, 123] i)
def k2k4 (i : Fin 8) : Reg := times8 (![128, 123, 108, 93, 77, 50, 36, 12] i) (![0, -1, -8, -6, -16, -9, -11, -6] i)

/-- `rd`: `times 8 dw 0x40` (src/decoder/subpixel_ssse3.asm:1467-1468). -/
def rd : Reg := ofWords fun _ => 0x40

/-- A constant of 16 bytes (src/decoder/subpixel_ssse3.asm:1453). -/
def constant (l : List Nat) : Reg := fun j => BitVec.ofNat 8 (l.getD j 0)

/-- `shuf1b`, `shuf2b`, `shuf3b`, `shuf2bfrom1`, `shuf3bfrom1` (src/decoder/subpixel_ssse3.asm:1452-1464). -/
def shuf1b : Reg := constant [0, 5, 1, 6, 2, 7, 3, 8, 4, 9, 5, 10, 6, 11, 7, 12]
def shuf2b : Reg := constant [2, 4, 3, 5, 4, 6, 5, 7, 6, 8, 7, 9, 8, 10, 9, 11]
def shuf3b : Reg := constant [1, 3, 2, 4, 3, 5, 4, 6, 5, 7, 6, 8, 7, 9, 8, 10]
def shuf2bfrom1 : Reg := constant [4, 8, 6, 1, 8, 3, 1, 5, 3, 7, 5, 9, 7, 11, 9, 13]
def shuf3bfrom1 : Reg := constant [2, 6, 4, 8, 6, 1, 8, 3, 1, 5, 3, 7, 5, 9, 7, 11]

/-- `cmp esi, DWORD PTR [rax]` with zero in `esi` (src/decoder/subpixel_ssse3.asm:57-58): the filter has only four taps. -/
def fourTaps (i : Fin 8) : Bool := dword (k0k5 i) 0 == 0

/-- `vp8_filter_block1d8_h6_ssse3` (src/decoder/subpixel_ssse3.asm:38-161), one turn of the loop: the eight bytes that are written. -/
def h8 (load : Int → Option UInt8) (rsi : Int) (i : Fin 8) : Option Reg := do
  let xmm0 ← reads load (rsi - 2) 8
  let xmm2 ← reads load (rsi + 3) 8
  let x := punpckl 1 xmm0 xmm2
  if fourTaps i then
    let xmm0 := pmaddubsw (pshufb x shuf2bfrom1) (k2k4 i)
    let xmm2 := pmaddubsw (pshufb x shuf3bfrom1) (k1k3 i)
    let xmm0 := psraw (paddsw (paddsw xmm0 rd) xmm2) 7
    pure (packuswb xmm0 xmm0)
  else
    let xmm0 := pmaddubsw x (k0k5 i)
    let xmm1 := pmaddubsw (pshufb x shuf2bfrom1) (k2k4 i)
    let xmm2 := pmaddubsw (pshufb x shuf3bfrom1) (k1k3 i)
    let xmm0 := psraw (paddsw (paddsw xmm0 xmm1) (paddsw xmm2 rd)) 7
    pure (packuswb xmm0 xmm0)

/-- The half of a turn of the loop of `vp8_filter_block1d16_h6_ssse3` that makes eight bytes from the two registers read (src/decoder/subpixel_ssse3.asm:210-257). -/
def h16Half (xmm0 xmm3 : Reg) (i : Fin 8) : Reg :=
  let x := punpckl 1 xmm0 xmm3
  let xmm0 := pmaddubsw x (k0k5 i)
  let xmm1 := pmaddubsw (pshufb x shuf2bfrom1) (k2k4 i)
  let xmm2 := pmaddubsw (pshufb x shuf3bfrom1) (k1k3 i)
  let xmm0 := psraw (paddsw (paddsw (paddsw xmm0 xmm1) xmm2) rd) 7
  packuswb xmm0 xmm0

/-- `vp8_filter_block1d16_h6_ssse3` (src/decoder/subpixel_ssse3.asm:181-267), one turn of the loop: the sixteen bytes that are written. -/
def h16 (load : Int → Option UInt8) (rsi : Int) (i : Fin 8) : Option Reg := do
  let xmm0 ← reads load (rsi - 2) 8
  let xmm3 ← reads load (rsi + 3) 8
  let xmm3' ← reads load (rsi + 6) 8
  let xmm7 ← reads load (rsi + 11) 8
  pure (punpckl 8 (h16Half xmm0 xmm3 i) (h16Half xmm3' xmm7 i))

/-- `vp8_filter_block1d4_h6_ssse3` (src/decoder/subpixel_ssse3.asm:288-395), one turn of the loop: the four bytes that are written.  Sixteen bytes are read, of which
nine are needed. -/
def h4 (load : Int → Option UInt8) (rsi : Int) (i : Fin 8) : Option Reg := do
  let x ← reads load (rsi - 2) 16
  if fourTaps i then
    let xmm1 := pmaddubsw (pshufb x shuf2b) (k2k4 i)
    let xmm2 := pmaddubsw (pshufb x shuf3b) (k1k3 i)
    let xmm1 := psraw (paddsw (paddsw xmm1 rd) xmm2) 7
    pure (packuswb xmm1 xmm1)
  else
    let xmm0 := pmaddubsw (pshufb x shuf1b) (k0k5 i)
    let xmm1 := pmaddubsw (pshufb x shuf2b) (k2k4 i)
    let xmm2 := pmaddubsw (pshufb x shuf3b) (k1k3 i)
    let xmm0 := psraw (paddsw (paddsw (paddsw xmm0 xmm1) rd) xmm2) 7
    pure (packuswb xmm0 xmm0)

/-- Half a turn of the loop with six taps of `vp8_filter_block1d16_v6_ssse3` (src/decoder/subpixel_ssse3.asm:454-512) and a turn of that of
`vp8_filter_block1d8_v6_ssse3` (lines 642-677): eight bytes from six lines of eight. -/
def v6Eight (load : Int → Option UInt8) (rsi pitch : Int) (i : Fin 8) : Option Reg := do
  let a ← reads load rsi 8
  let b ← reads load (rsi + pitch) 8
  let c ← reads load (rsi + pitch * 2) 8
  let d ← reads load (rsi + pitch + pitch * 2) 8
  let e ← reads load (rsi + pitch * 4) 8
  let f ← reads load (rsi + pitch + pitch * 4) 8
  let xmm2 := pmaddubsw (punpckl 1 b d) (k1k3 i)
  let xmm3 := pmaddubsw (punpckl 1 c e) (k2k4 i)
  let xmm1 := pmaddubsw (punpckl 1 a f) (k0k5 i)
  let xmm2 := psraw (paddsw (paddsw (paddsw xmm2 xmm3) xmm1) rd) 7
  pure (packuswb xmm2 xmm2)

/-- The four lines in the middle, paired: the registers that the loops with four taps start with (src/decoder/subpixel_ssse3.asm:539-545,699-705,838-844). -/
def v4Pairs (load : Int → Option UInt8) (rsi pitch : Int) (n : Nat) : Option (Reg × Reg) := do
  let b ← reads load (rsi + pitch) n
  let c ← reads load (rsi + pitch * 2) n
  let d ← reads load (rsi + pitch + pitch * 2) n
  let e ← reads load (rsi + pitch * 4) n
  pure (punpckl 1 b d, punpckl 1 c e)

/-- `vp8_filter_block1d16_v6_ssse3` (src/decoder/subpixel_ssse3.asm:418-585), one turn of the loop: the sixteen bytes that are written.  The two halves of the loop with four taps
add in different orders. -/
def v16 (load : Int → Option UInt8) (rsi pitch : Int) (i : Fin 8) : Option Reg := do
  if fourTaps i then
    let (bd, ce) ← v4Pairs load rsi pitch 8
    let (bd', ce') ← v4Pairs load (rsi + 8) pitch 8
    let xmm2 := psraw (paddsw (paddsw (pmaddubsw bd (k1k3 i)) rd) (pmaddubsw ce (k2k4 i))) 7
    let xmm5 := psraw (paddsw (paddsw (pmaddubsw bd' (k1k3 i)) (pmaddubsw ce' (k2k4 i))) rd) 7
    pure (punpckl 8 (packuswb xmm2 xmm2) (packuswb xmm5 xmm5))
  else
    let low ← v6Eight load rsi pitch i
    let high ← v6Eight load (rsi + 8) pitch i
    pure (fun j => if j < 8 then low j else high (j - 8))

/-- `vp8_filter_block1d8_v6_ssse3` (src/decoder/subpixel_ssse3.asm:606-726), one turn of the loop. -/
def v8 (load : Int → Option UInt8) (rsi pitch : Int) (i : Fin 8) : Option Reg := do
  if fourTaps i then
    let (bd, ce) ← v4Pairs load rsi pitch 8
    let xmm2 := psraw (paddsw (paddsw (pmaddubsw bd (k1k3 i)) (pmaddubsw ce (k2k4 i))) rd) 7
    pure (packuswb xmm2 xmm2)
  else v6Eight load rsi pitch i

/-- `vp8_filter_block1d4_v6_ssse3` (src/decoder/subpixel_ssse3.asm:746-865), one turn of the loop, with the registers `mm`. -/
def v4 (load : Int → Option UInt8) (rsi pitch : Int) (i : Fin 8) : Option Reg := do
  let (bd, ce) ← v4Pairs load rsi pitch 4
  if fourTaps i then
    let mm2 := psraw (paddsw (paddsw (pmaddubsw bd (k1k3 i)) (pmaddubsw ce (k2k4 i))) rd) 7
    pure (packuswbMm mm2 mm2)
  else
    let a ← reads load rsi 4
    let f ← reads load (rsi + pitch + pitch * 4) 4
    let mm2 := psraw (paddsw (paddsw (paddsw (pmaddubsw bd (k1k3 i)) (pmaddubsw ce (k2k4 i))) (pmaddubsw (punpckl 1 a f) (k0k5 i))) rd) 7
    pure (packuswbMm mm2 mm2)

/-- `sse_horiz_inter_predict` and `sse_vert_inter_predict` (src/decoder/prediction.cc:738-809): there are three sizes. -/
def sseHoriz (n : Nat) : (Int → Option UInt8) → Int → Fin 8 → Option Reg := if n = 4 then h4 else if n = 8 then h8 else h16
def sseVert (n : Nat) : (Int → Option UInt8) → Int → Int → Fin 8 → Option Reg := if n = 4 then v4 else if n = 8 then v8 else v16

/-- What is read from `intermediate` (src/decoder/prediction.cc:837-838): `n + 5` lines of `n` bytes have been written from its first byte on. -/
def intermediateLoad (n : Nat) (lines : Fin (n + 5) → Reg) (i : Int) : Option UInt8 :=
  if h : 0 ≤ i ∧ i.toNat / n < n + 5 then some ⟨lines ⟨i.toNat / n, h.2⟩ (i.toNat % n)⟩ else none

/-- The three cases of the filters from a source at `src` (src/decoder/prediction.cc:706-727,842-859). -/
def sseFilters (n : Nat) (load : Int → Option UInt8) (stride src : Int) (mx my : Fin 8) : Option (Square n) := do
  if mx ≠ 0 then
    if my ≠ 0 then
      let lines ← allSome fun r : Fin (n + 5) => sseHoriz n load (src - 2 * stride + r.val * stride) mx
      let out ← allSome fun r : Fin n => sseVert n (intermediateLoad n lines) (r.val * n) n my
      pure fun c r => ⟨out r c⟩
    else
      let out ← allSome fun r : Fin n => sseHoriz n load (src + r.val * stride) mx
      pure fun c r => ⟨out r c⟩
  else
    let out ← allSome fun r : Fin n => sseVert n load (src - 2 * stride + r.val * stride) stride my
    pure fun c r => ⟨out r c⟩

/-- `unsafe_inter_predict` with `HAVE_SSE2` (src/decoder/prediction.cc:813-859). -/
def sseInterPredict (n : Nat) (reference : Plane) (stride : Nat) (mv : MotionVector) (sourceColumn sourceRow : Int) : Option (Square n) :=
  if stride ≠ reference.width then none
  else if mv.x % 8 = 0 ∧ mv.y % 8 = 0 then do
    let src ← reference.address sourceColumn.toNat sourceRow.toNat
    allSome fun c : Fin n => allSome fun r : Fin n => reference.load (src + r.val * stride + c.val)
  else do
    let src ← reference.address sourceColumn.toNat sourceRow.toNat
    sseFilters n reference.load stride src (fraction mv.x) (fraction mv.y)

/-- `inter_predict( mv, reference )` (src/decoder/prediction.cc:655-674) with `HAVE_SSE2`: the blocks near the edges are predicted by the portable code. -/
def sseInterSquare (n : Nat) (reference : Plane) (stride : Nat) (mv : MotionVector) (column row : Nat) : Option (Square n) :=
  let sourceColumn : Int := (column * n : Nat) + mv.x >>> 3
  let sourceRow : Int := (row * n : Nat) + mv.y >>> 3
  if sourceColumn - 2 < 0 ∨ sourceColumn + n + 3 > reference.width ∨ sourceRow - 2 < 0 ∨ sourceRow + n + 3 > reference.height then
    safeInterPredict n (edgeExtended reference) mv sourceColumn sourceRow
  else sseInterPredict n reference stride mv sourceColumn sourceRow

/-- `inter_predict( mv, SafeRaster )` (src/decoder/prediction.cc:680-728), which the encoder uses.  The rows of the padded copy follow each other in memory. -/
def sseSafePredict (n : Nat) (rows : List (List UInt8)) (mv : MotionVector) (column row : Nat) : Option (Square n) := do
  let sourceColumn : Int := (column * n : Nat) + mv.x >>> 3
  let sourceRow : Int := (row * n : Nat) + mv.y >>> 3
  let stride := (rows.headD []).length
  let memory : Int → Option UInt8 := fun i => if 0 ≤ i then rows.flatten[i.toNat]? else none
  let src : Int := (marginWidth + sourceColumn) + (marginWidth + sourceRow) * stride
  if mv.x % 8 = 0 ∧ mv.y % 8 = 0 then
    allSome fun c : Fin n => allSome fun r : Fin n => memory (src + r.val * stride + c.val)
  else sseFilters n memory stride src (fraction mv.x) (fraction mv.y)

end Alfalfa
