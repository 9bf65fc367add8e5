import Verif.Model.SseInter
import Verif.Model.LoopFilter

/-! The loop filter for processors with SSE2 (src/decoder/loopfilter_sse2.asm, src/decoder/loopfilter_block_sse2_x86_64.asm), and the parts of
src/decoder/loopfilter.cc for `HAVE_SSE2` and `ARCH_X86_64`.  Each register holds one of the pixels `p3`, `p2`, `p1`, `p0`, `q0`, `q1`, `q2`, `q3` of sixteen lines
across an edge.  Copies between registers and to the stack are not written out; a pixel that is loaded again before it is written is loaded once.  That `movdqa` fails
at addresses that are not multiples of 16, and that the functions for 16 by 16 pixels use the upper half of the register of an `int` argument, are not modelled. -/

namespace Alfalfa.Sse

/-- `pmaxub`: the greater of two unsigned bytes. -/
def pmaxub (a b : Reg) : Reg := fun j => if (a j).toNat < (b j).toNat then b j else a j

/-- `times 16 db c` (src/decoder/loopfilter_sse2.asm:1610-1640). -/
def times16 (c : Nat) : Reg := fun _ => BitVec.ofNat 8 c

/-- `pcmpeqb x, x`: all bits set (src/decoder/loopfilter_sse2.asm:170). -/
def ones : Reg := fun _ => -1

/-- `movlps` and `movhps` (src/decoder/loopfilter_sse2.asm:37-45): the lower half from one place and the upper half from another. -/
def lowHigh (a b : Reg) : Reg := fun j => if j < 8 then a j else b (j - 8)

/-- `LFH_FILTER_AND_HEV_MASK` (src/decoder/loopfilter_sse2.asm:28-174): the registers `xmm1` (mask) and `xmm4` (high edge variance). -/
def lfhMasks (v : Fin 8 → Reg) (limit blimit thresh : Reg) : Reg × Reg :=
  let p3 := v 0; let p2 := v 1; let p1 := v 2; let p0 := v 3
  let q0 := v 4; let q1 := v 5; let q2 := v 6; let q3 := v 7
  let xmm1 := psubusb q2 q3
  let xmm2 := psubusb q3 q2
  let xmm4 := psubusb q1 q2
  let xmm6 := psubusb q2 q1
  let xmm4 := por xmm4 xmm6
  let xmm1 := por xmm1 xmm2
  let xmm1 := pmaxub xmm1 xmm4
  let xmm5 := psubusb q0 q1
  let xmm3 := psubusb q1 q0
  let t0 := por xmm5 xmm3
  let xmm1 := pmaxub xmm1 t0
  let xmm4 := psubusb p2 p3
  let xmm2 := psubusb p3 p2
  let xmm3 := psubusb p1 p2
  let xmm1 := pmaxub xmm1 xmm4
  let xmm5 := psubusb p2 p1
  let xmm1 := pmaxub xmm1 xmm2
  let xmm1 := pmaxub xmm1 xmm5
  let xmm1 := pmaxub xmm1 xmm3
  let xmm4 := psubusb p0 p1
  let xmm6 := psubusb p1 p0
  let t1 := por xmm6 xmm4
  let xmm1 := pmaxub xmm1 t1
  let xmm3 := psubusb q1 p1
  let xmm2 := psubusb p1 q1
  let xmm1 := psubusb xmm1 limit
  let xmm2 := por xmm2 xmm3
  let xmm2 := pand xmm2 (times16 0xfe)
  let xmm2 := psrlw xmm2 1
  let xmm5 := psubusb p0 q0
  let xmm3 := psubusb q0 p0
  let xmm5 := por xmm5 xmm3
  let xmm5 := paddusb xmm5 xmm5
  let xmm5 := paddusb xmm5 xmm2
  let xmm5 := psubusb xmm5 blimit
  let xmm4 := psubusb t0 thresh
  let xmm3 := psubusb t1 thresh
  let xmm1 := por xmm1 xmm5
  let xmm4 := paddb xmm4 xmm3
  let xmm4 := pcmpeqb xmm4 xmm5
  let xmm1 := pcmpeqb xmm1 zero
  let xmm4 := pxor xmm4 ones
  (xmm1, xmm4)

/-- `LFV_FILTER_MASK_HEV_MASK` (src/decoder/loopfilter_sse2.asm:776-872): the registers `xmm1` (mask) and `xmm4` (high edge variance). -/
def lfvMasks (v : Fin 8 → Reg) (limit blimit thresh : Reg) : Reg × Reg :=
  let p3 := v 0; let p2 := v 1; let p1 := v 2; let p0 := v 3
  let q0 := v 4; let q1 := v 5; let q2 := v 6; let q3 := v 7
  let xmm0 := psubusb q2 q3
  let xmm7 := psubusb q3 q2
  let xmm7 := por xmm7 xmm0
  let xmm4 := psubusb q1 q2
  let xmm6 := psubusb q2 q1
  let xmm6 := por xmm6 xmm4
  let xmm0 := psubusb p2 p3
  let xmm2 := psubusb p3 p2
  let xmm0 := por xmm0 xmm2
  let xmm0 := pmaxub xmm0 xmm7
  let xmm5 := psubusb p1 p2
  let xmm1 := psubusb p2 p1
  let xmm7 := psubusb p0 p1
  let xmm1 := por xmm1 xmm5
  let xmm0 := pmaxub xmm0 xmm6
  let xmm0 := pmaxub xmm0 xmm1
  let xmm2 := psubusb p1 p0
  let xmm2 := por xmm2 xmm7
  let xmm0 := pmaxub xmm0 xmm2
  let xmm5 := psubusb q0 q1
  let xmm7 := psubusb q1 q0
  let xmm7 := por xmm7 xmm5
  let xmm0 := pmaxub xmm0 xmm7
  let xmm0 := psubusb xmm0 limit
  let xmm5 := psubusb q1 p1
  let xmm1 := psubusb p1 q1
  let xmm5 := por xmm5 xmm1
  let xmm5 := pand xmm5 (times16 0xfe)
  let xmm1 := psubusb p0 q0
  let xmm5 := psrlw xmm5 1
  let xmm6 := psubusb q0 p0
  let xmm1 := por xmm1 xmm6
  let xmm1 := paddusb xmm1 xmm1
  let xmm1 := paddusb xmm1 xmm5
  let xmm2 := psubusb xmm2 thresh
  let xmm7 := psubusb xmm7 thresh
  let xmm1 := psubusb xmm1 blimit
  let xmm2 := por xmm2 xmm7
  let xmm1 := por xmm1 xmm0
  let xmm2 := pcmpeqb xmm2 xmm0
  let xmm1 := pcmpeqb xmm1 zero
  let xmm4 := pxor ones xmm2
  (xmm1, xmm4)

/-- `B_FILTER` (src/decoder/loopfilter_sse2.asm:176-277): the new `p1`, `p0`, `q0`, `q1`.  `xmm5` is what that register holds before. -/
def bFilter (p1 p0 q0 q1 mask hev xmm5 : Reg) : Fin 4 → Reg :=
  let t80 := times16 0x80
  let xmm7 := pxor q1 t80
  let xmm2 := psubsb (pxor p1 t80) xmm7
  let xmm6 := pxor p0 t80
  let xmm2 := pand xmm2 hev
  let xmm3 := pxor q0 t80
  let xmm0 := psubsb xmm3 xmm6
  let xmm2 := paddsb xmm2 xmm0
  let xmm2 := paddsb xmm2 xmm0
  let xmm2 := paddsb xmm2 xmm0
  let xmm1 := pand mask xmm2
  let xmm2 := xmm1
  let xmm1 := paddsb xmm1 (times16 4)
  let xmm2 := paddsb xmm2 (times16 3)
  let xmm5 := punpckh 8 1 xmm5 xmm2
  let xmm2 := punpckl 1 xmm2 xmm2
  let xmm0 := punpckl 1 xmm0 xmm1
  let xmm5 := psraw xmm5 11
  let xmm1 := punpckh 8 1 xmm1 xmm1
  let xmm2 := psraw xmm2 11
  let xmm2 := packsswb xmm2 xmm5
  let xmm0 := psraw xmm0 11
  let xmm1 := psraw xmm1 11
  let xmm5 := xmm0
  let xmm0 := packsswb xmm0 xmm1
  let xmm6 := paddsb xmm6 xmm2
  let xmm2 := ofWords fun _ => 1
  let xmm5 := paddsw xmm5 xmm2
  let xmm1 := paddsw xmm1 xmm2
  let xmm5 := psraw xmm5 1
  let xmm1 := psraw xmm1 1
  let xmm5 := packsswb xmm5 xmm1
  let xmm4 := pandn hev xmm5
  let xmm6 := pxor xmm6 t80
  let xmm1 := pxor p1 t80
  let xmm3 := psubsb xmm3 xmm0
  let xmm1 := paddsb xmm1 xmm4
  let xmm3 := pxor xmm3 t80
  let xmm1 := pxor xmm1 t80
  let xmm7 := psubsb xmm7 xmm4
  let xmm7 := pxor xmm7 t80
  ![xmm1, xmm6, xmm3, xmm7]

/-- `MB_FILTER_AND_WRITEBACK` (src/decoder/loopfilter_sse2.asm:379-553) without the writes: the new `p2`, `p1`, `p0`, `q0`, `q1`, `q2`. -/
def mbFilter (p2 p1 p0 q0 q1 q2 mask hev : Reg) : Fin 6 → Reg :=
  let t80 := times16 0x80
  let xmm7 := pxor q1 t80
  let xmm6 := pxor p0 t80
  let xmm3 := pxor q0 t80
  let xmm2 := psubsb (pxor p1 t80) xmm7
  let xmm0 := psubsb xmm3 xmm6
  let xmm2 := paddsb xmm2 xmm0
  let xmm2 := paddsb xmm2 xmm0
  let xmm2 := paddsb xmm2 xmm0
  let xmm1 := pand mask xmm2
  let xmm2 := pand xmm1 hev
  let xmm4 := pandn hev xmm1
  let xmm0 := punpckl 1 zero xmm4
  let xmm1 := punpckh 8 1 zero xmm4
  let xmm5 := xmm2
  let xmm4 := ofWords fun _ => 0x0900
  let xmm5 := paddsb xmm5 (times16 3)
  let xmm2 := paddsb xmm2 (times16 4)
  let xmm1 := pmulhw xmm1 xmm4
  let xmm0 := pmulhw xmm0 xmm4
  let xmm7 := punpckh 8 1 xmm7 xmm5
  let xmm5 := punpckl 1 xmm5 xmm5
  let xmm7 := psraw xmm7 11
  let xmm5 := psraw xmm5 11
  let xmm4 := punpckh 8 1 xmm4 xmm2
  let xmm2 := punpckl 1 xmm2 xmm2
  let xmm4 := psraw xmm4 11
  let xmm5 := packsswb xmm5 xmm7
  let xmm2 := psraw xmm2 11
  let xmm2 := packsswb xmm2 xmm4
  let xmm6 := paddsb xmm6 xmm5
  let xmm3 := psubsb xmm3 xmm2
  let xmm7 := xmm1
  let xmm4 := ofWords fun _ => 0x003f
  let xmm5 := xmm0
  let xmm2 := xmm5
  let xmm0 := paddw xmm0 xmm4
  let xmm1 := paddw xmm1 xmm4
  let xmm4 := xmm7
  let xmm5 := paddw xmm5 xmm5
  let xmm7 := paddw xmm7 xmm7
  let xmm5 := paddw xmm5 xmm0
  let xmm7 := paddw xmm7 xmm1
  let xmm2 := paddw xmm2 xmm0
  let xmm0 := psraw xmm0 7
  let xmm4 := paddw xmm4 xmm1
  let xmm1 := psraw xmm1 7
  let xmm2 := psraw xmm2 7
  let xmm0 := packsswb xmm0 xmm1
  let xmm4 := psraw xmm4 7
  let xmm5 := psraw xmm5 7
  let xmm7 := psraw xmm7 7
  let xmm5 := packsswb xmm5 xmm7
  let xmm2 := packsswb xmm2 xmm4
  let xmm1 := pxor q1 t80
  let xmm4 := pxor p1 t80
  let xmm3 := psubsb xmm3 xmm5
  let xmm6 := paddsb xmm6 xmm5
  let xmm1 := psubsb xmm1 xmm2
  let xmm4 := paddsb xmm4 xmm2
  let xmm1 := pxor xmm1 t80
  let xmm4 := pxor xmm4 t80
  let xmm2 := paddsb (pxor p2 t80) xmm0
  let xmm5 := psubsb (pxor q2 t80) xmm0
  let xmm2 := pxor xmm2 t80
  let xmm5 := pxor xmm5 t80
  let xmm3 := pxor xmm3 t80
  let xmm6 := pxor xmm6 t80
  ![xmm2, xmm4, xmm6, xmm3, xmm1, xmm5]

/-- `LF_ABS` (src/decoder/loopfilter_block_sse2_x86_64.asm:12-21). -/
def lfAbs (a b : Reg) : Reg := por (psubusb a b) (psubusb b a)

/-- `LF_FILTER_HEV_MASK` (src/decoder/loopfilter_block_sse2_x86_64.asm:23-59) with eight arguments, if `ninth` is `none`, or nine: the mask, the inverse of the mask
for high edge variance, and what is left in the register of `q2`. -/
def lfMasks (v : Fin 8 → Reg) (ninth : Option Reg) (limit blimit thresh : Reg) : Reg × Reg × Reg :=
  let r1 := lfAbs (v 0) (v 1)
  let r2 := lfAbs (v 1) (v 2)
  let r1 := pmaxub r1 r2
  let scratch2 := lfAbs (v 2) (v 3)
  let r4 := lfAbs (v 3) (v 4)
  let r5 := lfAbs (v 4) (v 5)
  let r5 := pmaxub r5 (ninth.getD scratch2)
  let r1 := pmaxub r1 r5
  let r3 := lfAbs (v 2) (v 5)
  let r6 := lfAbs (v 5) (v 6)
  let r1 := pmaxub r1 r6
  let r7 := lfAbs (v 6) (v 7)
  let r1 := pmaxub r1 r7
  let r4 := paddusb r4 r4
  let r3 := pand r3 (times16 0xfe)
  let r3 := psrlw r3 1
  let r4 := paddusb r4 r3
  let r1 := psubusb r1 limit
  let r4 := psubusb r4 blimit
  let r1 := por r1 r4
  let r1 := pcmpeqb r1 zero
  let r5 := psubusb r5 thresh
  let r5 := pcmpeqb r5 zero
  (r1, r5, r7)

/-- The arithmetic shift of bytes by 3 (src/decoder/loopfilter_block_sse2_x86_64.asm:89-94,100-105). -/
def lfShift3 (a : Reg) : Reg := por (pand (psrlw a 3) (times16 0x1f)) (pand (pcmpgtb zero a) (times16 0xe0))

/-- The arithmetic shift of bytes by 1 (src/decoder/loopfilter_block_sse2_x86_64.asm:112-117). -/
def lfShift1 (a : Reg) : Reg := por (pand (psrlw a 1) (times16 0x7f)) (pand (pcmpgtb zero a) (times16 0x80))

/-- `LF_FILTER` (src/decoder/loopfilter_block_sse2_x86_64.asm:61-125): the new `p1`, `p0`, `q0`, `q1`; `noHev` is the inverse of the mask. -/
def lfFilter (p1 p0 q0 q1 mask noHev : Reg) : Fin 4 → Reg :=
  let t80 := times16 0x80
  let r1 := pxor p1 t80
  let r4 := pxor q1 t80
  let scratch1 := psubsb r1 r4
  let scratch2 := pandn noHev scratch1
  let r2 := pxor p0 t80
  let r3 := pxor q0 t80
  let scratch1 := psubsb r3 r2
  let scratch2 := paddsb scratch2 scratch1
  let scratch2 := paddsb scratch2 scratch1
  let scratch2 := paddsb scratch2 scratch1
  let r5 := pand mask scratch2
  let scratch2 := r5
  let r5 := paddsb r5 (times16 4)
  let scratch2 := paddsb scratch2 (times16 3)
  let r5 := lfShift3 r5
  let r3 := psubsb r3 r5
  let r3 := pxor r3 t80
  let scratch2 := lfShift3 scratch2
  let r2 := paddsb r2 scratch2
  let r2 := pxor r2 t80
  let r5 := paddsb r5 (times16 1)
  let r5 := lfShift1 r5
  let r5 := pand r5 noHev
  let r4 := psubsb r4 r5
  let r4 := pxor r4 t80
  let r1 := paddsb r1 r5
  let r1 := pxor r1 t80
  ![r1, r2, r3, r4]

/-- One of the three filters inside a block (src/decoder/loopfilter_block_sse2_x86_64.asm:193-257,539-596): lines `k` to `k + 7` of sixteen. -/
def lfStep (i : Fin 16 → Reg) (k : Nat) (hk : k + 7 < 16) (ninth : Option Reg) (limit blimit thresh : Reg) : (Fin 16 → Reg) × Reg :=
  let line := fun n : Fin 8 => i ⟨k + n.val, by omega⟩
  let m := lfMasks line ninth limit blimit thresh
  let o := lfFilter (line 2) (line 3) (line 4) (line 5) m.1 m.2.1
  (fun n => if n.val = k + 2 then o 0 else if n.val = k + 3 then o 1 else if n.val = k + 4 then o 2 else if n.val = k + 5 then o 3 else i n, m.2.2)

/-- The three filters (src/decoder/loopfilter_block_sse2_x86_64.asm:193-257,539-596); what one leaves of `q2` and `q3` is a part of the next mask. -/
def lfSteps (i : Fin 16 → Reg) (limit blimit thresh : Reg) : Fin 16 → Reg :=
  let a := lfStep i 0 (by decide) none limit blimit thresh
  let b := lfStep a.1 4 (by decide) (some a.2) limit blimit thresh
  let c := lfStep b.1 8 (by decide) (some b.2) limit blimit thresh
  c.1

/-- Eight lines of sixteen bytes in turns (src/decoder/loopfilter_block_sse2_x86_64.asm:363-419,431-487,600-656,668-722): the registers
`xmm0`, `xmm7`, `xmm4`, `xmm3`, `xmm1`, `xmm8`, `xmm2`, `xmm5`. -/
def gather8 (s : Fin 8 → Reg) : Fin 8 → Reg :=
  let xmm0 := punpckl 1 (s 0) (s 1)
  let xmm1 := punpckh 8 1 (s 0) (s 1)
  let xmm2 := punpckl 1 (s 2) (s 3)
  let xmm3 := punpckh 8 1 (s 2) (s 3)
  let xmm4 := punpckh 8 2 xmm0 xmm2
  let xmm0 := punpckl 2 xmm0 xmm2
  let xmm2 := punpckh 8 2 xmm1 xmm3
  let xmm1 := punpckl 2 xmm1 xmm3
  let xmm3 := punpckl 1 (s 4) (s 5)
  let xmm5 := punpckh 8 1 (s 4) (s 5)
  let xmm6 := punpckl 1 (s 6) (s 7)
  let xmm7 := punpckh 8 1 (s 6) (s 7)
  let xmm8 := punpckh 8 2 xmm3 xmm6
  let xmm3 := punpckl 2 xmm3 xmm6
  let xmm6 := punpckh 8 2 xmm5 xmm7
  let xmm5 := punpckl 2 xmm5 xmm7
  let xmm7 := punpckh 8 4 xmm0 xmm3
  let xmm0 := punpckl 4 xmm0 xmm3
  let xmm3 := punpckh 8 4 xmm4 xmm8
  let xmm4 := punpckl 4 xmm4 xmm8
  let xmm8 := punpckh 8 4 xmm1 xmm5
  let xmm1 := punpckl 4 xmm1 xmm5
  let xmm5 := punpckh 8 4 xmm2 xmm6
  let xmm2 := punpckl 4 xmm2 xmm6
  ![xmm0, xmm7, xmm4, xmm3, xmm1, xmm8, xmm2, xmm5]

/-- The transposition of sixteen lines (src/decoder/loopfilter_block_sse2_x86_64.asm:363-537,600-775): the lines 8 to 15, the lines 0 to 7, and both together. -/
def transpose16 (s : Fin 16 → Reg) : Fin 16 → Reg := fun n =>
  let i := gather8 fun k => s ⟨8 + k.val, by omega⟩
  let x := gather8 fun k => s ⟨k.val, by omega⟩
  let h : n.val / 2 < 8 := by omega
  if n.val % 2 = 0 then punpckl 8 (x ⟨n.val / 2, h⟩) (i ⟨n.val / 2, h⟩) else punpckh 8 8 (x ⟨n.val / 2, h⟩) (i ⟨n.val / 2, h⟩)

/-- `TRANSPOSE_16X8` (src/decoder/loopfilter_sse2.asm:651-774) without the loads: sixteen lines of eight bytes become `p3` to `q3`. -/
def transpose16x8 (s : Fin 16 → Reg) : Fin 8 → Reg :=
  let xmm4 := punpckl 1 (s 0) (s 1)
  let xmm3 := xmm4
  let xmm0 := punpckl 1 (s 2) (s 3)
  let xmm5 := punpckl 1 (s 4) (s 5)
  let xmm6 := xmm5
  let xmm7 := punpckl 1 (s 6) (s 7)
  let xmm5 := punpckl 2 xmm5 xmm7
  let xmm6 := punpckh 8 2 xmm6 xmm7
  let xmm3 := punpckl 2 xmm3 xmm0
  let xmm2 := xmm3
  let xmm4 := punpckh 8 2 xmm4 xmm0
  let xmm7 := xmm4
  let xmm3 := punpckh 8 4 xmm3 xmm5
  let xmm7 := punpckh 8 4 xmm7 xmm6
  let xmm4 := punpckl 4 xmm4 xmm6
  let t0 := punpckl 4 xmm2 xmm5
  let xmm2 := punpckl 1 (s 8) (s 9)
  let xmm0 := punpckl 1 (s 10) (s 11)
  let xmm1 := punpckl 1 (s 12) (s 13)
  let xmm5 := punpckl 1 (s 14) (s 15)
  let xmm6 := punpckh 8 2 xmm1 xmm5
  let xmm1 := punpckl 2 xmm1 xmm5
  let xmm5 := punpckl 2 xmm2 xmm0
  let xmm2 := punpckh 8 2 xmm2 xmm0
  let xmm0 := punpckl 4 xmm5 xmm1
  let xmm5 := punpckh 8 4 xmm5 xmm1
  let xmm1 := punpckl 4 xmm2 xmm6
  let xmm2 := punpckh 8 4 xmm2 xmm6
  let xmm6 := punpckl 8 xmm7 xmm2
  let xmm7 := punpckh 8 8 xmm7 xmm2
  let xmm2 := punpckl 8 xmm3 xmm5
  let xmm3 := punpckh 8 8 xmm3 xmm5
  let p1 := xmm2
  let xmm5 := punpckh 8 8 xmm4 xmm1
  let xmm4 := punpckl 8 xmm4 xmm1
  let xmm1 := punpckh 8 8 t0 xmm0
  let xmm2 := punpckl 8 t0 xmm0
  ![xmm2, xmm1, p1, xmm3, xmm4, xmm5, xmm6, xmm7]

/-- `BV_TRANSPOSE` (src/decoder/loopfilter_sse2.asm:874-902): the registers `xmm2`, `xmm6`, `xmm1`, `xmm5`. -/
def bvTranspose (xmm1 xmm6 xmm3 xmm7 : Reg) : Fin 4 → Reg :=
  let xmm2 := punpckl 1 xmm1 xmm6
  let xmm1 := punpckh 8 1 xmm1 xmm6
  let xmm4 := punpckl 1 xmm3 xmm7
  let xmm3 := punpckh 8 1 xmm3 xmm7
  let xmm6 := punpckh 8 2 xmm2 xmm4
  let xmm2 := punpckl 2 xmm2 xmm4
  let xmm5 := punpckh 8 2 xmm1 xmm3
  let xmm1 := punpckl 2 xmm1 xmm3
  ![xmm2, xmm6, xmm1, xmm5]

/-- `BV_WRITEBACK` (src/decoder/loopfilter_sse2.asm:904-919): the four bytes of each of eight lines, in the order of the lines. -/
def bvLines (r1 r2 : Reg) : Fin 8 → Reg :=
  ![r1, psrldq r1 4, psrldq (psrldq r1 4) 4, psrldq (psrldq (psrldq r1 4) 4) 4, r2, psrldq r2 4, psrldq (psrldq r2 4) 4, psrldq (psrldq (psrldq r2 4) 4) 4]

/-- `movhps` into memory (for example src/decoder/loopfilter_sse2.asm:1095): the upper eight bytes. -/
def high (a : Reg) : Reg := fun j => a (8 + j)

/-- `MBV_TRANSPOSE`, `MBV_WRITEBACK_1`, `MBV_WRITEBACK_2` (src/decoder/loopfilter_sse2.asm:1050-1134) without the writes: `p3` to `q3` become sixteen lines of eight
bytes. -/
def mbvLines (v : Fin 8 → Reg) : Fin 16 → Reg :=
  let p3 := v 0; let xmm2 := v 1; let p1 := v 2; let p0 := v 3
  let q0 := v 4; let q1 := v 5; let xmm5 := v 6; let q3 := v 7
  let xmm0 := punpckl 1 p3 xmm2
  let xmm1 := punpckh 8 1 p3 xmm2
  let xmm7 := punpckl 1 p1 p0
  let xmm6 := punpckh 8 1 p1 p0
  let xmm3 := punpckh 8 2 xmm0 xmm7
  let xmm0 := punpckl 2 xmm0 xmm7
  let xmm4 := punpckh 8 2 xmm1 xmm6
  let xmm1 := punpckl 2 xmm1 xmm6
  let xmm7 := punpckl 1 q0 q1
  let xmm6 := punpckl 1 xmm5 q3
  let xmm2 := punpckh 8 2 xmm7 xmm6
  let xmm7 := punpckl 2 xmm7 xmm6
  let xmm6 := punpckh 8 4 xmm0 xmm7
  let xmm0 := punpckl 4 xmm0 xmm7
  let s01 := xmm0
  let s23 := xmm6
  let s45 := punpckl 4 xmm3 xmm2
  let s67 := punpckh 8 4 xmm3 xmm2
  let xmm7 := punpckh 8 1 q0 q1
  let xmm5 := punpckh 8 1 xmm5 q3
  let xmm0 := punpckl 2 xmm7 xmm5
  let xmm7 := punpckh 8 2 xmm7 xmm5
  let xmm5 := punpckh 8 4 xmm1 xmm0
  let xmm1 := punpckl 4 xmm1 xmm0
  let sab := xmm5
  let s89 := xmm1
  let scd := punpckl 4 xmm4 xmm7
  let sef := punpckh 8 4 xmm4 xmm7
  ![s01, high s01, s23, high s23, s45, high s45, s67, high s67, s89, high s89, sab, high sab, scd, high scd, sef, high sef]

end Alfalfa.Sse

namespace Alfalfa
open Sse

/-- `movdqa`, `movq`, `movd` into memory (for example src/decoder/loopfilter_sse2.asm:273): the first `n` bytes of a register. -/
def writes (p : Plane) (start : Int) (n : Nat) (r : Reg) : Option Plane :=
  (List.range n).foldlM (fun p (k : Nat) => p.store (start + k) ⟨r k⟩) p

/-- The vectors that the filter is given (src/decoder/loopfilter.cc:99-104,123). -/
def LoopFilter.limits (f : LoopFilter) : Reg := times16 f.interior
def LoopFilter.macroblockLimits (f : LoopFilter) : Reg := times16 f.macroblockLimit
def LoopFilter.subblockLimits (f : LoopFilter) : Reg := times16 f.subblockLimit
def LoopFilter.thresholds (f : LoopFilter) : Reg := times16 f.hevThreshold

/-- The masks and the filter across the edges of macroblocks: what the pixels `p3` to `q3` become. -/
def mbAcross (masks : Reg × Reg) (v : Fin 8 → Reg) : Fin 8 → Reg :=
  let o := mbFilter (v 1) (v 2) (v 3) (v 4) (v 5) (v 6) masks.1 masks.2
  ![v 0, o 0, o 1, o 2, o 3, o 4, o 5, v 7]

/-- The masks and the filter across the edges of subblocks. -/
def bAcross (masks : Reg × Reg) (xmm5 : Reg) (v : Fin 8 → Reg) : Fin 8 → Reg :=
  let o := bFilter (v 2) (v 3) (v 4) (v 5) masks.1 masks.2 xmm5
  ![v 0, v 1, o 0, o 1, o 2, o 3, v 6, v 7]

/-- `vp8_mbloop_filter_horizontal_edge_sse2` (src/decoder/loopfilter_sse2.asm:564-599). -/
def sseMbHorizontal (f : LoopFilter) (src stride : Int) (p : Plane) : Option Plane := do
  let rsi := src
  let rdi := src + stride
  let v ← allSome ![reads p.load (rsi + 4 * -stride) 16, reads p.load (rdi + 4 * -stride) 16, reads p.load (rsi + 2 * -stride) 16, reads p.load (rsi + -stride) 16,
    reads p.load rsi 16, reads p.load (rsi + stride) 16, reads p.load (rsi + 2 * stride) 16, reads p.load (rdi + 2 * stride) 16]
  let o := mbAcross (lfhMasks v f.limits f.macroblockLimits f.thresholds) v
  let p ← writes p (rdi + stride) 16 (o 6)
  let p ← writes p rdi 16 (o 5)
  let p ← writes p rsi 16 (o 4)
  let p ← writes p (rsi + -stride) 16 (o 3)
  let p ← writes p (rsi + -stride * 2) 16 (o 2)
  writes p (rdi + -stride * 4) 16 (o 1)

/-- The loads of `LFH_FILTER_AND_HEV_MASK 0` from one of the two planes (src/decoder/loopfilter_sse2.asm:36-51,81-93,112-113); `rsi` points to the second line below the edge. -/
def uvLoads (p : Plane) (rsi stride : Int) : Option (Fin 8 → Reg) :=
  let up := rsi + -stride * 4
  allSome ![reads p.load (up + -stride) 8, reads p.load up 8, reads p.load (up + stride) 8, reads p.load (up + stride * 2) 8,
    reads p.load (rsi + -stride) 8, reads p.load rsi 8, reads p.load (rsi + stride) 8, reads p.load (rsi + stride * 2) 8]

/-- `vp8_mbloop_filter_horizontal_edge_uv_sse2` (src/decoder/loopfilter_sse2.asm:610-648). -/
def sseMbHorizontalUv (f : LoopFilter) (src src' stride : Int) (u v : Plane) : Option (Plane × Plane) := do
  let a ← uvLoads u (src + stride) stride
  let b ← uvLoads v (src' + stride) stride
  let x := fun i => lowHigh (a i) (b i)
  let o := mbAcross (lfhMasks x f.limits f.macroblockLimits f.thresholds) x
  let back := fun (p : Plane) (rsi : Int) (part : Reg → Reg) => do
    let p ← writes p rsi 8 (part (o 3))
    let p ← writes p (rsi + stride) 8 (part (o 4))
    let p ← writes p (rsi + stride * 2) 8 (part (o 5))
    let p ← writes p (rsi + -stride) 8 (part (o 2))
    let p ← writes p (rsi + -stride * 2) 8 (part (o 1))
    writes p (rsi + (stride + stride * 2)) 8 (part (o 6))
  let u ← back u (src + stride + -stride * 4 + stride * 2) id
  let v ← back v (src' + stride + -stride * 4 + stride * 2) high
  pure (u, v)

/-- `vp8_loop_filter_horizontal_edge_uv_sse2` (src/decoder/loopfilter_sse2.asm:337-377). -/
def sseSbHorizontalUv (f : LoopFilter) (src src' stride : Int) (xmm5 : Reg) (u v : Plane) : Option (Plane × Plane) := do
  let a ← uvLoads u (src + stride) stride
  let b ← uvLoads v (src' + stride) stride
  let x := fun i => lowHigh (a i) (b i)
  let o := bAcross (lfhMasks x f.limits f.subblockLimits f.thresholds) xmm5 x
  let back := fun (p : Plane) (rsi : Int) (part : Reg → Reg) => do
    let p ← writes p rsi 8 (part (o 3))
    let p ← writes p (rsi + -stride) 8 (part (o 2))
    let p ← writes p (rsi + stride) 8 (part (o 4))
    writes p (rsi + stride * 2) 8 (part (o 5))
  let u ← back u (src + stride + -stride * 4 + stride * 2) id
  let v ← back v (src' + stride + -stride * 4 + stride * 2) high
  pure (u, v)

/-- The offsets of eight lines in `TRANSPOSE_16X8` (src/decoder/loopfilter_sse2.asm:651-667): `rdi` is the second line, `rcx` is three lines. -/
def lineOffsets (stride : Int) : Fin 8 → Int :=
  ![0, stride, 2 * stride, stride + 2 * stride, 4 * stride, stride + 4 * stride, 2 * (stride + 2 * stride), stride + 2 * (stride + 2 * stride)]

/-- The loads of eight lines in `TRANSPOSE_16X8` (src/decoder/loopfilter_sse2.asm:651-667,705-723). -/
def lineLoads (p : Plane) (rsi stride : Int) : Option (Fin 8 → Reg) := allSome fun i => reads p.load (rsi + lineOffsets stride i) 8

/-- Sixteen lines from two times eight. -/
def bothLines (a b : Fin 8 → Reg) : Fin 16 → Reg := fun i => if h : i.val < 8 then a ⟨i.val, h⟩ else b ⟨i.val - 8, by omega⟩

/-- The writes of eight lines (src/decoder/loopfilter_sse2.asm:1088-1134,904-919); their order does not follow the code for `BV_WRITEBACK`, where the lines alternate. -/
def lineWrites (rsi stride : Int) (n : Nat) (o : Fin 8 → Reg) (p : Plane) : Option Plane :=
  (List.finRange 8).foldlM (fun p i => writes p (rsi + lineOffsets stride i) n (o i)) p

/-- `vp8_mbloop_filter_vertical_edge_sse2` (src/decoder/loopfilter_sse2.asm:1145-1201). -/
def sseMbVertical (f : LoopFilter) (src stride : Int) (p : Plane) : Option Plane := do
  let rsi := src - 4
  let a ← lineLoads p rsi stride
  let b ← lineLoads p (rsi + stride * 8) stride
  let x := transpose16x8 (bothLines a b)
  let s := mbvLines (mbAcross (lfvMasks x f.limits f.macroblockLimits f.thresholds) x)
  let rsi := rsi + stride * 8 + -stride * 8
  let p ← lineWrites rsi stride 8 (fun i => s ⟨i.val, by omega⟩) p
  lineWrites (rsi + stride * 8) stride 8 (fun i => s ⟨8 + i.val, by omega⟩) p

/-- `vp8_mbloop_filter_vertical_edge_uv_sse2` (src/decoder/loopfilter_sse2.asm:1212-1265). -/
def sseMbVerticalUv (f : LoopFilter) (src src' stride : Int) (u v : Plane) : Option (Plane × Plane) := do
  let a ← lineLoads u (src - 4) stride
  let b ← lineLoads v (src' - 4) stride
  let x := transpose16x8 (bothLines a b)
  let s := mbvLines (mbAcross (lfvMasks x f.limits f.macroblockLimits f.thresholds) x)
  let u ← lineWrites (src - 4) stride 8 (fun i => s ⟨i.val, by omega⟩) u
  let v ← lineWrites (src' - 4) stride 8 (fun i => s ⟨8 + i.val, by omega⟩) v
  pure (u, v)

/-- `vp8_loop_filter_vertical_edge_uv_sse2` (src/decoder/loopfilter_sse2.asm:996-1048). -/
def sseSbVerticalUv (f : LoopFilter) (src src' stride : Int) (xmm5 : Reg) (u v : Plane) : Option (Plane × Plane) := do
  let a ← lineLoads u (src - 4) stride
  let b ← lineLoads v (src' - 4) stride
  let x := transpose16x8 (bothLines a b)
  let o := bAcross (lfvMasks x f.limits f.subblockLimits f.thresholds) xmm5 x
  let t := bvTranspose (o 2) (o 3) (o 4) (o 5)
  let v ← lineWrites (src' - 4 + 2) stride 4 (bvLines (t 2) (t 3)) v
  let u ← lineWrites (src - 4 + 2) stride 4 (bvLines (t 0) (t 1)) u
  pure (u, v)

/-- The lines of a block of 16 by 16 pixels (src/decoder/loopfilter_block_sse2_x86_64.asm:164-190,316-361); `spp` is the second line. -/
def blockOffsets (stride : Int) : Fin 16 → Int :=
  let stride3 := stride + 2 * stride
  let stride5 := stride3 + 2 * stride
  let stride7 := stride3 + 4 * stride
  ![0, stride, 2 * stride, stride + 2 * stride, 4 * stride, stride + 4 * stride, 2 * stride3, stride + 2 * stride3,
    8 * stride, stride + 8 * stride, 2 * stride5, stride + 2 * stride5, 4 * stride3, stride + 4 * stride3, 2 * stride7, stride + 2 * stride7]

/-- `vp8_loop_filter_bh_y_sse2` (src/decoder/loopfilter_block_sse2_x86_64.asm:127-267); the lines 2 to 13 are written once, after the last filter. -/
def sseSbHorizontal (f : LoopFilter) (src stride : Int) (p : Plane) : Option Plane := do
  let i ← allSome fun k => reads p.load (src + blockOffsets stride k) 16
  let o := lfSteps i f.limits f.subblockLimits f.thresholds
  (List.finRange 12).foldlM (fun p k => writes p (src + blockOffsets stride ⟨2 + k.val, by omega⟩) 16 (o ⟨2 + k.val, by omega⟩)) p

/-- `vp8_loop_filter_bv_y_sse2` (src/decoder/loopfilter_block_sse2_x86_64.asm:269-788). -/
def sseSbVertical (f : LoopFilter) (src stride : Int) (p : Plane) : Option Plane := do
  let s ← allSome fun k => reads p.load (src + blockOffsets stride k) 16
  let o := transpose16 (lfSteps (transpose16 s) f.limits f.subblockLimits f.thresholds)
  (List.finRange 16).foldlM (fun p k => writes p (src + blockOffsets stride k) 16 (o k)) p

/-- The addresses `y_ptr`, `u_ptr`, `v_ptr` and the strides, and one function for the luminance and one for both chrominance planes: the frame of the four functions in
src/decoder/loopfilter.cc:188-203,248-263,304-325,370-391. -/
def sseOnPlanes (y : Int → Int → Plane → Option Plane) (uv : Int → Int → Int → Plane → Plane → Option (Plane × Plane)) (column row : Nat) (r : Raster) :
    Option Raster := do
  let yPtr ← blockAddress r.y 16 (16 * column) (16 * row) 0 0
  let uPtr ← blockAddress r.u 8 (8 * column) (8 * row) 0 0
  let vPtr ← blockAddress r.v 8 (8 * column) (8 * row) 0 0
  let newY ← y yPtr r.y.width r.y
  let newUv ← uv uPtr vPtr r.u.width r.u r.v
  pure { r with y := newY, u := newUv.1, v := newUv.2 }

/-- `NormalLoopFilter::filter` (src/decoder/loopfilter.cc:133-154) with the functions for SSE; `xmm5` is what that register holds when `B_FILTER` uses it. -/
def LoopFilter.sseApply (xmm5 : Reg) (f : LoopFilter) (skipSubblockEdges : Bool) (column row : Nat) (r : Raster) : Option Raster := do
  let r ← stepIf (decide (column > 0)) (sseOnPlanes (sseMbVertical f) (sseMbVerticalUv f) column row) r
  let r ← stepIf (!skipSubblockEdges) (sseOnPlanes (sseSbVertical f)
    (fun u v stride => sseSbVerticalUv f (u + 4) (v + 4) stride xmm5) column row) r
  let r ← stepIf (decide (row > 0)) (sseOnPlanes (sseMbHorizontal f) (sseMbHorizontalUv f) column row) r
  stepIf (!skipSubblockEdges) (sseOnPlanes (sseSbHorizontal f)
    (fun u v stride => sseSbHorizontalUv f (u + 4 * stride) (v + 4 * stride) stride xmm5) column row) r

end Alfalfa
