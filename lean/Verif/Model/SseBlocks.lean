import Verif.Model.Sse
import Verif.Model.Pixels

/-! How far a block is from a prediction: the portable functions and those for processors with SSE2 (src/encoder/variance.cc, src/encoder/variance_sse2.cc, src/decoder/sad_sse2.asm). -/

namespace Alfalfa

open Sse

/-! ### Portable -/

/-- `Encoder::sad` (src/encoder/variance.cc:34-47). -/
def sad {n : Nat} (block prediction : Square n) : BitVec 32 :=
  (List.finRange n).foldl (fun res i => (List.finRange n).foldl (fun res j =>
    res + BitVec.ofNat 32 (((block i j).toNat : Int) - (prediction i j).toNat).natAbs) res) 0

/-- `Encoder::sse` (src/encoder/variance.cc:49-63). -/
def sse {n : Nat} (block prediction : Square n) : BitVec 32 :=
  (List.finRange n).foldl (fun res i => (List.finRange n).foldl (fun res j =>
    res + BitVec.ofInt 32 ((((block i j).toNat : Int) - (prediction i j).toNat) * (((block i j).toNat : Int) - (prediction i j).toNat))) res) 0

/-- `Encoder::variance` (src/encoder/variance.cc:65-82); no sum of differences leaves the range of `int32_t`. -/
def variance {n : Nat} (block prediction : Square n) : BitVec 32 :=
  let s := (List.finRange n).foldl (fun s i => (List.finRange n).foldl (fun (s : BitVec 32 × Int) j =>
    let diff := ((block i j).toNat : Int) - (prediction i j).toNat
    (s.1 + BitVec.ofInt 32 (diff * diff), s.2 + diff)) s) (0, 0)
  BitVec.ofInt 32 (s.1.toNat - (s.2 * s.2).tdiv (n * n))

/-! ### With vectors -/

/-- A row of a block in a register: 16 bytes are loaded, or 8 or 4 and zeros (`_mm_loadu_si128`, `_mm_loadl_epi64`, `_mm_cvtsi32_si128`). -/
def rowOf {n : Nat} (b : Square n) (row : Nat) : Reg := fun j => if h : j < n ∧ row < n then (b ⟨j, h.1⟩ ⟨row, h.2⟩).toBitVec else 0

/-- The loop of `vpx_sad16x16_sse2` (src/decoder/sad_sse2.asm:142-165): `n` times four rows, from row `i` on; `m0` holds the sums. -/
def sadLoop (src ref : Nat → Reg) : Nat → Nat → Reg → Reg
  | 0, _, m0 => m0
  | n + 1, i, m0 =>
    let m1 := psadbw (ref i) (src i)
    let m2 := psadbw (ref (i + 1)) (src (i + 1))
    let m3 := psadbw (ref (i + 2)) (src (i + 2))
    let m4 := psadbw (ref (i + 3)) (src (i + 3))
    let m1 := paddd m1 m2
    let m3 := paddd m3 m4
    let m0 := paddd m0 m1
    let m0 := paddd m0 m3
    sadLoop src ref n (i + 4) m0

/-- `vpx_sad16x16_sse2` (src/decoder/sad_sse2.asm:137-171), called by `Encoder::sad` (src/encoder/variance.cc:90-95).  `movhlps` moves the upper half of `m0` down. -/
def sad16 (block prediction : Square 16) : BitVec 32 :=
  let m0 := sadLoop (rowOf block) (rowOf prediction) 4 0 zero
  let m1 := psrldq m0 8
  let m0 := paddd m0 m1
  dword m0 0

/-- The sum of the four numbers in `vsse` (src/encoder/variance_sse2.cc:60-65, 102-105, 145-148). -/
def sumDwords (v : Reg) : BitVec 32 :=
  let v := paddd v (psrldq v 8)
  let v := paddd v (psrldq v 4)
  dword v 0

/-- `READ64` (src/encoder/variance_sse2.cc:35-38): rows `i` and `i + 1`, byte by byte in turns. -/
def read64 (p : Nat → Reg) (i : Nat) : Reg := punpckl 1 (p i) (p (i + 1))

/-- `get4x4var_sse2` (src/encoder/variance_sse2.cc:40-66): the sum of the squares and the sum. -/
def get4x4var (src ref : Nat → Reg) : BitVec 32 × Int :=
  let src0 := punpckl 1 (read64 src 0) zero
  let src1 := punpckl 1 (read64 src 2) zero
  let ref0 := punpckl 1 (read64 ref 0) zero
  let ref1 := punpckl 1 (read64 ref 2) zero
  let diff0 := psubw src0 ref0
  let diff1 := psubw src1 ref1
  let vsum := paddw diff0 diff1
  let vsum := paddw vsum (psrldq vsum 8)
  let vsum := paddw vsum (psrldq vsum 4)
  let vsum := paddw vsum (psrldq vsum 2)
  let vsse := paddd (pmaddwd diff0 diff0) (pmaddwd diff1 diff1)
  (sumDwords vsse, (word vsum 0).toInt)

/-- One row of eight pixels (src/encoder/variance_sse2.cc:76-87): the difference. -/
def diff8 (src ref : Reg) : Reg := psubw (punpckl 1 src zero) (punpckl 1 ref zero)

/-- The loop of `vpx_get8x8var_sse2` (src/encoder/variance_sse2.cc:75-93): `n` times two rows, from row `i` on. -/
def get8x8loop (src ref : Nat → Reg) : Nat → Nat → Reg × Reg → Reg × Reg
  | 0, _, s => s
  | n + 1, i, (vsum, vsse) =>
    let diff0 := diff8 (src i) (ref i)
    let diff1 := diff8 (src (i + 1)) (ref (i + 1))
    let vsum := paddw vsum diff0
    let vsum := paddw vsum diff1
    let vsse := paddd vsse (pmaddwd diff0 diff0)
    let vsse := paddd vsse (pmaddwd diff1 diff1)
    get8x8loop src ref n (i + 2) (vsum, vsse)

/-- `vpx_get8x8var_sse2` (src/encoder/variance_sse2.cc:68-106). -/
def get8x8var (src ref : Nat → Reg) : BitVec 32 × Int :=
  let (vsum, vsse) := get8x8loop src ref 4 0 (zero, zero)
  let vsum := paddw vsum (psrldq vsum 8)
  let vsum := paddw vsum (psrldq vsum 4)
  let vsum := paddw vsum (psrldq vsum 2)
  (sumDwords vsse, (word vsum 0).toInt)

/-- The loop of `vpx_get16x16var_sse2` (src/encoder/variance_sse2.cc:116-135): `n` rows, from row `i` on. -/
def get16x16loop (src ref : Nat → Reg) : Nat → Nat → Reg × Reg → Reg × Reg
  | 0, _, s => s
  | n + 1, i, (vsum, vsse) =>
    let src0 := punpckl 1 (src i) zero
    let ref0 := punpckl 1 (ref i) zero
    let diff0 := psubw src0 ref0
    let src1 := punpckh 8 1 (src i) zero
    let ref1 := punpckh 8 1 (ref i) zero
    let diff1 := psubw src1 ref1
    let vsum := paddw vsum diff0
    let vsum := paddw vsum diff1
    let vsse := paddd vsse (pmaddwd diff0 diff0)
    let vsse := paddd vsse (pmaddwd diff1 diff1)
    get16x16loop src ref n (i + 1) (vsum, vsse)

/-- `vpx_get16x16var_sse2` (src/encoder/variance_sse2.cc:108-149). -/
def get16x16var (src ref : Nat → Reg) : BitVec 32 × Int :=
  let (vsum, vsse) := get16x16loop src ref 16 0 (zero, zero)
  let vsum := paddw vsum (psrldq vsum 8)
  let vsum := paddw vsum (psrldq vsum 4)
  (sumDwords vsse, (word vsum 0).toInt + (word vsum 1).toInt)

/-- `Encoder::sse` with SSE2 (src/encoder/variance.cc:98-132). -/
def sse4 (block prediction : Square 4) : BitVec 32 := (get4x4var (rowOf block) (rowOf prediction)).1
def sse8 (block prediction : Square 8) : BitVec 32 := (get8x8var (rowOf block) (rowOf prediction)).1
def sse16 (block prediction : Square 16) : BitVec 32 := (get16x16var (rowOf block) (rowOf prediction)).1

/-- `vpx_variance4x4_sse2`, `vpx_variance8x8_sse2`, `vpx_variance16x16_sse2` (src/encoder/variance_sse2.cc:172-178, 198-204, 224-230), called by `Encoder::variance`
(src/encoder/variance.cc:136-164). -/
def variance4 (block prediction : Square 4) : BitVec 32 :=
  let (sse, sum) := get4x4var (rowOf block) (rowOf prediction)
  sse - BitVec.ofInt 32 ((sum * sum) >>> 4)
def variance8 (block prediction : Square 8) : BitVec 32 :=
  let (sse, sum) := get8x8var (rowOf block) (rowOf prediction)
  sse - BitVec.ofInt 32 ((sum * sum) >>> 6)
def variance16 (block prediction : Square 16) : BitVec 32 :=
  let (sse, sum) := get16x16var (rowOf block) (rowOf prediction)
  sse - (BitVec.ofInt 32 (sum * sum)) >>> 8

end Alfalfa
