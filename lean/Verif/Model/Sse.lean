/-! The instructions of the vector unit that the code for processors with SSE2 and SSSE3 uses (src/decoder/*.asm and the intrinsics in src/encoder/variance_sse2.cc and
src/decoder/quantization.cc), after the manual of the processor.  They are part of what is trusted. -/

namespace Alfalfa.Sse

/-- A register of the vector unit: its bytes, the lowest first.  Only those below the size of the register (16, or 8 for the registers `mm`) have a meaning. -/
abbrev Reg := Nat → BitVec 8

/-- The 16-bit and 32-bit numbers in a register, the lowest first. -/
def word (r : Reg) (i : Nat) : BitVec 16 := r (2 * i + 1) ++ r (2 * i)
def dword (r : Reg) (i : Nat) : BitVec 32 := word r (2 * i + 1) ++ word r (2 * i)

/-- The register with these numbers. -/
def ofWords (w : Nat → BitVec 16) : Reg := fun j => (w (j / 2)).extractLsb' (8 * (j % 2)) 8
def ofDwords (d : Nat → BitVec 32) : Reg := ofWords fun j => (d (j / 2)).extractLsb' (16 * (j % 2)) 16

/-- The number nearest to `x` that fits in so many bits, with and without a sign. -/
def saturate (bits : Nat) (x : Int) : Int := max (-(2 ^ (bits - 1))) (min x (2 ^ (bits - 1) - 1))
def saturateU (bits : Nat) (x : Int) : Int := max 0 (min x (2 ^ bits - 1))

/-- `paddb`, `psubb`, `paddw`, `psubw`, `paddd`, `psubd`: sums and differences that wrap. -/
def paddb (a b : Reg) : Reg := fun j => a j + b j
def psubb (a b : Reg) : Reg := fun j => a j - b j
def paddw (a b : Reg) : Reg := ofWords fun i => word a i + word b i
def psubw (a b : Reg) : Reg := ofWords fun i => word a i - word b i
def paddd (a b : Reg) : Reg := ofDwords fun i => dword a i + dword b i
def psubd (a b : Reg) : Reg := ofDwords fun i => dword a i - dword b i

/-- `paddsw`, `paddsb`, `psubsb`: sums and differences of numbers with a sign, saturated; `paddusb`, `psubusb`: of numbers without. -/
def paddsw (a b : Reg) : Reg := ofWords fun i => BitVec.ofInt 16 (saturate 16 ((word a i).toInt + (word b i).toInt))
def paddsb (a b : Reg) : Reg := fun j => BitVec.ofInt 8 (saturate 8 ((a j).toInt + (b j).toInt))
def psubsb (a b : Reg) : Reg := fun j => BitVec.ofInt 8 (saturate 8 ((a j).toInt - (b j).toInt))
def paddusb (a b : Reg) : Reg := fun j => BitVec.ofInt 8 (saturateU 8 (((a j).toNat : Int) + (b j).toNat))
def psubusb (a b : Reg) : Reg := fun j => BitVec.ofInt 8 (saturateU 8 (((a j).toNat : Int) - (b j).toNat))

/-- `pmullw`, `pmulhw`: the lower and the upper half of the products of numbers with a sign. -/
def pmullw (a b : Reg) : Reg := ofWords fun i => word a i * word b i
def pmulhw (a b : Reg) : Reg := ofWords fun i => BitVec.ofInt 16 (((word a i).toInt * (word b i).toInt) >>> 16)

/-- `pmaddwd`: products of 16-bit numbers, two of them added. -/
def pmaddwd (a b : Reg) : Reg := ofDwords fun i =>
  BitVec.ofInt 32 ((word a (2 * i)).toInt * (word b (2 * i)).toInt + (word a (2 * i + 1)).toInt * (word b (2 * i + 1)).toInt)

/-- `pmaddubsw`: products of bytes without a sign and bytes with a sign, two of them added and saturated. -/
def pmaddubsw (a b : Reg) : Reg := ofWords fun i =>
  BitVec.ofInt 16 (saturate 16 ((a (2 * i)).toNat * (b (2 * i)).toInt + (a (2 * i + 1)).toNat * (b (2 * i + 1)).toInt))

/-- `psadbw`: the sums of the distances of eight bytes each, as 64-bit numbers. -/
def psadbw (a b : Reg) : Reg := ofDwords fun i =>
  if i % 2 = 0 then BitVec.ofNat 32 (((List.range 8).map fun j => ((a (4 * i + j)).toNat - (b (4 * i + j)).toNat) + ((b (4 * i + j)).toNat - (a (4 * i + j)).toNat)).sum) else 0

/-- `pavgb`: averages, rounded up. -/
def pavgb (a b : Reg) : Reg := fun j => BitVec.ofNat 8 (((a j).toNat + (b j).toNat + 1) / 2)

/-- `psllw`, `psraw`, `psrlw`, `psrad`: shifts in each number. -/
def psllw (a : Reg) (n : Nat) : Reg := ofWords fun i => word a i <<< n
def psraw (a : Reg) (n : Nat) : Reg := ofWords fun i => (word a i).sshiftRight n
def psrlw (a : Reg) (n : Nat) : Reg := ofWords fun i => word a i >>> n
def psrad (a : Reg) (n : Nat) : Reg := ofDwords fun i => (dword a i).sshiftRight n

/-- `pcmpeqb`, `pcmpeqw`, `pcmpgtb`, `pcmpgtd`: all bits one where the comparison (with signs) holds. -/
def pcmpeqb (a b : Reg) : Reg := fun j => if a j = b j then -1 else 0
def pcmpgtb (a b : Reg) : Reg := fun j => if (b j).toInt < (a j).toInt then -1 else 0
def pcmpeqw (a b : Reg) : Reg := ofWords fun i => if word a i = word b i then -1 else 0
def pcmpgtd (a b : Reg) : Reg := ofDwords fun i => if (dword b i).toInt < (dword a i).toInt then -1 else 0

/-- `pand`, `pandn` (of the complement of the first), `por`, `pxor`. -/
def pand (a b : Reg) : Reg := fun j => a j &&& b j
def pandn (a b : Reg) : Reg := fun j => ~~~ a j &&& b j
def por (a b : Reg) : Reg := fun j => a j ||| b j
def pxor (a b : Reg) : Reg := fun j => a j ^^^ b j

/-- `pxor r, r`. -/
def zero : Reg := fun _ => 0

/-- `packssdw`, `packuswb`, `packsswb` for registers of 16 bytes: the numbers of both, saturated. -/
def packssdw (a b : Reg) : Reg := ofWords fun i => BitVec.ofInt 16 (saturate 16 (if i < 4 then dword a i else dword b (i - 4)).toInt)
def packuswb (a b : Reg) : Reg := fun j => BitVec.ofInt 8 (saturateU 8 (if j < 8 then word a j else word b (j - 8)).toInt)
def packsswb (a b : Reg) : Reg := fun j => BitVec.ofInt 8 (saturate 8 (if j < 8 then word a j else word b (j - 8)).toInt)

/-- `packuswb` for registers of 8 bytes. -/
def packuswbMm (a b : Reg) : Reg := fun j => BitVec.ofInt 8 (saturateU 8 (if j < 4 then word a j else word b (j - 4)).toInt)

/-- `punpcklbw`, `punpcklwd`, `punpckldq`, `punpcklqdq`: the lower halves of two registers, in turns of `n` bytes (1, 2, 4, 8). -/
def punpckl (n : Nat) (a b : Reg) : Reg := fun j => if (j / n) % 2 = 0 then a (j / (2 * n) * n + j % n) else b (j / (2 * n) * n + j % n)

/-- `punpckhbw`, `punpckhwd`, `punpckhdq`, `punpckhqdq`: the upper halves; `half` is half the size of the registers. -/
def punpckh (half n : Nat) (a b : Reg) : Reg := fun j =>
  if (j / n) % 2 = 0 then a (half + (j / (2 * n) * n + j % n)) else b (half + (j / (2 * n) * n + j % n))

/-- `pshufd`: each 32-bit number is one of the four, named by two bits of the constant; `pshuflw` does this with the four lower 16-bit numbers, `pshufhw` with the upper. -/
def pshufd (a : Reg) (imm : Nat) : Reg := fun j => a (4 * (imm / 4 ^ (j / 4) % 4) + j % 4)
def pshuflw (a : Reg) (imm : Nat) : Reg := fun j => if j < 8 then a (2 * (imm / 4 ^ (j / 2) % 4) + j % 2) else a j
def pshufhw (a : Reg) (imm : Nat) : Reg := fun j => if j < 8 then a j else a (8 + (2 * (imm / 4 ^ ((j - 8) / 2) % 4) + j % 2))

/-- `pshufb`: each byte is the one that the second register names, or zero if its highest bit is set. -/
def pshufb (a m : Reg) : Reg := fun j => if (m j).toNat < 128 then a ((m j).toNat % 16) else 0

/-- `psrldq`, `pslldq`: the whole register by `n` bytes. -/
def psrldq (a : Reg) (n : Nat) : Reg := fun j => if j + n < 16 then a (j + n) else 0
def pslldq (a : Reg) (n : Nat) : Reg := fun j => if n ≤ j then a (j - n) else 0

/-- `movq`, `movd` into a register: the lower 8 or 4 bytes, and zeros. -/
def movq (a : Reg) : Reg := fun j => if j < 8 then a j else 0
def movd (a : Reg) : Reg := fun j => if j < 4 then a j else 0

end Alfalfa.Sse
