/-! The arithmetic coder as the format describes it (RFC 6386, section 7), with exact numbers of any size in place of registers.
Nothing here comes from the model of the code. -/

namespace Alfalfa.ArithmeticSpec

/-- A string of bytes as a number, the first byte highest. -/
def number : List UInt8 → Nat
  | [] => 0
  | x :: xs => x.toNat * 256 ^ xs.length + number xs

/-- A range is split in two for each bit; the lower part is for 0 and has about `p` of 256 parts of it. -/
def split (range p : Nat) : Nat := 1 + (range - 1) * p / 256

/-- How often a range is to be doubled to be 128 or more. -/
def doublings (range : Nat) : Nat := 7 - range.log2

/-- Reading: `value` says where in the range the string is, in parts of `unit` for each 1 of the range. -/
def decode (unit : Nat) : Nat → Nat → List UInt8 → List Bool
  | _, _, [] => []
  | value, range, p :: ps =>
    let s := split range p.toNat
    if s * unit ≤ value then
      true :: decode unit ((value - s * unit) * 2 ^ doublings (range - s)) ((range - s) * 2 ^ doublings (range - s)) ps
    else
      false :: decode unit (value * 2 ^ doublings s) (s * 2 ^ doublings s) ps

/-- What a string of bytes says, asked with these probabilities: the range is 255 at first and the first byte is the whole part of the
value. -/
def decodeBytes (bytes : List UInt8) (ps : List UInt8) : List Bool := decode (256 ^ bytes.length) (256 * number bytes) 255 ps

/-- Writing: the lower end of the range, the range, and how often both have been doubled. -/
def encode : Nat × Nat × Nat → List (Bool × UInt8) → Nat × Nat × Nat
  | r, [] => r
  | (low, range, scale), (x, p) :: s =>
    let c := split range p.toNat
    let low := if x then low + c else low
    let range := if x then range - c else c
    encode (low * 2 ^ doublings range, range * 2 ^ doublings range, scale + doublings range) s

end Alfalfa.ArithmeticSpec
