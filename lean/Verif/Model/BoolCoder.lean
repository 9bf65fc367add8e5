/-
Model of the VP8 boolean entropy coder.

Simplifications, global to this file:
* `uint32_t` registers are `Nat`s reduced `% 2^32` after every operation that can leave the type;
* `std::vector<uint8_t>` / `Chunk` are `List UInt8`;
* an operation whose C++ counterpart would be undefined behaviour, or would fail an
  `assert`, returns `none`.
-/
namespace Alfalfa

/-- `typedef uint8_t Probability` (src/decoder/bool_decoder.hh:40). -/
abbrev Prob := UInt8

/-- `vp8_norm[256]` (src/encoder/bool_encoder.hh:39-56): number of left shifts that bring a range
back to at least 128. -/
def vp8Norm : Array Nat := #[
    0, 7, 6, 6, 5, 5, 5, 5, 4, 4, 4, 4, 4, 4, 4, 4,
    3, 3, 3, 3, 3, 3, 3, 3, 3, 3, 3, 3, 3, 3, 3, 3,
    2, 2, 2, 2, 2, 2, 2, 2, 2, 2, 2, 2, 2, 2, 2, 2,
    2, 2, 2, 2, 2, 2, 2, 2, 2, 2, 2, 2, 2, 2, 2, 2,
    1, 1, 1, 1, 1, 1, 1, 1, 1, 1, 1, 1, 1, 1, 1, 1,
    1, 1, 1, 1, 1, 1, 1, 1, 1, 1, 1, 1, 1, 1, 1, 1,
    1, 1, 1, 1, 1, 1, 1, 1, 1, 1, 1, 1, 1, 1, 1, 1,
    1, 1, 1, 1, 1, 1, 1, 1, 1, 1, 1, 1, 1, 1, 1, 1,
    0, 0, 0, 0, 0, 0, 0, 0, 0, 0, 0, 0, 0, 0, 0, 0,
    0, 0, 0, 0, 0, 0, 0, 0, 0, 0, 0, 0, 0, 0, 0, 0,
    0, 0, 0, 0, 0, 0, 0, 0, 0, 0, 0, 0, 0, 0, 0, 0,
    0, 0, 0, 0, 0, 0, 0, 0, 0, 0, 0, 0, 0, 0, 0, 0,
    0, 0, 0, 0, 0, 0, 0, 0, 0, 0, 0, 0, 0, 0, 0, 0,
    0, 0, 0, 0, 0, 0, 0, 0, 0, 0, 0, 0, 0, 0, 0, 0,
    0, 0, 0, 0, 0, 0, 0, 0, 0, 0, 0, 0, 0, 0, 0, 0,
    0, 0, 0, 0, 0, 0, 0, 0, 0, 0, 0, 0, 0, 0, 0, 0]

/-- `class BoolEncoder`, its data members (src/encoder/bool_encoder.hh:60-66).
`bit_count_` is a (signed, on the supported platforms) `char`. -/
structure BoolEncoder where
  output   : List UInt8 := []
  range    : Nat := 255
  bottom   : Nat := 0
  bitCount : Int := -24
deriving Repr, DecidableEq

/-- The loop of `BoolEncoder::add_one_to_output` (src/encoder/bool_encoder.hh:68-76) on the
output read from its last byte backwards.  Running off the front (`assert` at line 73,
or `*--begin()`) is `none`. -/
def addOneRev : List UInt8 → Option (List UInt8)
  | [] => none
  | b :: rest =>
    if b = 255 then (addOneRev rest).map (0 :: ·)
    else some ((b + 1) :: rest)

/-- `BoolEncoder::add_one_to_output` (src/encoder/bool_encoder.hh:68-76). -/
def addOneToOutput (out : List UInt8) : Option (List UInt8) :=
  (addOneRev out.reverse).map List.reverse

/-- The split point shared by `BoolEncoder::put` (src/encoder/bool_encoder.hh:112) and
`BoolDecoder::get` (src/decoder/bool_decoder.hh:84). -/
def splitPoint (range : Nat) (p : Prob) : Nat := 1 + (((range - 1) * p.toNat) >>> 8)

/-- `BoolEncoder::put` (src/encoder/bool_encoder.hh:110-143).  `none` when the C++ would be
undefined: an index outside `vp8_norm`, a negative or over-wide shift, or a carry with no byte to absorb it. -/
def BoolEncoder.put (e : BoolEncoder) (value : Bool) (p : Prob := 128) : Option BoolEncoder := do
  let split := splitPoint e.range p
  let bottom := if value then (e.bottom + split) % 2^32 else e.bottom
  let range  := if value then e.range - split else split
  let shift ← vp8Norm[range]?
  let range := (range <<< shift) % 2^32
  let bitCount := e.bitCount + shift
  if 0 ≤ bitCount then
    let offset : Int := shift - bitCount
    if offset < 1 ∨ 24 < offset then none else
    let off := offset.toNat
    let output ←
      if (bottom <<< (off - 1)) % 2^32 &&& 0x80000000 ≠ 0 then addOneToOutput e.output
      else some e.output
    let output := output ++ [UInt8.ofNat (bottom >>> (24 - off))]
    let bottom := ((bottom <<< off) % 2^32) &&& 0xffffff
    some { output, range, bottom := (bottom <<< bitCount.toNat) % 2^32, bitCount := bitCount - 8 }
  else
    some { output := e.output, range, bottom := (bottom <<< shift) % 2^32, bitCount }

/-- A sequence of `put`s. -/
def BoolEncoder.putAll (e : BoolEncoder) : List (Bool × Prob) → Option BoolEncoder
  | [] => some e
  | (b, p) :: rest => do (← e.put b p).putAll rest

/-- `BoolEncoder::flush` (src/encoder/bool_encoder.hh:78-82): 32 zero bits at the default probability. -/
def BoolEncoder.flush (e : BoolEncoder) : Option BoolEncoder :=
  e.putAll (List.replicate 32 (false, 128))

/-- `BoolEncoder::finish` (src/encoder/bool_encoder.hh:145-151); the reset of `*this` is not modelled (the
value is returned and the object dropped by every caller). -/
def BoolEncoder.finish (e : BoolEncoder) : Option (List UInt8) :=
  e.flush.map (·.output)

/-- A whole partition: write every bit of the list with a fresh encoder, then finish.  This is how every
caller uses the class (src/encoder/serializer.cc:388-443). -/
def encodeBits (s : List (Bool × Prob)) : Option (List UInt8) := do
  (← ({} : BoolEncoder).putAll s).finish

/-- `class BoolDecoder`, its data members (src/decoder/bool_decoder.hh:48-54). -/
structure BoolDecoder where
  chunk    : List UInt8
  range    : Nat := 255
  value    : Nat := 0
  bitCount : Nat := 0
  valid    : Bool := true
  completeChunk : Bool := true
deriving Repr, DecidableEq

/-- `BoolDecoder::load_octet` (src/decoder/bool_decoder.hh:56-65). -/
def BoolDecoder.loadOctet (d : BoolDecoder) : BoolDecoder :=
  match d.chunk with
  | b :: rest => { d with value := d.value ||| b.toNat, chunk := rest }
  | [] => if d.completeChunk then d else { d with valid := false }

/-- `BoolDecoder::BoolDecoder` (src/decoder/bool_decoder.hh:68-79). -/
def BoolDecoder.init (chunk : List UInt8) (completeChunk : Bool := true) : BoolDecoder :=
  let d : BoolDecoder := { chunk, completeChunk }
  let d := d.loadOctet
  let d := { d with value := (d.value <<< 8) % 2^32 }
  d.loadOctet

/-- The body of the renormalisation loop in `BoolDecoder::get` (src/decoder/bool_decoder.hh:98-103). -/
def BoolDecoder.shiftOnce (d : BoolDecoder) : BoolDecoder :=
  let d := { d with value := (d.value <<< 1) % 2^32, range := (d.range <<< 1) % 2^32 }
  if d.bitCount + 1 = 8 then { d with bitCount := 0 }.loadOctet
  else { d with bitCount := d.bitCount + 1 }

/-- The renormalisation loop of `BoolDecoder::get` (src/decoder/bool_decoder.hh:97-104).  The loop is unbounded in
C++; here it has fuel, and `BoolDecoder.get` supplies 8 rounds.  C03 proves that the loop condition is false
on exit, so the fuel never truncates the loop. -/
def BoolDecoder.renorm : Nat → BoolDecoder → BoolDecoder
  | 0, d => d
  | n + 1, d => if d.range < 128 then d.shiftOnce.renorm n else d

/-- `BoolDecoder::get` (src/decoder/bool_decoder.hh:82-107). -/
def BoolDecoder.get (d : BoolDecoder) (p : Prob := 128) : Bool × BoolDecoder :=
  let split := splitPoint d.range p
  let bigSplit := (split <<< 8) % 2^32
  if bigSplit ≤ d.value then
    (true, BoolDecoder.renorm 8 { d with range := d.range - split, value := d.value - bigSplit })
  else
    (false, BoolDecoder.renorm 8 { d with range := split })

/-- A sequence of `get`s with the given probabilities. -/
def BoolDecoder.getAll (d : BoolDecoder) : List Prob → List Bool
  | [] => []
  | p :: ps => (d.get p).1 :: (d.get p).2.getAll ps

end Alfalfa
