import Verif.Model.BoolCoder

/-! The frame container: `class Chunk` (src/util/chunk.hh), `UncompressedChunk` (src/decoder/uncompressed_chunk.{hh,cc}) and
`make_frame` (src/encoder/serializer.cc:741-799).

A `Chunk` (pointer and length) is the list of its bytes; every access the C++ makes is checked against the length, and a
failed check is the `outOfRange` result. -/

namespace Alfalfa

/-- The exceptions these functions throw: `std::out_of_range`, `Invalid`, `Unsupported` (src/util/exception.hh); `internal`
stands for a failed assertion or `LogicError`. -/
inductive FrameError | outOfRange | invalid | unsupported | internal
deriving Repr, DecidableEq

/-- Little-endian value of a byte string. -/
def leValue : List UInt8 → Nat
  | [] => 0
  | b :: rest => b.toNat + 256 * leValue rest

/-- `Chunk::bits` (src/util/chunk.hh:126-140); only called with at most four bytes, for which the `|=` of shifted bytes is
the little-endian value in the bits kept. -/
def chunkBits (c : List UInt8) (offset length : Nat) : Except FrameError Nat :=
  let byteLen := 1 + (offset + length - 1) / 8
  if c.length < byteLen then .error .outOfRange
  else .ok ((leValue (c.take byteLen) >>> offset) % 2 ^ length)

/-- `Chunk::operator()( offset, length )` (src/util/chunk.hh:93-98). -/
def subChunk (c : List UInt8) (offset length : Nat) : Except FrameError (List UInt8) :=
  if c.length < offset then .error .outOfRange
  else if c.length < offset + length then .error .outOfRange
  else .ok ((c.drop offset).take length)

/-- `Chunk::operator()( offset )` (src/util/chunk.hh:88-91). -/
def restOfChunk (c : List UInt8) (offset : Nat) : Except FrameError (List UInt8) := subChunk c offset (c.length - offset)

/-- `enum CorruptionLevel` (src/decoder/uncompressed_chunk.hh:37-43). -/
inductive Corruption | none | residues | firstPartition | frame
deriving Repr, DecidableEq

/-- `class UncompressedChunk` (src/decoder/uncompressed_chunk.hh:45-76), without the advisory filter types. -/
structure FrameParts where
  keyFrame : Bool := false
  showFrame : Bool := false
  experimental : Bool := false
  firstPartition : List UInt8 := []
  rest : List UInt8 := []
  corruption : Corruption := .none
deriving Repr, DecidableEq

/-- The switch on the version (src/decoder/uncompressed_chunk.cc:54-74): is the frame experimental? -/
def versionExperimental (version : Nat) : Except FrameError Bool :=
  if version = 0 then .ok false
  else if version = 4 then .ok true
  else if version = 6 then .ok true
  else .error .unsupported

/-- The partitions (src/decoder/uncompressed_chunk.cc:79-100). -/
def splitPartitions (frame : List UInt8) (keyFrame acceptPartial : Bool) : Except FrameError (List UInt8 × List UInt8 × Corruption) := do
  let len ← chunkBits frame 5 19
  let off := if keyFrame then 10 else 3
  if frame.length ≤ off + len then
    if acceptPartial then do
      let first ← subChunk frame off (frame.length - off)
      pure (first, [], .firstPartition)
    else throw .invalid
  else do
    let first ← subChunk frame off len
    let rest ← subChunk frame (off + len) (frame.length - off - len)
    pure (first, rest, .none)

/-- The checks on a key frame (src/decoder/uncompressed_chunk.cc:102-116). -/
def checkKeyFrame (frame : List UInt8) (width height : Nat) : Except FrameError Unit := do
  let start ← subChunk frame 3 3
  if start ≠ [0x9d, 0x01, 0x2a] then throw .invalid
  let sizes ← subChunk frame 6 4
  let hscale ← chunkBits sizes 14 2
  let vscale ← chunkBits sizes 30 2
  let w ← chunkBits sizes 0 14
  let h ← chunkBits sizes 16 14
  if w ≠ width ∨ h ≠ height ∨ hscale ≠ 0 ∨ vscale ≠ 0 then throw .unsupported

/-- The body of the `try` block (src/decoder/uncompressed_chunk.cc:47-117). -/
def splitFrameBody (frame : List UInt8) (width height : Nat) (acceptPartial : Bool) : Except FrameError FrameParts := do
  let key ← chunkBits frame 0 1
  let keyFrame := key == 0
  let show' ← chunkBits frame 4 1
  let version ← chunkBits frame 1 3
  let experimental ← versionExperimental version
  let (firstPartition, rest, corruption) ← splitPartitions frame keyFrame acceptPartial
  if keyFrame then checkKeyFrame frame width height
  pure { keyFrame, showFrame := show' == 1, experimental, firstPartition, rest, corruption }

/-- The constructor of `UncompressedChunk` (src/decoder/uncompressed_chunk.cc:34-130), with its handler for
`out_of_range`.  The handler resets all members but the show flag and the partitions.  Every `out_of_range` is thrown
before the partitions are set, and after the show flag was set unless the frame is empty. -/
def splitFrame (frame : List UInt8) (width height : Nat) (acceptPartial : Bool) : Except FrameError FrameParts :=
  match splitFrameBody frame width height acceptPartial with
  | .error .outOfRange =>
    if acceptPartial then .ok { corruption := .frame, showFrame := (frame.headD 0).toNat >>> 4 % 2 == 1 } else .error .invalid
  | r => r

/-- The loop reading the lengths (src/decoder/uncompressed_chunk.cc:138-142), `n` of them. -/
def readLengths : Nat → List UInt8 → Except FrameError (List Nat × List UInt8)
  | 0, c => .ok ([], c)
  | n + 1, c => do
    let l ← chunkBits c 0 24
    let c ← restOfChunk c 3
    let (ls, c) ← readLengths n c
    pure (l :: ls, c)

/-- The loop cutting the partitions (src/decoder/uncompressed_chunk.cc:145-152), with the last one. -/
def cutPartitions : List Nat → List UInt8 → Except FrameError (List (List UInt8))
  | [], c => .ok [c]
  | l :: ls, c => do
    let p ← subChunk c 0 l
    let c ← restOfChunk c l
    let ps ← cutPartitions ls c
    pure (p :: ps)

/-- `UncompressedChunk::dct_partitions` (src/decoder/uncompressed_chunk.cc:132-155). -/
def dctPartitions (rest : List UInt8) (num : Nat) : Except FrameError (List (List UInt8)) := do
  let (ls, c) ← readLengths (num - 1) rest
  cutPartitions ls c

/-- A DCT partition length (src/encoder/serializer.cc:788-792); the size is first truncated to 32 bits. -/
def lengthBytes (n : Nat) : List UInt8 := [UInt8.ofNat (n &&& 0xff), UInt8.ofNat ((n &&& 0xff00) >>> 8), UInt8.ofNat ((n &&& 0xff0000) >>> 16)]

/-- The frame tag (src/encoder/serializer.cc:762-765). -/
def frameTag (keyFrame showFrame experimental referenceUpdate : Bool) (len : Nat) : List UInt8 := [
  UInt8.ofNat ((!keyFrame).toNat ||| (referenceUpdate.toNat <<< 2) ||| (experimental.toNat <<< 3) ||| (showFrame.toNat <<< 4) |||
    ((len &&& 0x7) <<< 5)),
  UInt8.ofNat ((len &&& 0x7f8) >>> 3),
  UInt8.ofNat ((len &&& 0x7f800) >>> 11)]

/-- Start code and dimensions (src/encoder/serializer.cc:769-780). -/
def keyFramePrefix (width height : Nat) : List UInt8 := [0x9d, 0x01, 0x2a,
  UInt8.ofNat (width &&& 0xff), UInt8.ofNat ((width &&& 0x3f00) >>> 8),
  UInt8.ofNat (height &&& 0xff), UInt8.ofNat ((height &&& 0x3f00) >>> 8)]

/-- `make_frame` (src/encoder/serializer.cc:741-799). -/
def makeFrame (keyFrame showFrame experimental referenceUpdate : Bool) (width height : Nat) (first : List UInt8)
    (dct : List (List UInt8)) : Except FrameError (List UInt8) :=
  if 16383 < width ∨ 16383 < height then .error .invalid
  else if dct.isEmpty then .error .invalid
  else .ok (frameTag keyFrame showFrame experimental referenceUpdate first.length ++
    ((if keyFrame then keyFramePrefix width height else []) ++ (first ++
      ((dct.dropLast.map (fun p => lengthBytes p.length)).flatten ++ dct.flatten))))

end Alfalfa
