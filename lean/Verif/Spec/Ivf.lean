import Mathlib.Data.List.Range

/-! The layout of an IVF file. -/

namespace Alfalfa

/-- The `k` lowest bytes of a number, the lowest first. -/
def littleEndian (k n : Nat) : List UInt8 := (List.range k).map fun i => UInt8.ofNat (n / 256 ^ i)

/-- What the header of an IVF file says, apart from the number of frames. -/
structure IvfInfo where
  fourcc : List UInt8
  width : Nat
  height : Nat
  frameRate : Nat
  timeScale : Nat
  expectedMinihash : Nat

/-- The values fit into their fields. -/
structure IvfInfo.Fits (h : IvfInfo) : Prop where
  fourcc : h.fourcc.length = 4
  width : h.width < 2 ^ 16
  height : h.height < 2 ^ 16
  frameRate : h.frameRate < 2 ^ 32
  timeScale : h.timeScale < 2 ^ 32
  expectedMinihash : h.expectedMinihash < 2 ^ 32

/-- A frame with its header: its length, eight bytes for a time (zero), and its bytes. -/
def ivfFrameBytes (f : List UInt8) : List UInt8 := littleEndian 4 f.length ++ littleEndian 8 0 ++ f

/-- A file: the signature, version 0, the length of the header, the codec, the dimensions, the rate, the number of frames, the hash, and the frames. -/
def ivfBytes (h : IvfInfo) (frames : List (List UInt8)) : List UInt8 :=
  "DKIF".toUTF8.toList ++ littleEndian 2 0 ++ littleEndian 2 32 ++ h.fourcc ++ littleEndian 2 h.width ++ littleEndian 2 h.height ++
    littleEndian 4 h.frameRate ++ littleEndian 4 h.timeScale ++ littleEndian 4 frames.length ++ littleEndian 4 h.expectedMinihash ++
    frames.flatMap ivfFrameBytes

end Alfalfa
