import Verif.Model.BoolCoder

/-! The bytes of a frame as the format lays them out (RFC 6386, sections 9.1, 9.5 and 19.1).  Nothing here comes from the model of the
code. -/

namespace Alfalfa.FrameSpec

/-- `v` in `n` bytes, the lowest first. -/
def le (n v : Nat) : List UInt8 := (List.range n).map fun i => UInt8.ofNat (v / 256 ^ i % 256)

/-- What a frame tag says. -/
structure Tag where
  keyFrame : Bool
  version : Nat
  showFrame : Bool
  /-- the length of the first partition -/
  firstLength : Nat

/-- The tag is a number of 24 bits: a bit that is 0 in key frames, three for the version, one that is 1 in shown frames, and 19 for the
length of the first partition, from the lowest up. -/
def Tag.bytes (t : Tag) : List UInt8 :=
  le 3 ((if t.keyFrame then 0 else 1) + 2 * t.version + (if t.showFrame then 16 else 0) + 32 * t.firstLength)

/-- Key frames have the start code after the tag, and the size of the picture in 14 bits each; the two bits above (the scale) are 0. -/
def startOfKeyFrame (width height : Nat) : List UInt8 := [0x9d, 0x01, 0x2a] ++ le 2 width ++ le 2 height

/-- The lengths of all the partitions of coefficients but the last, three bytes each, and then the partitions. -/
def coefficients (parts : List (List UInt8)) : List UInt8 := parts.dropLast.flatMap (fun p => le 3 p.length) ++ parts.flatten

/-- A whole frame. -/
def frame (keyFrame : Bool) (version : Nat) (showFrame : Bool) (width height : Nat) (first : List UInt8) (parts : List (List UInt8)) : List UInt8 :=
  Tag.bytes ⟨keyFrame, version, showFrame, first.length⟩ ++ (if keyFrame then startOfKeyFrame width height else []) ++ first ++ coefficients parts

end Alfalfa.FrameSpec
