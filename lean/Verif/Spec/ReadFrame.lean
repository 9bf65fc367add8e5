import Verif.Spec.WholeFrame

/-! What a frame of the format is to a reader: any bytes in which the bits of the frame are found, whoever wrote them (RFC 6386, sections 5,
7 and 9.5).  A writer may end its partitions as it likes, so that there are many such bytes for one frame. -/

namespace Alfalfa.FrameSpec

/-- These bits are found in these bytes.  A first byte of 255 is out of the range that a reader starts with; no writer makes it. -/
def Holds (bits : Bits) (bytes : List UInt8) : Prop :=
  bytes.head? ≠ some 255 ∧ ArithmeticSpec.decodeBytes bytes (bits.map Prod.snd) = bits.map Prod.fst

/-- This frame is found in these bytes, with these bits in the first partition and these probabilities of coefficients, in `n` partitions; the
lengths of partitions are less than their fields can say, and there is something after the first partition. -/
def HoldsFrame {H : Type} (key : Bool) (first : Bits) (probs : CoeffProbs) (n : Nat) (f : Frame H) (bytes : List UInt8) : Prop :=
  ∃ one parts, bytes = frame key 0 f.show' f.width f.height one parts ∧ Holds first one ∧ parts.length = n ∧
    one.length < 2 ^ 19 ∧ (∀ p ∈ parts.dropLast, p.length < 2 ^ 24) ∧ parts ≠ [[]] ∧
    ∀ i p, parts[i]? = some p → Holds (partitionBits probs (macroblocks f.width) n i f.modes f.residues) p

end Alfalfa.FrameSpec
