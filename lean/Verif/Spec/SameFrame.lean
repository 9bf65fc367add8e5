import Verif.Spec.ReadFrame
import Verif.Model.Decoder

/-! Bytes that hold the same frames. -/

namespace Alfalfa

open FrameSpec

/-- These bytes hold this key frame. -/
def HoldsKey (f : Frame KeyFrameHeader) (bytes : List UInt8) : Prop :=
  HoldsFrame true (firstBits (HeaderSpec.key f.header) (ModeSpec.keyBits f.header) f.width f.height f.modes)
    (ProbabilityTables.coeffProbUpdate {} f.header.tokenProbUpdate).coeffProbs (2 ^ f.header.log2Partitions) f bytes

/-- These bytes hold this inter frame, written with the tables `t`. -/
def HoldsInter (t : ProbabilityTables) (f : Frame InterFrameHeader) (bytes : List UInt8) : Prop :=
  HoldsFrame false (firstBits (HeaderSpec.inter f.header) (ModeSpec.interBits f.header (t.update f.header)) f.width f.height f.modes)
    (t.update f.header).coeffProbs (2 ^ f.header.log2Partitions) f bytes

/-- Two streams of bytes that hold the same frames, for a decoder that starts as `d`: each frame fits the decoder as it then is. -/
inductive SameFrames (R : Renderer) : Decoder → List (List UInt8) → List (List UInt8) → Prop
  | nil (d) : SameFrames R d [] []
  | key {d f a b as bs} : KeyFrameOk f → d.state.width = f.width → d.state.height = f.height → HoldsKey f a → HoldsKey f b →
      SameFrames R (d.getFrameOutput R a).1 as bs → SameFrames R d (a :: as) (b :: bs)
  | inter {d f a b as bs} : InterFrameOk f → d.state.width = f.width → d.state.height = f.height → HoldsInter d.state.tables f a →
      HoldsInter d.state.tables f b → SameFrames R (d.getFrameOutput R a).1 as bs → SameFrames R d (a :: as) (b :: bs)

end Alfalfa
