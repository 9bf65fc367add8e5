import Verif.Spec.Frame
import Verif.Spec.Terminate
import Verif.Model.Reencode

/-! What re-encoding a chunk shall do, in terms of a decoder that is given the frames written. -/

namespace Alfalfa

/-- The decoder takes the bytes for the inter frame `f`. -/
def Decoder.ReadsInter (d : Decoder) (bytes : List UInt8) (f : Frame InterFrameHeader) : Prop :=
  ∃ c st p, splitFrame bytes d.state.width d.state.height false = .ok c ∧ c.keyFrame = false ∧ d.state.applyInter c = (st, .ok p) ∧ p.frame = f

/-- The decoder takes the bytes for the key frame `f`. -/
def Decoder.ReadsKey (d : Decoder) (bytes : List UInt8) (f : Frame KeyFrameHeader) : Prop :=
  ∃ c st p, splitFrame bytes d.state.width d.state.height false = .ok c ∧ c.keyFrame = true ∧ d.state.applyKey c = (st, .ok p) ∧ p.frame = f

/-- The frame replaces all three references. -/
def RefreshesAll (h : InterFrameHeader) : Prop :=
  h.refreshLast = true ∧ h.refreshGoldenFrame = true ∧ h.refreshAlternateFrame = true

/-- Two macroblocks are predicted in the same way: the same modes, reference and motion vectors. -/
def SamePrediction (m m' : MBModes) : Prop :=
  m.isInter = m'.isInter ∧ m.sel1 = m'.sel1 ∧ m.sel2 = m'.sel2 ∧ m.flipped = m'.flipped ∧ m.partitionId = m'.partitionId ∧ m.yMode = m'.yMode ∧
  m.uvMode = m'.uvMode ∧ m.bModes = m'.bModes ∧ m.mvs = m'.mvs ∧ m.uMvs = m'.uMvs

/-- `f` follows the prediction frame `old`: each macroblock is predicted in the same way, and the loop filter is the same.  The references are
updated as in `old`, or all of them if it is the last frame. -/
structure FollowsFrame (last : Bool) (old f : Frame InterFrameHeader) : Prop where
  count : f.modes.length = old.modes.length
  modes : ∀ (k : Nat) (m m' : MBModes), old.modes[k]? = some m → f.modes[k]? = some m' → SamePrediction m m'
  loopFilter : f.header.filterType = old.header.filterType ∧ f.header.loopFilterLevel = old.header.loopFilterLevel ∧
    f.header.sharpnessLevel = old.header.sharpnessLevel ∧ f.header.modeLfAdjustments = old.header.modeLfAdjustments
  references : if last then RefreshesAll f.header else
    f.header.refreshLast = old.header.refreshLast ∧ f.header.refreshGoldenFrame = old.header.refreshGoldenFrame ∧
    f.header.refreshAlternateFrame = old.header.refreshAlternateFrame ∧ f.header.copyBufferToGolden = old.header.copyBufferToGolden ∧
    f.header.copyBufferToAlternate = old.header.copyBufferToAlternate
  signs : f.header.signBiasGolden = old.header.signBiasGolden ∧ f.header.signBiasAlternate = old.header.signBiasAlternate
  entropy : f.header.refreshEntropyProbs = old.header.refreshEntropyProbs

/-- What the decoder `d` takes the bytes for, which were written for frame `k` of the chunk `predictions` of which the frames from `start` on are written:
an inter frame with the same predictions, or an inter frame that replaces all references if the first one was a key frame, or that same key
frame.  The quantizer index is that of the chunk but for the first frame: there it is mixed with that of the key frame before it or of the frame
after it, if there is one. -/
def WrittenFor (blend : Nat → Nat → Nat) (start : Nat) (predictions : List PredictionFrame) (k : Nat) (d : Decoder) (bytes : List UInt8) : Prop :=
  (∀ old, predictions[k]? = some (none, some old) → ∃ f, d.ReadsInter bytes f ∧ FollowsFrame (decide (k + 1 = predictions.length)) old f ∧
    (start < k ∨ start = 0 → f.header.quantIndices = old.header.quantIndices) ∧
    (k = start → 0 < start → ∀ key x, predictions[0]? = some (some key, x) →
      f.header.quantIndices = { old.header.quantIndices with yAcQi := blend key.header.quantIndices.yAcQi old.header.quantIndices.yAcQi })) ∧
  (∀ old x, predictions[k]? = some (some old, x) →
    (start < k → d.ReadsKey bytes old) ∧
    (k = start → ∃ f, d.ReadsInter bytes f ∧ RefreshesAll f.header ∧
      ((∀ y next, predictions[k + 1]? ≠ some (y, some next)) → f.header.quantIndices = old.header.quantIndices) ∧
      ∀ y next, predictions[k + 1]? = some (y, some next) →
        f.header.quantIndices = { old.header.quantIndices with yAcQi := blend old.header.quantIndices.yAcQi next.header.quantIndices.yAcQi }))

/-- A frame of the chunk: either a key frame or an inter frame, of the given size, which the format can carry and which says nothing of segments. -/
def PredictionFrame.Ok (width height : Nat) : PredictionFrame → Prop
  | (some f, none) => KeyFrameOk f ∧ f.width = width ∧ f.height = height ∧ f.header.updateSegmentation = none
  | (none, some f) => InterFrameOk f ∧ f.width = width ∧ f.height = height ∧ f.header.updateSegmentation = none
  | _ => False

/-- A mean of two quantizer indices is one. -/
def Blends (blend : Nat → Nat → Nat) : Prop := ∀ a b, min a b ≤ blend a b ∧ blend a b ≤ max a b

end Alfalfa
