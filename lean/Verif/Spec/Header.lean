import Verif.Model.Header

/-! Field ranges of the frame headers: each unsigned field of `w` bits is below `2^w`, each signed one of `w` magnitude
bits is strictly between `-2^w` and `2^w`. -/

namespace Alfalfa

/-- `n` fits `w` magnitude bits and a sign. -/
def FitsSigned (w : Nat) (n : Int) : Prop := n.natAbs < 2 ^ w

/-- Every present element satisfies `P`. -/
def IfPresent {α : Type} (P : α → Prop) (x : Option α) : Prop := ∀ y, x = some y → P y

structure QuantIndices.InRange (h : QuantIndices) : Prop where
  yAcQi : h.yAcQi < 128
  yDc : IfPresent (FitsSigned 4) h.yDc
  y2Dc : IfPresent (FitsSigned 4) h.y2Dc
  y2Ac : IfPresent (FitsSigned 4) h.y2Ac
  uvDc : IfPresent (FitsSigned 4) h.uvDc
  uvAc : IfPresent (FitsSigned 4) h.uvAc

structure ModeRefLFDeltaUpdate.InRange (h : ModeRefLFDeltaUpdate) : Prop where
  refUpdate : ∀ i, IfPresent (FitsSigned 6) (h.refUpdate i)
  modeUpdate : ∀ i, IfPresent (FitsSigned 6) (h.modeUpdate i)

structure SegmentFeatureData.InRange (h : SegmentFeatureData) : Prop where
  quantizerUpdate : ∀ i, IfPresent (FitsSigned 7) (h.quantizerUpdate i)
  loopFilterUpdate : ∀ i, IfPresent (FitsSigned 6) (h.loopFilterUpdate i)

structure UpdateSegmentation.InRange (h : UpdateSegmentation) : Prop where
  segmentFeatureData : IfPresent SegmentFeatureData.InRange h.segmentFeatureData
  /-- the map's probabilities are there exactly when the map is updated -/
  map : h.mbSegmentationMap.isSome = h.updateMbSegmentationMap
  mapRange : IfPresent (fun m => ∀ i, IfPresent (· < 256) (m i)) h.mbSegmentationMap

structure KeyFrameHeader.InRange (h : KeyFrameHeader) : Prop where
  colorSpace : h.colorSpace = false
  clampingType : h.clampingType = false
  filterType : h.filterType = false
  updateSegmentation : IfPresent UpdateSegmentation.InRange h.updateSegmentation
  loopFilterLevel : h.loopFilterLevel < 64
  sharpnessLevel : h.sharpnessLevel < 8
  modeLfAdjustments : IfPresent (IfPresent ModeRefLFDeltaUpdate.InRange) h.modeLfAdjustments
  log2Partitions : h.log2Partitions < 4
  quantIndices : h.quantIndices.InRange
  tokenProbUpdate : ∀ i j k l, IfPresent (· < 256) (h.tokenProbUpdate i j k l)
  probSkipFalse : IfPresent (· < 256) h.probSkipFalse

structure InterFrameHeader.InRange (h : InterFrameHeader) : Prop where
  filterType : h.filterType = false
  updateSegmentation : IfPresent UpdateSegmentation.InRange h.updateSegmentation
  loopFilterLevel : h.loopFilterLevel < 64
  sharpnessLevel : h.sharpnessLevel < 8
  modeLfAdjustments : IfPresent (IfPresent ModeRefLFDeltaUpdate.InRange) h.modeLfAdjustments
  log2Partitions : h.log2Partitions < 4
  quantIndices : h.quantIndices.InRange
  /-- a copy instruction is there exactly when the buffer is not refreshed -/
  copyGolden : h.copyBufferToGolden.isSome = !h.refreshGoldenFrame
  copyGoldenRange : IfPresent (· < 4) h.copyBufferToGolden
  copyAlternate : h.copyBufferToAlternate.isSome = !h.refreshAlternateFrame
  copyAlternateRange : IfPresent (· < 4) h.copyBufferToAlternate
  tokenProbUpdate : ∀ i j k l, IfPresent (· < 256) (h.tokenProbUpdate i j k l)
  probSkipFalse : IfPresent (· < 256) h.probSkipFalse
  probInter : h.probInter < 256
  probReferencesLast : h.probReferencesLast < 256
  probReferencesGolden : h.probReferencesGolden < 256
  intra16x16Prob : IfPresent (fun v => ∀ i, v i < 256) h.intra16x16Prob
  intraChromaProb : IfPresent (fun v => ∀ i, v i < 256) h.intraChromaProb
  mvProbUpdate : ∀ i j, IfPresent (· < 128) (h.mvProbUpdate i j)

end Alfalfa
