import Verif.Model.Parser
import Verif.Model.ProbData

/-! Frame headers (src/decoder/frame_header.hh) and their serialization (src/encoder/serializer.cc:89-181).

`Unsigned<w>` (a `uint8_t`) is a `Nat`, `Signed<w>` (an `int8_t`) an `Int`, `Flag` a `Bool`, `Flagged<T>` and
`Optional<T>` an `Option`, `Array<T,n>` and `Enumerate<T,n>` a function on `Fin n`. -/

namespace Alfalfa

/-- `struct QuantIndices` (src/decoder/frame_header.hh:37-44). -/
structure QuantIndices where
  yAcQi : Nat
  yDc : Option Int
  y2Dc : Option Int
  y2Ac : Option Int
  uvDc : Option Int
  uvAc : Option Int

/-- `QuantIndices( data )` (src/decoder/frame_header.hh:46-49). -/
def parseQuantIndices : Parser QuantIndices := do
  let yAcQi ← parseUnsigned 7
  let yDc ← parseFlagged 128 (parseSigned 4)
  let y2Dc ← parseFlagged 128 (parseSigned 4)
  let y2Ac ← parseFlagged 128 (parseSigned 4)
  let uvDc ← parseFlagged 128 (parseSigned 4)
  let uvAc ← parseFlagged 128 (parseSigned 4)
  pure { yAcQi, yDc, y2Dc, y2Ac, uvDc, uvAc }

/-- `encode( encoder, QuantIndices )` (src/encoder/serializer.cc:110-118). -/
def encQuantIndices (h : QuantIndices) : Bits := List.flatten [
  encUnsigned 7 h.yAcQi,
  encFlagged 128 (encSigned 4) h.yDc,
  encFlagged 128 (encSigned 4) h.y2Dc,
  encFlagged 128 (encSigned 4) h.y2Ac,
  encFlagged 128 (encSigned 4) h.uvDc,
  encFlagged 128 (encSigned 4) h.uvAc]

/-- `struct ModeRefLFDeltaUpdate` (src/decoder/frame_header.hh:65-79). -/
structure ModeRefLFDeltaUpdate where
  refUpdate : Fin 4 → Option Int
  modeUpdate : Fin 4 → Option Int

/-- `ModeRefLFDeltaUpdate( data )` (src/decoder/frame_header.hh:70). -/
def parseModeRefLFDeltaUpdate : Parser ModeRefLFDeltaUpdate := do
  let refUpdate ← parseFin 4 (fun _ => parseFlagged 128 (parseSigned 6))
  let modeUpdate ← parseFin 4 (fun _ => parseFlagged 128 (parseSigned 6))
  pure { refUpdate, modeUpdate }

/-- `encode( encoder, ModeRefLFDeltaUpdate )` (src/encoder/serializer.cc:120-124). -/
def encModeRefLFDeltaUpdate (h : ModeRefLFDeltaUpdate) : Bits := List.flatten [
  encFin 4 (fun i => encFlagged 128 (encSigned 6) (h.refUpdate i)),
  encFin 4 (fun i => encFlagged 128 (encSigned 6) (h.modeUpdate i))]

/-- `struct SegmentFeatureData` (src/decoder/frame_header.hh:81-102). -/
structure SegmentFeatureData where
  segmentFeatureMode : Bool
  quantizerUpdate : Fin 4 → Option Int
  loopFilterUpdate : Fin 4 → Option Int

/-- `SegmentFeatureData( data )` (src/decoder/frame_header.hh:87-88). -/
def parseSegmentFeatureData : Parser SegmentFeatureData := do
  let segmentFeatureMode ← getBit
  let quantizerUpdate ← parseFin 4 (fun _ => parseFlagged 128 (parseSigned 7))
  let loopFilterUpdate ← parseFin 4 (fun _ => parseFlagged 128 (parseSigned 6))
  pure { segmentFeatureMode, quantizerUpdate, loopFilterUpdate }

/-- `encode( encoder, SegmentFeatureData )` (src/encoder/serializer.cc:126-131). -/
def encSegmentFeatureData (h : SegmentFeatureData) : Bits := List.flatten [
  [(h.segmentFeatureMode, 128)],
  encFin 4 (fun i => encFlagged 128 (encSigned 7) (h.quantizerUpdate i)),
  encFin 4 (fun i => encFlagged 128 (encSigned 6) (h.loopFilterUpdate i))]

/-- `struct UpdateSegmentation` (src/decoder/frame_header.hh:104-126). -/
structure UpdateSegmentation where
  updateMbSegmentationMap : Bool
  segmentFeatureData : Option SegmentFeatureData
  mbSegmentationMap : Option (Fin 3 → Option Nat)

/-- `UpdateSegmentation( data )` (src/decoder/frame_header.hh:110-112). -/
def parseUpdateSegmentation : Parser UpdateSegmentation := do
  let updateMbSegmentationMap ← getBit
  let segmentFeatureData ← parseFlagged 128 parseSegmentFeatureData
  let mbSegmentationMap ← parseOptional updateMbSegmentationMap
    (parseFin 3 (fun _ => parseFlagged 128 (parseUnsigned 8)))
  pure { updateMbSegmentationMap, segmentFeatureData, mbSegmentationMap }

/-- `encode( encoder, UpdateSegmentation )` (src/encoder/serializer.cc:133-138). -/
def encUpdateSegmentation (h : UpdateSegmentation) : Bits := List.flatten [
  [(h.updateMbSegmentationMap, 128)],
  encFlagged 128 encSegmentFeatureData h.segmentFeatureData,
  encOptional (fun m : Fin 3 → Option Nat => encFin 3 (fun i => encFlagged 128 (encUnsigned 8) (m i)))
    h.mbSegmentationMap]

/-- The four-dimensional `Enumerate< … TokenProbUpdate … >` (src/decoder/frame_header.hh:128-145,206-210). -/
abbrev TokenProbUpdate := Fin 4 → Fin 8 → Fin 3 → Fin 11 → Option Nat

/-- `TokenProbUpdate( data, l, k, j, i )` over all indices (src/decoder/frame_header.hh:132-135). -/
def parseTokenProbUpdate : Parser TokenProbUpdate :=
  parseFin 4 fun i => parseFin 8 fun j => parseFin 3 fun k => parseFin 11 fun l =>
    parseFlagged (coeffUpdateProbs i j k l) (parseUnsigned 8)

/-- `encode( encoder, TokenProbUpdate, l, k, j, i )` over all indices (src/encoder/serializer.cc:89-94,102-108). -/
def encTokenProbUpdate (u : TokenProbUpdate) : Bits :=
  encFin 4 fun i => encFin 8 fun j => encFin 3 fun k => encFin 11 fun l =>
    encFlagged (coeffUpdateProbs i j k l) (encUnsigned 8) (u i j k l)

/-- `Enumerate<Enumerate<MVProbUpdate, MV_PROB_CNT>, 2>` (src/decoder/frame_header.hh:147-192,276): the 7-bit values. -/
abbrev MVProbUpdate := Fin 2 → Fin 19 → Option Nat

/-- `MVProbUpdate( data, j, i )` over all indices (src/decoder/frame_header.hh:154-157). -/
def parseMVProbUpdate : Parser MVProbUpdate :=
  parseFin 2 fun i => parseFin 19 fun j => parseFlagged (mvUpdateProbs i j) (parseUnsigned 7)

/-- `encode( encoder, MVProbUpdate, j, i )` over all indices (src/encoder/serializer.cc:96-108). -/
def encMVProbUpdate (u : MVProbUpdate) : Bits :=
  encFin 2 fun i => encFin 19 fun j => encFlagged (mvUpdateProbs i j) (encUnsigned 7) (u i j)

/-- `struct KeyFrameHeader` (src/decoder/frame_header.hh:194-246). -/
structure KeyFrameHeader where
  colorSpace : Bool
  clampingType : Bool
  updateSegmentation : Option UpdateSegmentation
  filterType : Bool
  loopFilterLevel : Nat
  sharpnessLevel : Nat
  modeLfAdjustments : Option (Option ModeRefLFDeltaUpdate)
  log2Partitions : Nat
  quantIndices : QuantIndices
  refreshEntropyProbs : Bool
  tokenProbUpdate : TokenProbUpdate
  probSkipFalse : Option Nat

/-- The member initializers of `KeyFrameHeader( data )` (src/decoder/frame_header.hh:213-219). -/
def parseKeyFrameFields : Parser KeyFrameHeader := do
  let colorSpace ← getBit
  let clampingType ← getBit
  let updateSegmentation ← parseFlagged 128 parseUpdateSegmentation
  let filterType ← getBit
  let loopFilterLevel ← parseUnsigned 6
  let sharpnessLevel ← parseUnsigned 3
  let modeLfAdjustments ← parseFlagged 128 (parseFlagged 128 parseModeRefLFDeltaUpdate)
  let log2Partitions ← parseUnsigned 2
  let quantIndices ← parseQuantIndices
  let refreshEntropyProbs ← getBit
  let tokenProbUpdate ← parseTokenProbUpdate
  let probSkipFalse ← parseFlagged 128 (parseUnsigned 8)
  pure { colorSpace, clampingType, updateSegmentation, filterType, loopFilterLevel, sharpnessLevel,
         modeLfAdjustments, log2Partitions, quantIndices, refreshEntropyProbs, tokenProbUpdate, probSkipFalse }

/-- `KeyFrameHeader( data )` (src/decoder/frame_header.hh:213-228): throws `Unsupported` after reading. -/
def parseKeyFrameHeader : Parser KeyFrameHeader := do
  let h ← parseKeyFrameFields
  if h.colorSpace || h.clampingType then failure
  else if h.filterType then failure
  else pure h

/-- `encode( encoder, KeyFrameHeader )` (src/encoder/serializer.cc:140-154). -/
def encKeyFrameHeader (h : KeyFrameHeader) : Bits := List.flatten [
  [(h.colorSpace, 128)],
  [(h.clampingType, 128)],
  encFlagged 128 encUpdateSegmentation h.updateSegmentation,
  [(h.filterType, 128)],
  encUnsigned 6 h.loopFilterLevel,
  encUnsigned 3 h.sharpnessLevel,
  encFlagged 128 (encFlagged 128 encModeRefLFDeltaUpdate) h.modeLfAdjustments,
  encUnsigned 2 h.log2Partitions,
  encQuantIndices h.quantIndices,
  [(h.refreshEntropyProbs, 128)],
  encTokenProbUpdate h.tokenProbUpdate,
  encFlagged 128 (encUnsigned 8) h.probSkipFalse]

/-- `struct InterFrameHeader` (src/decoder/frame_header.hh:248-325). -/
structure InterFrameHeader where
  updateSegmentation : Option UpdateSegmentation
  filterType : Bool
  loopFilterLevel : Nat
  sharpnessLevel : Nat
  modeLfAdjustments : Option (Option ModeRefLFDeltaUpdate)
  log2Partitions : Nat
  quantIndices : QuantIndices
  refreshGoldenFrame : Bool
  refreshAlternateFrame : Bool
  copyBufferToGolden : Option Nat
  copyBufferToAlternate : Option Nat
  signBiasGolden : Bool
  signBiasAlternate : Bool
  refreshEntropyProbs : Bool
  refreshLast : Bool
  tokenProbUpdate : TokenProbUpdate
  probSkipFalse : Option Nat
  probInter : Nat
  probReferencesLast : Nat
  probReferencesGolden : Nat
  intra16x16Prob : Option (Fin 4 → Nat)
  intraChromaProb : Option (Fin 3 → Nat)
  mvProbUpdate : MVProbUpdate

/-- The member initializers of `InterFrameHeader( data )` (src/decoder/frame_header.hh:278-290). -/
def parseInterFrameFields : Parser InterFrameHeader := do
  let updateSegmentation ← parseFlagged 128 parseUpdateSegmentation
  let filterType ← getBit
  let loopFilterLevel ← parseUnsigned 6
  let sharpnessLevel ← parseUnsigned 3
  let modeLfAdjustments ← parseFlagged 128 (parseFlagged 128 parseModeRefLFDeltaUpdate)
  let log2Partitions ← parseUnsigned 2
  let quantIndices ← parseQuantIndices
  let refreshGoldenFrame ← getBit
  let refreshAlternateFrame ← getBit
  let copyBufferToGolden ← parseOptional (!refreshGoldenFrame) (parseUnsigned 2)
  let copyBufferToAlternate ← parseOptional (!refreshAlternateFrame) (parseUnsigned 2)
  let signBiasGolden ← getBit
  let signBiasAlternate ← getBit
  let refreshEntropyProbs ← getBit
  let refreshLast ← getBit
  let tokenProbUpdate ← parseTokenProbUpdate
  let probSkipFalse ← parseFlagged 128 (parseUnsigned 8)
  let probInter ← parseUnsigned 8
  let probReferencesLast ← parseUnsigned 8
  let probReferencesGolden ← parseUnsigned 8
  let intra16x16Prob ← parseFlagged 128 (parseFin 4 fun _ => parseUnsigned 8)
  let intraChromaProb ← parseFlagged 128 (parseFin 3 fun _ => parseUnsigned 8)
  let mvProbUpdate ← parseMVProbUpdate
  pure { updateSegmentation, filterType, loopFilterLevel, sharpnessLevel, modeLfAdjustments, log2Partitions,
         quantIndices, refreshGoldenFrame, refreshAlternateFrame, copyBufferToGolden, copyBufferToAlternate,
         signBiasGolden, signBiasAlternate, refreshEntropyProbs, refreshLast, tokenProbUpdate, probSkipFalse,
         probInter, probReferencesLast, probReferencesGolden, intra16x16Prob, intraChromaProb, mvProbUpdate }

/-- `InterFrameHeader( data )` (src/decoder/frame_header.hh:278-295): throws `Unsupported` after reading. -/
def parseInterFrameHeader : Parser InterFrameHeader := do
  let h ← parseInterFrameFields
  if h.filterType then failure else pure h

/-- `encode( encoder, InterFrameHeader )` (src/encoder/serializer.cc:156-181). -/
def encInterFrameHeader (h : InterFrameHeader) : Bits := List.flatten [
  encFlagged 128 encUpdateSegmentation h.updateSegmentation,
  [(h.filterType, 128)],
  encUnsigned 6 h.loopFilterLevel,
  encUnsigned 3 h.sharpnessLevel,
  encFlagged 128 (encFlagged 128 encModeRefLFDeltaUpdate) h.modeLfAdjustments,
  encUnsigned 2 h.log2Partitions,
  encQuantIndices h.quantIndices,
  [(h.refreshGoldenFrame, 128)],
  [(h.refreshAlternateFrame, 128)],
  encOptional (encUnsigned 2) h.copyBufferToGolden,
  encOptional (encUnsigned 2) h.copyBufferToAlternate,
  [(h.signBiasGolden, 128)],
  [(h.signBiasAlternate, 128)],
  [(h.refreshEntropyProbs, 128)],
  [(h.refreshLast, 128)],
  encTokenProbUpdate h.tokenProbUpdate,
  encFlagged 128 (encUnsigned 8) h.probSkipFalse,
  encUnsigned 8 h.probInter,
  encUnsigned 8 h.probReferencesLast,
  encUnsigned 8 h.probReferencesGolden,
  encFlagged 128 (fun v : Fin 4 → Nat => encFin 4 fun i => encUnsigned 8 (v i)) h.intra16x16Prob,
  encFlagged 128 (fun v : Fin 3 → Nat => encFin 3 fun i => encUnsigned 8 (v i)) h.intraChromaProb,
  encMVProbUpdate h.mvProbUpdate]

end Alfalfa
