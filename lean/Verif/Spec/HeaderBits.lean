import Verif.Spec.Header

/-! The frame header as the format lays it out (RFC 6386, sections 9.2 to 9.11 and 19.2).  It shares with the model of the
code the types of headers and the two constant tables of update probabilities. -/

namespace Alfalfa.HeaderSpec

/-- `B(p)`: one bit with this probability. -/
def b (p : Prob) (x : Bool) : Bits := [(x, p)]

/-- `L(n)`: a number of `n` bits with even odds, the highest first. -/
def L (n v : Nat) : Bits := (List.range n).map fun i => (v.testBit (n - 1 - i), 128)

/-- `L(1)`. -/
def flag (x : Bool) : Bits := b 128 x

/-- A magnitude of `n` bits and a sign. -/
def signed (n : Nat) (v : Int) : Bits := L n v.natAbs ++ flag (decide (v < 0))

/-- A bit with this probability that says whether a value follows, and the value. -/
def present {α : Type} (p : Prob) (f : α → Bits) : Option α → Bits
  | none => b p false
  | some x => b p true ++ f x

/-- The elements in order. -/
def each (n : Nat) (f : Fin n → Bits) : Bits := (List.finRange n).flatMap f

/-- `update_segmentation()`. -/
def segmentation (h : UpdateSegmentation) : Bits :=
  flag h.updateMbSegmentationMap ++
  (match h.segmentFeatureData with
   | none => flag false
   | some d => flag true ++ flag d.segmentFeatureMode ++ each 4 (fun i => present 128 (signed 7) (d.quantizerUpdate i)) ++
      each 4 (fun i => present 128 (signed 6) (d.loopFilterUpdate i))) ++
  (match h.mbSegmentationMap with
   | none => []
   | some m => each 3 fun i => present 128 (L 8) (m i))

/-- `mb_lf_adjustments()`. -/
def filterAdjustments : Option (Option ModeRefLFDeltaUpdate) → Bits
  | none => flag false
  | some none => flag true ++ flag false
  | some (some d) => flag true ++ flag true ++ each 4 (fun i => present 128 (signed 6) (d.refUpdate i)) ++
      each 4 (fun i => present 128 (signed 6) (d.modeUpdate i))

/-- `quant_indices()`. -/
def quantizers (q : QuantIndices) : Bits :=
  L 7 q.yAcQi ++ present 128 (signed 4) q.yDc ++ present 128 (signed 4) q.y2Dc ++ present 128 (signed 4) q.y2Ac ++
  present 128 (signed 4) q.uvDc ++ present 128 (signed 4) q.uvAc

/-- `token_prob_update()`. -/
def tokenProbs (u : TokenProbUpdate) : Bits :=
  each 4 fun i => each 8 fun j => each 3 fun k => each 11 fun m => present (coeffUpdateProbs i j k m) (L 8) (u i j k m)

/-- `mv_prob_update()`. -/
def vectorProbs (u : MVProbUpdate) : Bits := each 2 fun i => each 19 fun j => present (mvUpdateProbs i j) (L 7) (u i j)

/-- The header of a key frame. -/
def key (h : KeyFrameHeader) : Bits :=
  flag h.colorSpace ++ flag h.clampingType ++ present 128 segmentation h.updateSegmentation ++ flag h.filterType ++
  L 6 h.loopFilterLevel ++ L 3 h.sharpnessLevel ++ filterAdjustments h.modeLfAdjustments ++ L 2 h.log2Partitions ++
  quantizers h.quantIndices ++ flag h.refreshEntropyProbs ++ tokenProbs h.tokenProbUpdate ++ present 128 (L 8) h.probSkipFalse

/-- The header of an inter frame. -/
def inter (h : InterFrameHeader) : Bits :=
  present 128 segmentation h.updateSegmentation ++ flag h.filterType ++ L 6 h.loopFilterLevel ++ L 3 h.sharpnessLevel ++
  filterAdjustments h.modeLfAdjustments ++ L 2 h.log2Partitions ++ quantizers h.quantIndices ++
  flag h.refreshGoldenFrame ++ flag h.refreshAlternateFrame ++
  (if h.refreshGoldenFrame then [] else L 2 (h.copyBufferToGolden.getD 0)) ++
  (if h.refreshAlternateFrame then [] else L 2 (h.copyBufferToAlternate.getD 0)) ++
  flag h.signBiasGolden ++ flag h.signBiasAlternate ++ flag h.refreshEntropyProbs ++ flag h.refreshLast ++
  tokenProbs h.tokenProbUpdate ++ present 128 (L 8) h.probSkipFalse ++
  L 8 h.probInter ++ L 8 h.probReferencesLast ++ L 8 h.probReferencesGolden ++
  present 128 (fun p : Fin 4 → Nat => each 4 fun i => L 8 (p i)) h.intra16x16Prob ++
  present 128 (fun p : Fin 3 → Nat => each 3 fun i => L 8 (p i)) h.intraChromaProb ++
  vectorProbs h.mvProbUpdate

end Alfalfa.HeaderSpec
