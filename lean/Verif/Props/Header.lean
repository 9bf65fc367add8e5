import Verif.Proof.Header
import Verif.Proof.Tree

/-! # Frame headers (C05, and the header part of C12) -/

namespace Alfalfa

/-- **C05**, key frames: a header whose fields fit their widths is read back identically, consuming exactly what was
written. -/
theorem C05_key_frame_header_round_trip (h : KeyFrameHeader) (hr : h.InRange) :
    RoundTrips parseKeyFrameHeader (encKeyFrameHeader h) h := (parses_keyHeader hr).roundTrips

/-- **C05**, inter frames. -/
theorem C05_inter_frame_header_round_trip (h : InterFrameHeader) (hr : h.InRange) :
    RoundTrips parseInterFrameHeader (encInterFrameHeader h) h := (parses_interHeader hr).roundTrips

/-- **C12**, key-frame header: on any decoder state reading the fields succeeds; the header is then either refused, exactly when
one of the three unsupported flags is set, or returned with every field in range. -/
theorem C12_key_frame_header_total (d : BoolDecoder) : ∃ h d', parseKeyFrameFields d = some (h, d') ∧
    (parseKeyFrameHeader d = none ∧ (h.colorSpace ∨ h.clampingType ∨ h.filterType) ∨
     parseKeyFrameHeader d = some (h, d') ∧ h.InRange) := by
  obtain ⟨h, d', h1, h2⟩ := produces_keyFields d
  refine ⟨h, d', h1, ?_⟩
  have e : parseKeyFrameHeader d = (if h.colorSpace || h.clampingType then failure
      else if h.filterType then failure else pure h : Parser KeyFrameHeader) d' := by
    show (parseKeyFrameFields d >>= fun x => _) = _
    rw [h1]; rfl
  rw [e]
  cases ha : h.colorSpace <;> cases hb : h.clampingType <;> cases hc : h.filterType <;> simp [failure, StateT.failure]
  exact ⟨rfl, h2 ha hb hc⟩

/-- **C12**, inter-frame header. -/
theorem C12_inter_frame_header_total (d : BoolDecoder) : ∃ h d', parseInterFrameFields d = some (h, d') ∧
    (parseInterFrameHeader d = none ∧ h.filterType ∨ parseInterFrameHeader d = some (h, d') ∧ h.InRange) := by
  obtain ⟨h, d', h1, h2⟩ := produces_interFields d
  refine ⟨h, d', h1, ?_⟩
  have e : parseInterFrameHeader d = (if h.filterType then failure else pure h : Parser InterFrameHeader) d' := by
    show (parseInterFrameFields d >>= fun x => _) = _
    rw [h1]; rfl
  rw [e]
  cases hc : h.filterType <;> simp [failure, StateT.failure]
  exact ⟨rfl, h2 hc⟩

/-! Concrete headers that meet the hypotheses, with segmentation, loop-filter deltas and probability updates. -/

/-- A segmentation update with absolute quantizers and one map probability. -/
def exampleSegmentation : UpdateSegmentation where
  updateMbSegmentationMap := true
  segmentFeatureData := some { segmentFeatureMode := true, quantizerUpdate := fun i => if i = 2 then some (-127) else none,
                               loopFilterUpdate := fun _ => some 63 }
  mbSegmentationMap := some (fun i => if i = 0 then some 200 else none)

theorem exampleSegmentation_inRange : exampleSegmentation.InRange where
  segmentFeatureData := by
    rintro _ ⟨⟩
    refine ⟨fun i => ?_, fun i => ?_⟩ <;> intro y hy
    · dsimp only at hy; split at hy
      · cases hy; unfold FitsSigned; decide
      · cases hy
    · cases hy; unfold FitsSigned; decide
  map := rfl
  mapRange := by
    rintro _ ⟨⟩ i y hy
    dsimp only at hy; split at hy
    · cases hy; decide
    · cases hy

def exampleQuant : QuantIndices := { yAcQi := 127, yDc := some (-15), y2Dc := none, y2Ac := some 15, uvDc := none, uvAc := some 0 }

theorem exampleQuant_inRange : exampleQuant.InRange := by
  refine ⟨by decide, ?_, ?_, ?_, ?_, ?_⟩ <;> rintro _ ⟨⟩ <;> unfold FitsSigned <;> decide

def exampleKeyHeader : KeyFrameHeader where
  colorSpace := false
  clampingType := false
  updateSegmentation := some exampleSegmentation
  filterType := false
  loopFilterLevel := 63
  sharpnessLevel := 7
  modeLfAdjustments := some (some { refUpdate := fun _ => some (-63), modeUpdate := fun _ => none })
  log2Partitions := 3
  quantIndices := exampleQuant
  refreshEntropyProbs := true
  tokenProbUpdate := fun i _ _ _ => if i = 0 then some 255 else none
  probSkipFalse := some 255

theorem exampleKeyHeader_inRange : exampleKeyHeader.InRange where
  colorSpace := rfl
  clampingType := rfl
  filterType := rfl
  updateSegmentation := by rintro _ ⟨⟩; exact exampleSegmentation_inRange
  loopFilterLevel := by decide
  sharpnessLevel := by decide
  modeLfAdjustments := by
    rintro _ ⟨⟩ _ ⟨⟩
    refine ⟨fun i => ?_, fun i => ?_⟩ <;> rintro _ ⟨⟩
    unfold FitsSigned; decide
  log2Partitions := by decide
  quantIndices := exampleQuant_inRange
  tokenProbUpdate := by
    intro i j k l y hy
    unfold exampleKeyHeader at hy
    dsimp only at hy; split at hy
    · cases hy; decide
    · cases hy
  probSkipFalse := by rintro _ ⟨⟩; decide

example : RoundTrips parseKeyFrameHeader (encKeyFrameHeader exampleKeyHeader) exampleKeyHeader :=
  C05_key_frame_header_round_trip _ exampleKeyHeader_inRange

def exampleInterHeader : InterFrameHeader where
  updateSegmentation := some exampleSegmentation
  filterType := false
  loopFilterLevel := 1
  sharpnessLevel := 2
  modeLfAdjustments := none
  log2Partitions := 1
  quantIndices := exampleQuant
  refreshGoldenFrame := true
  refreshAlternateFrame := false
  copyBufferToGolden := none
  copyBufferToAlternate := some 2
  signBiasGolden := true
  signBiasAlternate := false
  refreshEntropyProbs := false
  refreshLast := true
  tokenProbUpdate := fun _ _ _ l => if l = 3 then some 17 else none
  probSkipFalse := none
  probInter := 255
  probReferencesLast := 0
  probReferencesGolden := 128
  intra16x16Prob := some (fun _ => 9)
  intraChromaProb := none
  mvProbUpdate := fun _ _ => some 127

theorem exampleInterHeader_inRange : exampleInterHeader.InRange where
  filterType := rfl
  updateSegmentation := by rintro _ ⟨⟩; exact exampleSegmentation_inRange
  loopFilterLevel := by decide
  sharpnessLevel := by decide
  modeLfAdjustments := by rintro _ ⟨⟩
  log2Partitions := by decide
  quantIndices := exampleQuant_inRange
  copyGolden := rfl
  copyGoldenRange := by rintro _ ⟨⟩
  copyAlternate := rfl
  copyAlternateRange := by rintro _ ⟨⟩; decide
  tokenProbUpdate := by
    intro i j k l y hy
    unfold exampleInterHeader at hy
    dsimp only at hy; split at hy
    · cases hy; decide
    · cases hy
  probSkipFalse := by rintro _ ⟨⟩
  probInter := by decide
  probReferencesLast := by decide
  probReferencesGolden := by decide
  intra16x16Prob := by rintro _ ⟨⟩ _; exact (by decide : 9 < 256)
  intraChromaProb := by rintro _ ⟨⟩
  mvProbUpdate := by rintro _ _ _ ⟨⟩; decide

example : RoundTrips parseInterFrameHeader (encInterFrameHeader exampleInterHeader) exampleInterHeader :=
  C05_inter_frame_header_round_trip _ exampleInterHeader_inRange

end Alfalfa
