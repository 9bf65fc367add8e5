import Verif.Spec.HeaderBits
import Verif.Props.Header

/-! C108: the frame header has the fields, widths, order and conditions the format gives. -/

namespace Alfalfa

open HeaderSpec

theorem encUnsigned_spec (n v : Nat) : encUnsigned n v = L n v := by
  induction n with
  | zero => rfl
  | succ n ih =>
    unfold encUnsigned
    rw [ih]
    unfold L
    rw [List.range_succ_eq_map, List.map_cons, List.map_map]
    congr 1
    · rw [Nat.one_shiftLeft, Nat.and_two_pow]
      simp only [Nat.add_sub_cancel, Nat.sub_zero]
      cases v.testBit n <;> simp
    · refine List.map_congr_left fun i _ => ?_
      simp only [Function.comp_apply, Prod.mk.injEq, and_true]
      congr 1
      omega

theorem encSigned_spec (n : Nat) (v : Int) : encSigned n v = signed n v := by
  unfold encSigned signed
  rw [encUnsigned_spec]
  rfl

theorem encFlagged_spec {α : Type} (p : Prob) {f g : α → Bits} (h : ∀ x, f x = g x) (x : Option α) :
    encFlagged p f x = present p g x := by
  cases x with
  | none => rfl
  | some x => exact congrArg (List.cons _) (h x)

theorem encFin_spec : ∀ (n : Nat) {f g : Fin n → Bits}, (∀ i, f i = g i) → encFin n f = each n g
  | 0, _, _, _ => rfl
  | n + 1, f, g, h => by
    unfold encFin each
    rw [List.finRange_succ, List.flatMap_cons, h 0, encFin_spec n (g := fun i => g i.succ) fun i => h i.succ, List.flatMap_map]
    rfl

theorem segmentation_spec (h : UpdateSegmentation) : encUpdateSegmentation h = segmentation h := by
  unfold encUpdateSegmentation segmentation
  simp only [List.flatten_cons, List.flatten_nil, List.append_nil, List.append_assoc]
  congr 1
  congr 1
  · cases h.segmentFeatureData with
    | none => rfl
    | some d =>
      unfold encFlagged encOptional encSegmentFeatureData
      simp only [List.flatten_cons, List.flatten_nil, List.append_nil]
      rw [encFin_spec 4 fun i => encFlagged_spec 128 (encSigned_spec 7) (d.quantizerUpdate i),
        encFin_spec 4 fun i => encFlagged_spec 128 (encSigned_spec 6) (d.loopFilterUpdate i)]
      rfl
  · cases h.mbSegmentationMap with
    | none => rfl
    | some m => exact encFin_spec 3 fun i => encFlagged_spec 128 (encUnsigned_spec 8) (m i)

theorem filterAdjustments_spec (h : Option (Option ModeRefLFDeltaUpdate)) :
    encFlagged 128 (encFlagged 128 encModeRefLFDeltaUpdate) h = filterAdjustments h := by
  match h with
  | none => rfl
  | some none => rfl
  | some (some d) =>
    show (true, 128) :: (true, 128) :: encModeRefLFDeltaUpdate d = _
    unfold encModeRefLFDeltaUpdate filterAdjustments
    simp only [List.flatten_cons, List.flatten_nil, List.append_nil]
    rw [encFin_spec 4 fun i => encFlagged_spec 128 (encSigned_spec 6) (d.refUpdate i),
      encFin_spec 4 fun i => encFlagged_spec 128 (encSigned_spec 6) (d.modeUpdate i)]
    rfl

theorem quantizers_spec (q : QuantIndices) : encQuantIndices q = quantizers q := by
  unfold encQuantIndices quantizers
  simp only [List.flatten_cons, List.flatten_nil, List.append_nil, List.append_assoc, encUnsigned_spec,
    encFlagged_spec 128 (encSigned_spec 4)]

theorem tokenProbs_spec (u : TokenProbUpdate) : encTokenProbUpdate u = tokenProbs u :=
  encFin_spec 4 fun i => encFin_spec 8 fun j => encFin_spec 3 fun k => encFin_spec 11 fun m =>
    encFlagged_spec _ (encUnsigned_spec 8) (u i j k m)

theorem vectorProbs_spec (u : MVProbUpdate) : encMVProbUpdate u = vectorProbs u :=
  encFin_spec 2 fun i => encFin_spec 19 fun j => encFlagged_spec _ (encUnsigned_spec 7) (u i j)

/-- **C108**, key frames: what is written for any header is what the format lays out, and the parser reads it as that
header. -/
theorem C108_key_header (h : KeyFrameHeader) (hr : h.InRange) :
    encKeyFrameHeader h = key h ∧ RoundTrips parseKeyFrameHeader (key h) h := by
  have e : encKeyFrameHeader h = key h := by
    unfold encKeyFrameHeader key
    simp only [List.flatten_cons, List.flatten_nil, List.append_nil, List.append_assoc, encUnsigned_spec,
      encFlagged_spec 128 segmentation_spec, encFlagged_spec 128 (encUnsigned_spec 8), filterAdjustments_spec, quantizers_spec,
      tokenProbs_spec]
    rfl
  exact ⟨e, e ▸ C05_key_frame_header_round_trip h hr⟩

/-- **C108**, inter frames. -/
theorem C108_inter_header (h : InterFrameHeader) (hr : h.InRange) :
    encInterFrameHeader h = inter h ∧ RoundTrips parseInterFrameHeader (inter h) h := by
  have copy : ∀ (o : Option Nat) (refresh : Bool), o.isSome = !refresh →
      encOptional (encUnsigned 2) o = if refresh then [] else L 2 (o.getD 0) := by
    intro o refresh ho
    cases o with
    | none => cases refresh with
      | true => rfl
      | false => cases ho
    | some v => cases refresh with
      | true => cases ho
      | false => exact encUnsigned_spec 2 v
  have e : encInterFrameHeader h = inter h := by
    unfold encInterFrameHeader inter
    rw [encFlagged_spec 128 (fun v : Fin 4 → Nat => encFin_spec 4 fun i => encUnsigned_spec 8 (v i)),
      encFlagged_spec 128 (fun v : Fin 3 → Nat => encFin_spec 3 fun i => encUnsigned_spec 8 (v i))]
    simp only [List.flatten_cons, List.flatten_nil, List.append_nil, List.append_assoc, encUnsigned_spec,
      encFlagged_spec 128 segmentation_spec, encFlagged_spec 128 (encUnsigned_spec 8), filterAdjustments_spec, quantizers_spec,
      tokenProbs_spec, vectorProbs_spec, copy _ _ hr.copyGolden, copy _ _ hr.copyAlternate]
    rfl
  exact ⟨e, e ▸ C05_inter_frame_header_round_trip h hr⟩

/-! ### Concrete cases -/

/-- The level 37 in six bits. -/
example : L 6 37 = [(true, 128), (false, 128), (false, 128), (true, 128), (false, 128), (true, 128)] := by decide

/-- The quantizer 100 with the difference -3 for the DC of the Y2 block only. -/
example : quantizers ⟨100, none, some (-3), none, none, none⟩ =
    [(true, 128), (true, 128), (false, 128), (false, 128), (true, 128), (false, 128), (false, 128),
     (false, 128), (true, 128), (false, 128), (false, 128), (true, 128), (true, 128), (true, 128), (false, 128), (false, 128), (false, 128)] := by
  decide

/-- A header with segments, a filter and a skip probability. -/
def headerExample : KeyFrameHeader :=
  { colorSpace := false, clampingType := false, filterType := false
    updateSegmentation := some ⟨true, some ⟨true, fun i => some (i.val * 10), fun _ => some (-5)⟩, some fun _ => some 200⟩
    loopFilterLevel := 37, sharpnessLevel := 2, modeLfAdjustments := some (some ⟨fun _ => some 3, fun _ => none⟩)
    log2Partitions := 1, quantIndices := ⟨100, none, some (-3), none, none, none⟩, refreshEntropyProbs := true
    tokenProbUpdate := fun _ _ _ _ => none, probSkipFalse := some 240 }

example : headerExample.InRange := by
  refine ⟨rfl, rfl, rfl, ?_, by decide, by decide, ?_, by decide, ?_, fun _ _ _ _ _ h => (nomatch h), ?_⟩
  · rintro _ ⟨⟩
    refine ⟨?_, rfl, ?_⟩
    · rintro _ ⟨⟩
      refine ⟨fun i => ?_, fun i => ?_⟩
      · rintro _ ⟨⟩
        unfold FitsSigned
        omega
      · rintro _ ⟨⟩
        unfold FitsSigned
        decide
    · rintro _ ⟨⟩ i _ ⟨⟩
      decide
  · rintro _ ⟨⟩ _ ⟨⟩
    exact ⟨fun i => by rintro _ ⟨⟩; unfold FitsSigned; decide, fun i _ h => nomatch h⟩
  · exact ⟨by decide, fun _ h => (nomatch h), by rintro _ ⟨⟩; unfold FitsSigned; decide, fun _ h => (nomatch h),
      fun _ h => (nomatch h), fun _ h => (nomatch h)⟩
  · rintro _ ⟨⟩
    decide

end Alfalfa
