import Verif.Props.DecoderExamples
import Verif.Props.Bundle

/-! # Encoding from a state with segments (C103, C17)

The encoder keeps the segmentation of the state that it starts from and renders its own frames with it (src/encoder/encoder.cc:146-160), but
its frames say that there are no segments, and the decoder drops them at the first of these frames.  So the two make different pictures of
the same frame. -/

namespace Alfalfa

open RenderSpec

/-- What a renderer makes of a frame of the encoder, in which no macroblock names a segment. -/
def Frame.picture (R : Renderer) (s : Option Segmentation) (a : Option FilterAdjustments) (references : References) (f : Frame InterFrameHeader) : Raster :=
  R.inter s a references { frame := f, segmentIds := f.modes.map fun _ => 0 }

/-- **C103, states with segments.** Whatever the encoder has been started from, and whatever frame it writes: the decoder accepts the frame and
shows what the frame is without segments; the encoder takes for its next reference what the frame is with the segments that it keeps. -/
theorem C103_segments (R : Renderer) (e : Encoder) (f : Frame InterFrameHeader) (hf : InterEmittable e f) :
    ∃ (e' : Encoder) (bytes : List UInt8) (adjustments : Option FilterAdjustments), e.writeInter R f = some (e', bytes) ∧
      e'.references = e.references.copyInter f.header (f.picture R e.state.segmentation adjustments e.references) ∧ e'.state.segmentation = e.state.segmentation ∧
      e.exportDecoder.getFrameOutput R bytes =
        (⟨{ e'.state with segmentation := none }, e.references.copyInter f.header (f.picture R none adjustments e.references)⟩,
          .ok (f.show', f.picture R none adjustments e.references)) := by
  obtain ⟨bytes, parts, d, h1, h2, h3, -, h5, h6, h7⟩ := parse_serialized interKind_lawful hf.ok e.state.tables hf.first hf.tokens
  have htab : interKind.tables (e.updateStateInter f.header).tables f.header = interKind.tables e.state.tables f.header := by
    show interKind.tables (if f.header.refreshEntropyProbs then interKind.tables e.state.tables f.header else e.state.tables) f.header = _
    by_cases hr : f.header.refreshEntropyProbs = true
    · rw [if_pos hr]; exact interTables_idem _ _
    · rw [if_neg hr]
  have hseg : (e.state.applyInterHeader f.header).segmentation = none := by
    show f.header.updateSegmentation.map _ = none
    rw [hf.segmentation]; rfl
  have hst : ({ e.updateStateInter f.header with segmentation := none } : DecoderState) = e.state.applyInterHeader f.header := by
    refine DecoderState.ext rfl rfl rfl hseg.symm ?_
    show (match f.header.modeLfAdjustments with | some u => some ((e.state.filterAdjustments.getD {}).update u) | none => none) =
      f.header.modeLfAdjustments.map _
    cases f.header.modeLfAdjustments <;> rfl
  obtain ⟨seg, ids, s1, s2⟩ := h7 (e.state.applyInterHeader f.header) hf.width.symm hf.height.symm (by rw [hseg]; exact fun _ h => nomatch h)
  rw [hseg] at s1
  simp only [applySegmentation, Option.some.injEq, Prod.mk.injEq] at s1
  obtain ⟨rfl, rfl⟩ := s1
  have happly : e.state.applyInter parts = (e.state.applyInterHeader f.header, .ok { frame := f, segmentIds := f.modes.map fun _ => 0 }) := by
    unfold DecoderState.applyInter
    rw [show parseInterFrameHeader = interKind.parseHeader from rfl, h6]
    refine s2.trans ?_
    congr 1
    refine DecoderState.ext rfl rfl rfl ?_ rfl
    exact hseg.symm
  rw [hf.width, hf.height] at h2
  refine ⟨⟨e.updateStateInter f.header, e.references.copyInter f.header (f.picture R e.state.segmentation (e.updateStateInter f.header).filterAdjustments e.references)⟩,
    bytes, (e.updateStateInter f.header).filterAdjustments, ?_, rfl, rfl, ?_⟩
  · unfold Encoder.writeInter
    show (interKind.serialize (e.updateStateInter f.header).tables f).bind _ = _
    rw [serialize_congr _ htab, h1]
    rfl
  · rw [output_inter (d := e.exportDecoder) h2 h3 h5 happly, ← hst]
    rfl

/-- A loop over the macroblocks of a frame in which no macroblock names a segment. -/
theorem forMacroblocks_ignores {H : Type} {f : Frame H} {step step' : Raster → Nat → Nat → MBModes → Residue → Nat → Option Raster}
    (h : ∀ s column row m r, step s column row m r 0 = step' s column row m r 0) (s : Raster) :
    forMacroblocks { frame := f, segmentIds := f.modes.map fun _ => 0 } step s = forMacroblocks { frame := f, segmentIds := f.modes.map fun _ => 0 } step' s := by
  unfold forMacroblocks
  dsimp only
  congr 1
  funext s k
  cases hm : f.modes[k]? with
  | none => rfl
  | some m =>
    cases hr : f.residues[k]? with
    | none => rfl
    | some r =>
      have : (f.modes.map fun _ => (0 : Nat))[k]? = some 0 := by rw [List.getElem?_map, hm]; rfl
      simp only [this, Option.bind_eq_bind, Option.bind_some]
      exact h ..

/-- **C103, segments that change nothing.** If the segment 0 of the state changes neither the quantizer nor the level of the filter, encoder and
decoder make the same picture of every frame. -/
theorem C103_segments_neutral (s : Segmentation) (h1 : s.absolute = false) (h2 : s.quantizer 0 = 0) (h3 : s.filter 0 = 0) (a : Option FilterAdjustments)
    (references : References) (f : Frame InterFrameHeader) (hf : InterFrameOk f) :
    f.picture codeRenderer (some s) a references = f.picture codeRenderer none a references := by
  have hq : macroblockQuantizer (some s) f.header.quantIndices 0 = macroblockQuantizer none f.header.quantIndices 0 := by
    show quantizer (segmentIndices s f.header.quantIndices 0) = quantizer f.header.quantIndices
    unfold segmentIndices
    have hb : f.header.quantIndices.yAcQi < 2 ^ 7 := hf.header.quantIndices.yAcQi
    have : toUInt8 (s.quantizer 0 + (if s.absolute then 0 else (f.header.quantIndices.yAcQi : Int))) = f.header.quantIndices.yAcQi := by
      rw [h1, h2, if_neg (by decide)]
      unfold toUInt8
      omega
    rw [this]
  have hp (simple : Bool) (level sharpness : Nat) : macroblockFilterParameters (some s) simple level sharpness 0 = macroblockFilterParameters none simple level sharpness 0 := by
    show some ({ simple, level := s.filter 0 + (if s.absolute then 0 else (level : Int)), sharpness } : FilterParameters) = _
    rw [h1, h3, if_neg (by decide), Int.zero_add]
    rfl
  have hl (s' : Raster) : loopfilterFrame false f.header.filterType f.header.loopFilterLevel f.header.sharpnessLevel (some s) a
      { frame := f, segmentIds := f.modes.map fun _ => 0 } s' = loopfilterFrame false f.header.filterType f.header.loopFilterLevel f.header.sharpnessLevel none a
      { frame := f, segmentIds := f.modes.map fun _ => 0 } s' := by
    unfold loopfilterFrame
    split
    · exact forMacroblocks_ignores (fun s column row m r => by rw [hp]) _
    · rfl
  show settled _ _ (renderInter _ _ _ _ _) = settled _ _ (renderInter _ _ _ _ _)
  refine congrArg (settled f.width f.height) ?_
  unfold renderInter
  rw [show decodeInterFrame (some s) references { frame := f, segmentIds := f.modes.map fun _ => 0 } (blankRaster f.width f.height) =
    decodeInterFrame none references { frame := f, segmentIds := f.modes.map fun _ => 0 } (blankRaster f.width f.height) from
    forMacroblocks_ignores (fun s column row m r => by dsimp only; rw [hq]) _]
  exact congrArg (Option.bind _) (funext hl)

/-! ### A state of which the pictures differ -/

/-- Segments with quantizers of their own. -/
def driftSegmentation : Segmentation := { absolute := true, quantizer := fun _ => 0, filter := fun _ => 0, mapWidth := 17, mapHeight := 20, map := List.replicate 340 0 }

/-- A decoder of black pictures in this state. -/
def driftDecoder : Decoder := ⟨{ width := 17, height := 20, segmentation := some driftSegmentation }, exampleFresh⟩

theorem driftDecoder_ok : driftDecoder.Ok := by
  refine ⟨⟨by decide, by decide, ?_, fun _ h => (nomatch h)⟩, blank_ok 17 20, blank_ok 17 20, blank_ok 17 20⟩
  rintro s ⟨⟩
  refine ⟨rfl, rfl, List.length_replicate, fun v hv => ?_, fun _ => ⟨by show -127 ≤ (0 : Int); decide, by show (0 : Int) ≤ 127; decide⟩,
    fun _ => ⟨by show -63 ≤ (0 : Int); decide, by show (0 : Int) ≤ 63; decide⟩⟩
  rw [List.eq_of_mem_replicate hv]
  decide

/-- An inter frame with one coefficient, of the last macroblock. -/
def driftFrame : Frame InterFrameHeader :=
  { exampleInterFrame2 with
    show' := true
    header := { exampleInterFrame2.header with loopFilterLevel := 0 }
    residues := List.replicate 3 {} ++ [{ u := fun i => if i.val = 0 then { coeffs := fun i => if i.val = 0 then 8 else 0, hasNonzero := true } else {}, nonzero := true }] }

theorem driftFrame_ok : InterFrameOk driftFrame where
  header := { exampleInterFrame2_ok.header with loopFilterLevel := by show 0 < 2 ^ 6; decide }
  width := exampleInterFrame2_ok.width
  height := exampleInterFrame2_ok.height
  count := exampleInterFrame2_ok.count
  countResidues := by decide
  modes := by
    intro k m hm
    have h := exampleInterFrame2_ok.modes k m hm
    refine ⟨⟨h.pre.segmentPresent, h.pre.segmentRange, h.pre.skipPresent⟩, ?_⟩
    rcases h.cases with h | ⟨s, h1, h2⟩
    · exact .inl h
    · exact .inr ⟨s, h1, { h2 with }⟩
  residues := by
    have h0 : Residue.Ok { isInter := true, sel1 := some false, yMode := ZEROMV } {} :=
      ⟨fun _ => rfl, fun _ => rfl, representable_default _, fun _ => representable_default _,
        fun _ => representable_default _, fun _ => representable_default _, by decide +kernel⟩
    intro k m r hm hr
    rcases k with _ | _ | _ | _ | k
    · cases hm; cases hr; exact h0
    · cases hm; cases hr; exact h0
    · cases hm; cases hr; exact h0
    · cases hm; cases hr
      refine ⟨fun h => absurd h (by decide), fun h => absurd h (by decide), representable_default _, fun _ => representable_default _, fun i => ?_,
        fun _ => representable_default _, by decide +kernel⟩
      show (if i.val = 0 then _ else _ : Block).Representable _
      split
      · exact ⟨by decide +kernel, fun h => absurd h (by decide), by decide +kernel⟩
      · exact representable_default _
    · exact nomatch hm

/-- The pixel of the picture of `driftFrame` at the place of the coefficient. -/
theorem driftFrame_pixel {s : Option Segmentation} {Q : Nat → Quantizer}
    (hQ : ∀ id, id < 4 → macroblockQuantizer s driftFrame.header.quantIndices id = some (Q id)) (a : Option FilterAdjustments) :
    (driftFrame.picture codeRenderer s a exampleFresh).u.px 8 8 =
      UInt8.ofNat (IntraSpec.limited (chromaPrediction exampleFresh.alternative.u exampleFresh.alternative.u
        { isInter := true, sel1 := some true, sel2 := some true, yMode := ZEROMV } 1 1 0 0 +
        (codeResidues (Q 0) {} { u := fun i => if i.val = 0 then { coeffs := fun i => if i.val = 0 then 8 else 0, hasNonzero := true } else {}, nonzero := true }).u 0 0)) := by
  have hr : Ready { frame := driftFrame, segmentIds := driftFrame.modes.map fun _ => 0 } := InterFrameOk.ready driftFrame_ok (List.length_map _)
    (fun v hv => by obtain ⟨m, -, rfl⟩ := List.mem_map.1 hv; decide)
  obtain ⟨t, e1, e2, e3⟩ := decodeInter_sums (f := { frame := driftFrame, segmentIds := driftFrame.modes.map fun _ => 0 }) driftFrame_ok hr hQ
    (refs := exampleFresh) ⟨blank_ok 17 20, blank_ok 17 20, blank_ok 17 20⟩ (s := blankRaster 17 20) (blank_ok 17 20)
  have h3 := (e3 3 (by decide)).u 0 0
  have hp : driftFrame.picture codeRenderer s a exampleFresh = t := by
    show settled 17 20 (renderInter _ _ _ _ (blankRaster 17 20)) = t
    unfold renderInter
    rw [e1]
    show settled 17 20 (some t) = t
    unfold settled
    dsimp only
    rw [if_pos]
    have e2 : t.Ok 17 20 := e2
    obtain ⟨a1, a2, a3, a4, a5, a6, a7, a8, a9, a10, a11⟩ := e2
    simp [Raster.hasSize, *]
  rw [hp]
  exact h3

/-- **C103, the pictures drift apart.** A state file, and a frame that the encoder started from it may write: at one pixel the decoder shows 132 and
the encoder predicts its next frame from 4. -/
theorem C103_segments_drift : ∃ (state : List UInt8) (d : Decoder) (f : Frame InterFrameHeader) (e' : Encoder) (bytes : List UInt8) (d' : Decoder) (shown : Raster),
    (∀ blank, loadDecoder blank state = some d) ∧ d.Ok ∧ InterFrameOk f ∧ (⟨d.state, d.references⟩ : Encoder).writeInter codeRenderer f = some (e', bytes) ∧
      d.getFrameOutput codeRenderer bytes = (d', .ok (true, shown)) ∧ d'.references.last = shown ∧ shown.u.px 8 8 = 132 ∧ e'.references.last.u.px 8 8 = 4 := by
  obtain ⟨-, l2⟩ := C68_lengths_fit (width := 17) (height := 20) (by decide)
  have hi : InterEmittable ⟨driftDecoder.state, driftDecoder.references⟩ driftFrame := ⟨driftFrame_ok, rfl, rfl, rfl, (l2 _ _ driftFrame_ok rfl rfl).1,
    fun bs hbs b hb => (l2 _ _ driftFrame_ok rfl rfl).2 bs hbs b (List.dropLast_subset _ hb)⟩
  obtain ⟨e', bytes, a, h1, h2, -, h4⟩ := C103_segments codeRenderer _ _ hi
  refine ⟨saveDecoder driftDecoder, driftDecoder, driftFrame, e', bytes, _, _, fun blank => (C16_restores_exactly_iff _ driftDecoder_ok blank).2 ⟨rfl, rfl⟩,
    driftDecoder_ok, driftFrame_ok, h1, h4, (copyInter_spec driftFrame.header _ _).1.trans (if_pos rfl), ?_, ?_⟩
  · rw [show (⟨driftDecoder.state, driftDecoder.references⟩ : Encoder).references = exampleFresh from rfl,
      driftFrame_pixel (Q := fun _ => (quantizer driftFrame.header.quantIndices).getD ⟨0, 0, 0, 0, 0, 0⟩) (fun _ _ => by show quantizer _ = _; decide +kernel)]
    decide +kernel
  · rw [h2, show ((⟨driftDecoder.state, driftDecoder.references⟩ : Encoder).references.copyInter driftFrame.header
        (driftFrame.picture codeRenderer driftDecoder.state.segmentation a driftDecoder.references)).last =
        driftFrame.picture codeRenderer (some driftSegmentation) a exampleFresh from (copyInter_spec driftFrame.header _ _).1.trans (if_pos rfl),
      driftFrame_pixel (Q := fun _ => (segmentQuantizer driftSegmentation driftFrame.header.quantIndices 0).getD ⟨0, 0, 0, 0, 0, 0⟩)
        (fun id hid => by
          show (if h : id < 4 then segmentQuantizer driftSegmentation driftFrame.header.quantIndices ⟨id, h⟩ else none) = _
          rw [dif_pos hid]
          revert id; decide +kernel)]
    decide +kernel

/-- A neutral segmentation: the hypotheses of `C103_segments_neutral` hold for the frame above. -/
example (a : Option FilterAdjustments) :
    driftFrame.picture codeRenderer (some { absolute := false, quantizer := fun i => i.val, filter := fun i => - i.val, mapWidth := 17, mapHeight := 20, map := [] }) a exampleFresh =
      driftFrame.picture codeRenderer none a exampleFresh :=
  C103_segments_neutral _ rfl rfl rfl a _ _ driftFrame_ok

end Alfalfa
