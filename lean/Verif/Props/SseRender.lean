import Verif.Props.Fidelity
import Verif.Proof.SseEncode
import Verif.Props.Reencode

/-! **C85** (whole pictures): a decoder that was built with the vector code shows the pictures that one without it shows. -/

namespace Alfalfa

open RenderSpec TransformSpec

/-- **C85** (key frames): for every key frame that the parser accepts, if the sums of its transforms fit in 16 bits, the decoder with vector
instructions gives the picture of the portable one, whatever is in the memory and the registers that nobody wrote. -/
theorem C85_key_frame_partial {f : ParsedFrame KeyFrameHeader} (hf : KeyFrameOk f.frame) (hl : f.segmentIds.length = f.frame.modes.length)
    (hi : ∀ v ∈ f.segmentIds, v < 4) (segmentation : Option Segmentation) (adjustments : Option FilterAdjustments)
    (hfit : FrameSumsFit (macroblockQuantizer segmentation f.frame.header.quantIndices) f) :
    ∃ t : Raster, t.Ok f.frame.width f.frame.height ∧ ∀ (z : Leftovers) (scratch : Raster), scratch.Ok f.frame.width f.frame.height →
      sseRenderKey z segmentation adjustments f scratch = some t ∧ renderKey segmentation adjustments f scratch = some t := by
  have hr := KeyFrameOk.ready hf hl hi
  obtain ⟨t, t1, t2⟩ := C63_key_frame hf hl hi segmentation adjustments
  refine ⟨t, t1, fun z scratch hs => ⟨?_, t2 scratch hs⟩⟩
  rw [← t2 scratch hs]
  obtain ⟨Q, hQ⟩ := quantizers_exist hf.header.quantIndices segmentation
  obtain ⟨s, e1, e2, -⟩ := decodeKey_sums hf hr hQ (fun _ => scratch) hs
  unfold sseRenderKey renderKey
  rw [sseDecodeKeyFrame_eq hf hr z hfit hs, e1, Option.bind_eq_bind, Option.bind_some, Option.bind_some]
  dsimp only
  rw [hf.header.filterType]
  exact sseLoopfilterFrame_eq hr (fun k m hm => key_reference (hf.modes k m hm)) z true (Nat.le_of_lt_succ hf.header.sharpnessLevel) segmentation adjustments e2

/-- **C85** (inter frames): the same for all references of the size of the frame, if no macroblock with several vectors is predicted from their
ends. -/
theorem C85_inter_frame_partial {f : ParsedFrame InterFrameHeader} (hf : InterFrameOk f.frame) (hl : f.segmentIds.length = f.frame.modes.length)
    (hi : ∀ v ∈ f.segmentIds, v < 4) (segmentation : Option Segmentation) (adjustments : Option FilterAdjustments) {refs : References}
    (hrefs : refs.Ok f.frame.width f.frame.height) (hfit : FrameSumsFit (macroblockQuantizer segmentation f.frame.header.quantIndices) f)
    (hclear : FrameClear refs f) :
    ∃ t : Raster, t.Ok f.frame.width f.frame.height ∧ ∀ (z : Leftovers) (scratch : Raster), scratch.Ok f.frame.width f.frame.height →
      sseRenderInter z segmentation adjustments refs f scratch = some t ∧ renderInter segmentation adjustments refs f scratch = some t := by
  have hr := InterFrameOk.ready hf hl hi
  obtain ⟨t, t1, t2⟩ := C63_inter_frame hf hl hi segmentation adjustments hrefs
  refine ⟨t, t1, fun z scratch hs => ⟨?_, t2 scratch hs⟩⟩
  rw [← t2 scratch hs]
  obtain ⟨Q, hQ⟩ := quantizers_exist hf.header.quantIndices segmentation
  obtain ⟨s, e1, e2, -⟩ := decodeInter_sums hf hr hQ hrefs hs
  unfold sseRenderInter renderInter
  rw [sseDecodeInterFrame_eq hf hr z hrefs hfit hclear hs, e1, Option.bind_eq_bind, Option.bind_some, Option.bind_some]
  dsimp only
  rw [hf.header.filterType]
  exact sseLoopfilterFrame_eq hr (fun k m hm => inter_reference (hf.modes k m hm)) z false (Nat.le_of_lt_succ hf.header.sharpnessLevel) segmentation adjustments e2

/-- **C85** (decoder): for every decoder and all bytes with moderate numbers, a decoder with vector instructions does exactly what the portable
one does: it rejects the same bytes for the same reason, shows the same picture and is left in the same state. -/
theorem C85_decoder_partial (z : Leftovers) {d : Decoder} (hd : d.Ok) {bytes : List UInt8} (hm : Moderate d bytes) :
    d.getFrameOutput (sseRenderer z) bytes = d.getFrameOutput codeRenderer bytes := by
  unfold Decoder.getFrameOutput
  cases hs : splitFrame bytes d.state.width d.state.height false with
  | error e => rfl
  | ok c =>
    dsimp only
    split
    · next hk =>
      cases ha : d.state.applyKey c with
      | mk st r =>
        cases r with
        | error e => rfl
        | ok f =>
          obtain ⟨_, hh⟩ := C12_key_frame_total d.state hd.state c
          rw [ha] at hh
          rcases hh with ⟨hh, _⟩ | hh | hh | ⟨p, hp, h1, h2, h3, h4, h5⟩
          · simp at hh
          · simp at hh
          · simp at hh
          · obtain rfl : f = p := by simpa using hp
            obtain ⟨t, -, ht⟩ := C85_key_frame_partial h1 h4 h5 st.segmentation st.filterAdjustments (hm.key c st f hs hk ha)
            have e : (sseRenderer z).key st.segmentation st.filterAdjustments f = codeRenderer.key st.segmentation st.filterAdjustments f := by
              show settled _ _ (sseRenderKey _ _ _ _ _) = settled _ _ (renderKey _ _ _ _)
              rw [(ht z _ (blank_ok _ _)).1, (ht z _ (blank_ok _ _)).2]
            simp only [Decoder.decodeKey, e]
    · next hk =>
      split
      · cases ha : d.state.applyInter c with
        | mk st r =>
          cases r with
          | error e => rfl
          | ok f =>
            obtain ⟨_, hh⟩ := C12_inter_frame_total d.state hd.state c
            rw [ha] at hh
            rcases hh with hh | hh | ⟨p, hp, h1, h2, h3, h4, h5⟩
            · simp at hh
            · simp at hh
            · obtain rfl : f = p := by simpa using hp
              have hrefs : d.references.Ok f.frame.width f.frame.height := by rw [h2, h3]; exact hd.references
              obtain ⟨m1, m2⟩ := hm.inter c st f hs (by simpa using hk) ha
              obtain ⟨t, -, ht⟩ := C85_inter_frame_partial h1 h4 h5 st.segmentation st.filterAdjustments hrefs m1 m2
              have e : (sseRenderer z).inter st.segmentation st.filterAdjustments d.references f =
                  codeRenderer.inter st.segmentation st.filterAdjustments d.references f := by
                show settled _ _ (sseRenderInter _ _ _ _ _ _) = settled _ _ (renderInter _ _ _ _ _)
                rw [(ht z _ (blank_ok _ _)).1, (ht z _ (blank_ok _ _)).2]
              simp only [Decoder.decodeInter, e]
      · rfl

/-- **C85** (any history): so for every sequence of frames with moderate numbers. -/
theorem C85_run_partial (z : Leftovers) : ∀ (frames : List (List UInt8)) {d : Decoder}, d.Ok → AllModerate codeRenderer d frames →
    d.run (sseRenderer z) frames = d.run codeRenderer frames
  | [], _, _, _ => rfl
  | bytes :: rest, d, hd, h => by
    unfold Decoder.run
    rw [C85_decoder_partial z hd h.1]
    have hd' := (C18_rejected_frame_leaves_usable codeRenderer C63_renderer d hd bytes).1
    have ih := C85_run_partial z rest (d := (d.getFrameOutput codeRenderer bytes).1) hd' h.2
    cases e : d.getFrameOutput codeRenderer bytes with
    | mk d1 out =>
      rw [e] at ih
      dsimp only at ih ⊢
      rw [ih]

/-! ### The frames that the encoder makes -/

theorem encodeKey_fits {d : KeyChoices} (hkept : d.TypesKept) {h : KeyFrameHeader} {i : QuantIndices} (hi : i.InRange) {o s : Raster} {width height : Nat}
    {f : Frame KeyFrameHeader} {shown : Raster} (he : encodeKey d h i o width height s = some (f, shown)) {q : Quantizer} (hq : quantizer i = some q) :
    List.Forall₂ (SumsFit q) f.modes f.residues := by
  have hqr := C43_range (by have := hi.yAcQi; omega) hi.differences hq
  obtain ⟨q', hq', he⟩ := bind_some he
  obtain rfl : q = q' := Option.some.inj (hq.symm.trans hq')
  obtain ⟨⟨c, u⟩, hc, he⟩ := bind_some he
  obtain ⟨skip, -, he⟩ := bind_some he
  obtain ⟨raster, -, he⟩ := bind_some he
  cases he
  exact keyPasses_fits hkept hqr hc

theorem encodeInter_fits {d : InterChoices} {e : Encoder} {h : InterFrameHeader} {i : QuantIndices} (hi : i.InRange) {o s : Raster} {f : Frame InterFrameHeader}
    {shown : Raster} (he : encodeInter d e h i o s = some (f, shown)) {q : Quantizer} (hq : quantizer i = some q) : List.Forall₂ (SumsFit q) f.modes f.residues := by
  have hqr := C43_range (by have := hi.yAcQi; omega) hi.differences hq
  obtain ⟨q', hq', he⟩ := bind_some he
  obtain rfl : q = q' := Option.some.inj (hq.symm.trans hq')
  obtain ⟨c, hc, he⟩ := bind_some he
  obtain ⟨skip, -, he⟩ := bind_some he
  obtain ⟨probs, -, he⟩ := bind_some he
  obtain ⟨u, -, he⟩ := bind_some he
  obtain ⟨raster, -, he⟩ := bind_some he
  cases he
  exact interPass_fits hqr hc

theorem updateResidues_fits {w : ReencodeWork} {e : Encoder} {o : Raster} {old f : Frame InterFrameHeader} {i : QuantIndices} (hi : i.InRange) {last : Bool} {s : Raster}
    (he : updateResidues w e o old i last = some (f, s)) {q : Quantizer} (hq : quantizer i = some q) : List.Forall₂ (SumsFit q) f.modes f.residues := by
  have hqr := C43_range (by have := hi.yAcQi; omega) hi.differences hq
  obtain ⟨q', hq', he⟩ := bind_some he
  obtain rfl : q = q' := Option.some.inj (hq.symm.trans hq')
  obtain ⟨c, hc, he⟩ := bind_some he
  obtain ⟨skip, -, he⟩ := bind_some he
  obtain ⟨refs, -, he⟩ := bind_some he
  obtain ⟨probs, -, he⟩ := bind_some he
  obtain ⟨u, -, he⟩ := bind_some he
  cases he
  exact updatePass_fits hqr hc

theorem unsegmented_ids (modes : List MBModes) : ∀ v ∈ modes.map fun _ => 0, v < 4 := fun v hv => by
  obtain ⟨_, _, rfl⟩ := List.mem_map.1 hv; decide

/-- Without segments there is one quantizer. -/
theorem macroblockQuantizer_none {i : QuantIndices} {q : Quantizer} (hq : quantizer i = some q) (id : Nat) (q' : Quantizer)
    (h : macroblockQuantizer none i id = some q') : q' = q := by
  unfold macroblockQuantizer at h
  exact Option.some.inj (h.symm.trans hq)

/-- **C86** (key frames of this encoder): whatever picture it is given and whatever modes it chooses, a decoder with vector instructions shows,
for a key frame, the picture that the encoder reconstructed without them. -/
theorem C86_key {width height : Nat} (hw : 0 < width ∧ width < 2 ^ 14) (hh : 0 < height ∧ height < 2 ^ 14) {d : KeyChoices} (hd : d.Ok width height)
    (hkept : d.TypesKept) {h : KeyFrameHeader} (hr : h.InRange) (hs : h.updateSegmentation = none) {i : QuantIndices} (hi : i.InRange) {o s : Raster}
    (ho : o.Ok width height) (hsc : s.Ok width height) :
    ∃ f shown, encodeKey d h i o width height s = some (f, shown) ∧ shown.Ok width height ∧
      ∀ (z : Leftovers) (scratch : Raster), scratch.Ok width height →
        sseRenderKey z none (some {}) { frame := f, segmentIds := f.modes.map fun _ => 0 } scratch = some shown := by
  obtain ⟨f, shown, e1, e2, e3, e4, -, -, e5, -, -, -, e6, e7⟩ := C67_key hw hh hd hr hs hi ho hsc
  refine ⟨f, shown, e1, e6, fun z scratch hscratch => ?_⟩
  have hq := C43_quantizer (by have := hi.yAcQi; omega) hi.differences
  have hfit := encodeKey_fits hkept hi e1 hq
  obtain ⟨t, -, ht⟩ := C85_key_frame_partial (f := { frame := f, segmentIds := f.modes.map fun _ => 0 }) e2 (List.length_map ..) (unsegmented_ids _) none (some {})
    (frameSumsFit_of hfit rfl rfl (by show ∀ id q', macroblockQuantizer none f.header.quantIndices id = some q' → _; rw [e5]; exact macroblockQuantizer_none hq))
  obtain ⟨t1, t2⟩ := ht z scratch (by show scratch.Ok f.width f.height; rw [e3, e4]; exact hscratch)
  rw [t1, ← t2]
  exact e7 scratch hscratch

/-- **C86** (inter frames of this encoder): the same, with any references. -/
theorem C86_inter {e : Encoder} (hw : 0 < e.state.width ∧ e.state.width < 2 ^ 14) (hh : 0 < e.state.height ∧ e.state.height < 2 ^ 14)
    (hseg : e.state.segmentation = none) (hrefs : e.references.Ok e.state.width e.state.height) {d : InterChoices} (hd : d.Ok e.state.width e.state.height)
    {h : InterFrameHeader} (hr : h.InRange) (hs : h.updateSegmentation = none) {i : QuantIndices} (hi : i.InRange) {o s : Raster}
    (ho : o.Ok e.state.width e.state.height) (hsc : s.Ok e.state.width e.state.height) :
    ∃ f shown, encodeInter d e h i o s = some (f, shown) ∧ shown.Ok e.state.width e.state.height ∧
      ∀ (z : Leftovers) (scratch : Raster), scratch.Ok e.state.width e.state.height →
        sseRenderInter z none (some {}) e.references { frame := f, segmentIds := f.modes.map fun _ => 0 } scratch = some shown := by
  obtain ⟨f, shown, e1, e2, e3, e4, -, -, e5, -, -, -, -, hsplit, e6, e7⟩ := C67_inter hw hh hseg hrefs hd hr hs hi ho hsc
  refine ⟨f, shown, e1, e6, fun z scratch hscratch => ?_⟩
  have hq := C43_quantizer (by have := hi.yAcQi; omega) hi.differences
  have hfit := encodeInter_fits hi e1 hq
  obtain ⟨t, -, ht⟩ := C85_inter_frame_partial (f := { frame := f, segmentIds := f.modes.map fun _ => 0 }) e2 (List.length_map ..) (unsegmented_ids _) none (some {})
    (refs := e.references) (by show e.references.Ok f.width f.height; rw [e3, e4]; exact hrefs)
    (frameSumsFit_of hfit rfl rfl (by show ∀ id q', macroblockQuantizer none f.header.quantIndices id = some q' → _; rw [e5]; exact macroblockQuantizer_none hq))
    (fun k m hm _ hs => absurd hs (hsplit m (List.mem_of_getElem? hm)))
  obtain ⟨t1, t2⟩ := ht z scratch (by show scratch.Ok f.width f.height; rw [e3, e4]; exact hscratch)
  rw [t1, ← t2]
  exact e7 scratch hscratch

/-- **C86** (the encoder, key frames): an encoder with vector instructions makes the key frame and the picture that one without them
makes from the same choices, whatever these are and whatever is left in its registers. -/
theorem C86_encoder_key {width height : Nat} (hw : 0 < width ∧ width < 2 ^ 14) (hh : 0 < height ∧ height < 2 ^ 14) {d : KeyChoices} (hd : d.Ok width height)
    (hkept : d.TypesKept) {h : KeyFrameHeader} (hr : h.InRange) (hs : h.updateSegmentation = none) {i : QuantIndices} (hi : i.InRange) {o s : Raster}
    (ho : o.Ok width height) (hsc : s.Ok width height) :
    ∃ f shown, encodeKey d h i o width height s = some (f, shown) ∧ ∀ z : Leftovers, sseEncodeKey z d h i o width height s = some (f, shown) := by
  obtain ⟨f, shown, e1, e2, e3, e4, -, -, e5, -, -, -, e6, e7⟩ := C67_key hw hh hd hr hs hi ho hsc
  refine ⟨f, shown, e1, fun z => ?_⟩
  rw [← e1]
  have hq := C43_quantizer (by have := hi.yAcQi; omega) hi.differences
  have hqr := C43_range (by have := hi.yAcQi; omega) hi.differences hq
  obtain ⟨q', hq', he⟩ := bind_some e1
  obtain ⟨⟨c, u⟩, hc, he⟩ := bind_some he
  obtain ⟨skip, hskip, he⟩ := bind_some he
  obtain ⟨raster, hraster, he⟩ := bind_some he
  cases he
  have hcr : c.raster.Ok width height := by
    obtain ⟨c', v, k1, -, k3⟩ := keyPasses_ok hqr hw hh hd hr.tokenProbUpdate ho hsc (h := { h with probSkipFalse := some 0 }) hs rfl (fun _ => o)
    obtain rfl : q' = _ := Option.some.inj (hq'.symm.trans hq)
    rw [hc] at k1
    cases k1
    exact k3.sized.ok
  unfold sseEncodeKey encodeKey
  refine bind_same rfl fun q1 g1 => bind_same ?_ fun x g2 => ?_
  · obtain rfl : q1 = _ := Option.some.inj (g1.symm.trans hq)
    exact sseKeyPasses_eq z hkept hqr _ _ _ _ _
  obtain rfl : q1 = q' := Option.some.inj (g1.symm.trans hq')
  obtain rfl : x = (c, u) := Option.some.inj (g2.symm.trans hc)
  refine bind_same rfl fun skip1 g3 => bind_same ?_ fun _ _ => rfl
  obtain rfl : skip1 = skip := Option.some.inj (g3.symm.trans hskip)
  have hready := KeyFrameOk.ready (f := ⟨_, List.map (fun _ => 0) c.modes⟩) e2 (List.length_map ..) (unsegmented_ids _)
  dsimp only
  rw [hr.filterType]
  exact sseLoopfilterFrame_eq hready (fun k m hm => key_reference (e2.modes k m hm)) z true (Nat.le_of_lt_succ hr.sharpnessLevel) none (some {}) hcr

/-- **C86** (the encoder, inter frames): the same for the inter frames, with the search for their vectors. -/
theorem C86_encoder_inter {e : Encoder} (hw : 0 < e.state.width ∧ e.state.width < 2 ^ 14) (hh : 0 < e.state.height ∧ e.state.height < 2 ^ 14)
    (hseg : e.state.segmentation = none) (hrefs : e.references.Ok e.state.width e.state.height) {d : InterChoices} (hd : d.Ok e.state.width e.state.height)
    {h : InterFrameHeader} (hr : h.InRange) (hs : h.updateSegmentation = none) {i : QuantIndices} (hi : i.InRange) {o s : Raster}
    (ho : o.Ok e.state.width e.state.height) (hsc : s.Ok e.state.width e.state.height) :
    ∃ f shown, encodeInter d e h i o s = some (f, shown) ∧ ∀ z : Leftovers, sseEncodeInter z d e h i o s = some (f, shown) := by
  obtain ⟨f, shown, e1, e2, e3, e4, -, -, e5, -, -, -, -, hsplit, e6, e7⟩ := C67_inter hw hh hseg hrefs hd hr hs hi ho hsc
  refine ⟨f, shown, e1, fun z => ?_⟩
  rw [← e1]
  have hq := C43_quantizer (by have := hi.yAcQi; omega) hi.differences
  have hqr := C43_range (by have := hi.yAcQi; omega) hi.differences hq
  obtain ⟨q', hq', he⟩ := bind_some e1
  obtain ⟨c, hc, he⟩ := bind_some he
  obtain ⟨skip, hskip, he⟩ := bind_some he
  obtain ⟨probs, hprobs, he⟩ := bind_some he
  obtain ⟨u, hu, he⟩ := bind_some he
  obtain ⟨raster, hraster, he⟩ := bind_some he
  cases he
  have hcr : c.raster.Ok e.state.width e.state.height := by
    obtain ⟨c', k1, k3⟩ := interPass_ok hqr hw hh hd.vectors hd.trials ho hsc hrefs (hd := { h with probSkipFalse := some 0 }) hs rfl
    obtain rfl : q' = _ := Option.some.inj (hq'.symm.trans hq)
    rw [hc] at k1
    cases k1
    exact k3.sized.ok
  unfold sseEncodeInter encodeInter
  refine bind_same rfl fun q1 g1 => bind_same ?_ fun x g2 => ?_
  · obtain rfl : q1 = _ := Option.some.inj (g1.symm.trans hq)
    exact sseInterPass_eq z hqr hw hh hd.vectors hd.trials ho hsc hrefs (hd := { h with probSkipFalse := some 0 }) hs rfl
  obtain rfl : q1 = q' := Option.some.inj (g1.symm.trans hq')
  obtain rfl : x = c := Option.some.inj (g2.symm.trans hc)
  refine bind_same rfl fun skip1 g3 => bind_same rfl fun probs1 g4 => bind_same rfl fun u1 g5 => bind_same ?_ fun _ _ => rfl
  obtain rfl : skip1 = skip := Option.some.inj (g3.symm.trans hskip)
  obtain rfl : probs1 = probs := Option.some.inj (g4.symm.trans hprobs)
  obtain rfl : u1 = u := Option.some.inj (g5.symm.trans hu)
  have hready := InterFrameOk.ready (f := ⟨_, List.map (fun _ => 0) x.modes⟩) e2 (List.length_map ..) (unsegmented_ids _)
  dsimp only
  rw [hr.filterType]
  exact sseLoopfilterFrame_eq hready (fun k m hm => inter_reference (e2.modes k m hm)) z false (Nat.le_of_lt_succ hr.sharpnessLevel) _ (some {}) hcr

/-- **C85** (frames that are coded again): these keep the vectors of the frames they are made from, so here the blocks at the end of the reference remain a
condition. -/
theorem C85_reencoded_partial {e : Encoder} (hw : 0 < e.state.width ∧ e.state.width < 2 ^ 14) (hh : 0 < e.state.height ∧ e.state.height < 2 ^ 14)
    (hrefs : e.references.Ok e.state.width e.state.height) {w : ReencodeWork} (hd : w.Ok e.state.width e.state.height)
    {old : Frame InterFrameHeader} (hf : InterFrameOk old) (fw : old.width = e.state.width) (fh : old.height = e.state.height)
    (hs : old.header.updateSegmentation = none) {i : QuantIndices} (hi : i.InRange) {o : Raster} (ho : o.Ok e.state.width e.state.height) (last : Bool)
    (adjustments : Option FilterAdjustments) :
    ∃ f s, updateResidues w e o old i last = some (f, s) ∧ (FrameClear e.references { frame := f, segmentIds := f.modes.map fun _ => 0 } →
      ∀ (z : Leftovers) (scratch : Raster), scratch.Ok e.state.width e.state.height →
        (sseRenderInter z none adjustments e.references { frame := f, segmentIds := f.modes.map fun _ => 0 } scratch).isSome = true ∧
        sseRenderInter z none adjustments e.references { frame := f, segmentIds := f.modes.map fun _ => 0 } scratch =
          renderInter none adjustments e.references { frame := f, segmentIds := f.modes.map fun _ => 0 } scratch) := by
  obtain ⟨f, s, e1, e2, e3, e4, -, -, e5, -⟩ := updateResidues_ok hw hh hrefs hd hf fw fh hs hi ho last
  refine ⟨f, s, e1, fun hclear z scratch hscratch => ?_⟩
  have hq := C43_quantizer (by have := hi.yAcQi; omega) hi.differences
  have hfit := updateResidues_fits hi e1 hq
  obtain ⟨t, -, ht⟩ := C85_inter_frame_partial (f := { frame := f, segmentIds := f.modes.map fun _ => 0 }) e2 (List.length_map ..) (unsegmented_ids _) none adjustments
    (refs := e.references) (by show e.references.Ok f.width f.height; rw [e3, e4]; exact hrefs)
    (frameSumsFit_of hfit rfl rfl (by show ∀ id q', macroblockQuantizer none f.header.quantIndices id = some q' → _; rw [e5]; exact macroblockQuantizer_none hq)) hclear
  obtain ⟨t1, t2⟩ := ht z scratch (by show scratch.Ok f.width f.height; rw [e3, e4]; exact hscratch)
  rw [t1, t2]
  exact ⟨rfl, rfl⟩

/-! ### Examples -/

theorem empty_sumsFit (q : Quantizer) (m : MBModes) : SumsFit q m {} := by
  have small : ∀ dc ac, SmallBlock dc ac {} := fun dc ac i => by
    have e : scaled dc ac {} i = 0 := Int.zero_mul _
    rw [e]
    decide
  exact sumsFit_of m (walshFits_empty _ _) (fun _ => small _ _) (fun _ => small _ _) (fun _ => small _ _)

instance (x : Int) : Decidable (Short x) := inferInstanceAs (Decidable (_ ∧ _))

/-- The hypotheses of `C85_key_frame_partial` are met by a key frame with coefficients, ... -/
example : FrameSumsFit (macroblockQuantizer none exampleParsedKey.frame.header.quantIndices) exampleParsedKey := by
  intro k m r id q hm hr hid hq
  rcases k with _ | _ | _ | _ | k
  · cases hr; exact empty_sumsFit q m
  · cases hr; exact empty_sumsFit q m
  · cases hr; exact empty_sumsFit q m
  · cases hr
    cases hm
    cases hid
    obtain rfl := Option.some.inj (hq.symm.trans (show macroblockQuantizer none exampleParsedKey.frame.header.quantIndices 0 = some ⟨284, 122, 440, 314, 284, 132⟩ by decide +kernel))
    refine ⟨?_, ?_, ?_, ?_, ?_⟩
    · constructor <;> (try unfold TransformSpec.Fits) <;> decide +kernel
    all_goals decide +kernel
  · exact nomatch hm

/-- ... and those of `C85_inter_frame_partial` by an inter frame with them, predicted from pictures of one shade. -/
example : FrameSumsFit (macroblockQuantizer none exampleParsedInter.frame.header.quantIndices) exampleParsedInter ∧
    FrameClear ⟨blankRaster 17 20, blankRaster 17 20, blankRaster 17 20⟩ exampleParsedInter := by
  constructor
  · intro k m r id q hm hr hid hq
    rcases k with _ | _ | _ | _ | k
    · cases hr; exact empty_sumsFit q m
    · cases hr; exact empty_sumsFit q m
    · cases hr; exact empty_sumsFit q m
    · cases hr
      cases hm
      cases hid
      obtain rfl := Option.some.inj (hq.symm.trans (show macroblockQuantizer none exampleParsedInter.frame.header.quantIndices 2 = some ⟨284, 122, 440, 314, 284, 132⟩ by decide +kernel))
      refine ⟨?_, ?_, ?_, ?_, ?_⟩
      · constructor <;> (try unfold TransformSpec.Fits) <;> decide +kernel
      all_goals decide +kernel
    · exact nomatch hm
  · intro k m hm _ hs
    rcases k with _ | _ | _ | _ | k
    · cases hm; exact absurd hs (by decide)
    · cases hm; exact absurd hs (by decide)
    · cases hm; exact absurd hs (by decide)
    · cases hm; exact absurd hs (by decide)
    · exact nomatch hm

/-- Blocks with zero vectors are clear of the end, whatever the size of the picture. -/
theorem clear_zero (p : Plane) (hp : p.height % 4 = 0) (column row : Nat) : ClearOfEnd p {} column row := fun h => by
  have h1 : ((row * 4 : Nat) : Int) + (0 : Int) / 8 + 7 = p.height := h.1
  omega

/-- A picture of 40 by 30 pixels as the encoder codes it, and as the decoder with vector instructions shows it. -/
example (z : Leftovers) : ∃ f shown, encodeKey exampleTwoPasses emptyKeyHeader (uniformIndices 30) (grayRaster 40 30 77) 40 30 (grayRaster 40 30 0) =
    some (f, shown) ∧ sseRenderKey z none (some {}) { frame := f, segmentIds := f.modes.map fun _ => 0 } (grayRaster 40 30 1) = some shown := by
  obtain ⟨f, shown, h1, -, h2⟩ := C86_key (width := 40) (height := 30) (d := exampleTwoPasses) (by decide) (by decide)
    exampleTwoPasses_ok exampleTwoPasses_kept emptyKeyHeader_range rfl
    (uniformIndices_range (qi := 30) (by decide)) (grayRaster_ok 40 30 77) (grayRaster_ok 40 30 0)
  exact ⟨f, shown, h1, h2 z _ (grayRaster_ok 40 30 1)⟩

/-- The same picture as an encoder with vector instructions codes it. -/
example (z : Leftovers) : ∃ f shown, encodeKey exampleTwoPasses emptyKeyHeader (uniformIndices 30) (grayRaster 40 30 77) 40 30 (grayRaster 40 30 0) =
    some (f, shown) ∧
    sseEncodeKey z exampleTwoPasses emptyKeyHeader (uniformIndices 30) (grayRaster 40 30 77) 40 30 (grayRaster 40 30 0) = some (f, shown) := by
  obtain ⟨f, shown, h1, h2⟩ := C86_encoder_key (width := 40) (height := 30) (d := exampleTwoPasses) (by decide) (by decide)
    exampleTwoPasses_ok exampleTwoPasses_kept emptyKeyHeader_range rfl
    (uniformIndices_range (qi := 30) (by decide)) (grayRaster_ok 40 30 77) (grayRaster_ok 40 30 0)
  exact ⟨f, shown, h1, h2 z⟩

/-- Inter frames of that size, with a searched vector. -/
example (z : Leftovers) : ∃ f shown,
    encodeInter exampleInterChoices ⟨{ width := 40, height := 30 }, ⟨grayRaster 40 30 9, grayRaster 40 30 8, grayRaster 40 30 7⟩⟩ emptyInterHeader
      (uniformIndices 30) (grayRaster 40 30 77) (grayRaster 40 30 0) = some (f, shown) ∧
    sseEncodeInter z exampleInterChoices ⟨{ width := 40, height := 30 }, ⟨grayRaster 40 30 9, grayRaster 40 30 8, grayRaster 40 30 7⟩⟩ emptyInterHeader
      (uniformIndices 30) (grayRaster 40 30 77) (grayRaster 40 30 0) = some (f, shown) := by
  obtain ⟨f, shown, h1, h2⟩ := C86_encoder_inter (e := ⟨{ width := 40, height := 30 }, ⟨grayRaster 40 30 9, grayRaster 40 30 8, grayRaster 40 30 7⟩⟩)
    (by decide) (by decide) rfl ⟨grayRaster_ok .., grayRaster_ok .., grayRaster_ok ..⟩ (exampleInterChoices_ok (by decide) (by decide)) emptyInterHeader_range rfl
    (uniformIndices_range (qi := 30) (by decide)) (grayRaster_ok 40 30 77) (grayRaster_ok 40 30 0)
  exact ⟨f, shown, h1, h2 z⟩

end Alfalfa
