import Verif.Props.Decoder

/-! Concrete decoders, encoders and frames that meet the hypotheses of the theorems of Verif/Props/Decoder.lean. -/

namespace Alfalfa

/-! ### Examples for C13 to C18 -/

/-- What `C14` asks of the bytes follows from the round trip: a key frame's first byte is even. -/
theorem splitFrame_key_head {bytes : List UInt8} {w h : Nat} {c : FrameParts} (hs : splitFrame bytes w h false = .ok c) (hk : c.keyFrame = true) :
    ∃ b, bytes.head? = some b ∧ b.toNat % 2 = 0 := by
  obtain ⟨b, tail, hb, h1, -⟩ := C11_accepted_frame_start bytes w h c hs
  exact ⟨b, by rw [hb]; rfl, h1.mp hk⟩

/-- A key frame without segmentation that sets the tables, 17x20. -/
def exampleKeyFrame2 : Frame KeyFrameHeader where
  show' := true
  width := 17
  height := 20
  header := { exampleKeyHeader with probSkipFalse := some 200, updateSegmentation := none }
  modes := List.replicate 3 { exampleKeyMB with segmentIdUpdate := none } ++
    [{ exampleKeyMB with segmentIdUpdate := none, skip := some false, yMode := V_PRED, bModes := fun _ => B_VE_PRED }]
  residues := [{}, {}, {}, { y2 := { coeffs := fun i => if i.val = 3 then -40 else 0, hasNonzero := true }
                             y := fun i => if i.val = 5 then exampleBlock else {}, nonzero := true }]

/-- An inter frame without segmentation that refreshes the last picture and, from it, the golden one. -/
def exampleInterFrame2 : Frame InterFrameHeader where
  show' := false
  width := 17
  height := 20
  header := { exampleInterHeader with updateSegmentation := none, refreshGoldenFrame := false, copyBufferToGolden := some 1, copyBufferToAlternate := some 2 }
  modes := List.replicate 3 { isInter := true, sel1 := some false, yMode := ZEROMV } ++ [{ isInter := true, sel1 := some true, sel2 := some true, yMode := ZEROMV }]
  residues := List.replicate 3 {} ++ [{ y := fun i => if i.val = 5 then exampleBlock else {}, nonzero := true }]

theorem exampleKeyFrame2_ok : KeyFrameOk exampleKeyFrame2 where
  header := { exampleKeyHeader_inRange with probSkipFalse := by rintro _ ⟨⟩; decide
                                            updateSegmentation := fun _ h => (nomatch h) }
  width := by decide
  height := by decide
  count := by decide
  countResidues := by decide
  modes := by
    intro k m hm
    have h1 : ({ exampleKeyMB with segmentIdUpdate := none } : MBModes).KeyOk exampleKeyFrame2.header :=
      ⟨⟨by constructor
           · intro h; exact nomatch h
           · rintro ⟨u, h, -⟩; exact (nomatch h), fun _ h => (nomatch h), rfl⟩,
        ⟨exampleKeyMB_ok.intra.1, exampleKeyMB_ok.intra.2, exampleKeyMB_ok.intra.3, exampleKeyMB_ok.intra.4, exampleKeyMB_ok.intra.5,
          exampleKeyMB_ok.intra.6, exampleKeyMB_ok.intra.7⟩, ⟨rfl, rfl, rfl, rfl, rfl, fun _ => rfl, fun _ => rfl⟩⟩
    rcases k with _ | _ | _ | _ | k
    · cases hm; exact h1
    · cases hm; exact h1
    · cases hm; exact h1
    · cases hm
      refine ⟨⟨h1.pre.segmentPresent, h1.pre.segmentRange, rfl⟩, ?_, ⟨rfl, rfl, rfl, rfl, rfl, fun _ => rfl, fun _ => rfl⟩⟩
      exact ⟨by decide, by decide, fun h => absurd h (by decide), fun h => absurd h (by decide), fun _ _ => rfl,
        fun h => absurd h (by decide), fun h => absurd h (by decide)⟩
    · exact nomatch hm
  residues := by
    have h0 : Residue.Ok { exampleKeyMB with segmentIdUpdate := none } {} := ⟨fun _ => rfl, fun _ => rfl, representable_default _, fun _ => representable_default _,
      fun _ => representable_default _, fun _ => representable_default _, by decide +kernel⟩
    intro k m r hm hr
    rcases k with _ | _ | _ | _ | k
    · cases hm; cases hr; exact h0
    · cases hm; cases hr; exact h0
    · cases hm; cases hr; exact h0
    · cases hm; cases hr
      refine ⟨fun h => absurd h (by decide), fun h => absurd h (by decide), ⟨by decide +kernel, fun h => absurd h (by decide), by decide +kernel⟩,
        fun i => ?_, fun _ => representable_default _, fun _ => representable_default _, by decide +kernel⟩
      rw [if_neg (by decide)]
      show (if i.val = 5 then exampleBlock else {}).Representable _
      split
      · exact exampleBlock_ok
      · exact representable_default _
    · exact nomatch hm

theorem exampleInterFrame2_ok : InterFrameOk exampleInterFrame2 where
  header := { exampleInterHeader_inRange with
    updateSegmentation := fun _ h => (nomatch h)
    copyGolden := rfl
    copyAlternate := rfl
    copyGoldenRange := by rintro _ ⟨⟩; decide
    copyAlternateRange := by rintro _ ⟨⟩; decide }
  width := by decide
  height := by decide
  count := by decide
  countResidues := by decide
  modes := by
    intro k m hm
    have key : ∀ m : MBModes, m.segmentIdUpdate = none → m.skip = none → m.isInter = true →
        m.flipped = false → m.sel1.isSome = true → (m.sel2.isSome = true ↔ m.sel1 = some true) → ¬ (m.sel1 = some true ∧ m.sel2 = some false) →
        m.yMode = ZEROMV → m.uvMode = 0 → (∀ i, m.mvs i = {}) → m.partitionId = none → (∀ i, m.bModes i = 0) → (∀ i, m.uMvs i = {}) →
        ∀ c, m.InterFrameOk exampleInterFrame2.header c := by
      intro m h1 h3 h4 h5 h6 h7 h8 h9 h10 h11 h12 h13 h14 c
      obtain ⟨s, hs, -⟩ := census_bounded m.flipped c
      refine ⟨⟨⟨fun h => absurd h (by rw [h1]; decide), fun ⟨u, h, _⟩ => (nomatch h)⟩, fun v h => (nomatch h1.symm.trans h), by rw [h3]; rfl⟩, Or.inr ⟨s, hs, ?_⟩⟩
      refine ⟨h4, h6, h7, ?_, by rw [h9]; decide, h10, fun h => ?_, fun h => ?_, fun _ => h11, fun h => ?_, fun _ => ⟨h12, h13⟩, fun h => ?_, fun i => ?_⟩
      · rw [h5]
        constructor
        · intro h; exact nomatch h
        · rintro (⟨a, b, -⟩ | ⟨-, -, h⟩)
          · exact absurd ⟨a, b⟩ h8
          · exact nomatch h
      · rw [h9] at h; exact absurd h (by decide)
      · rw [h9] at h; exact absurd h (by decide)
      · rw [h9] at h; exact absurd h (by decide)
      · rw [h9] at h; exact absurd h (by decide)
      · rw [h14 i, show m.mvs = fun _ => {} from funext h11]
        revert i; decide +kernel
    rcases k with _ | _ | _ | _ | k
    · cases hm; exact key _ rfl rfl rfl rfl rfl (by decide) (by decide) rfl rfl (fun _ => rfl) rfl (fun _ => rfl) (fun _ => rfl) _
    · cases hm; exact key _ rfl rfl rfl rfl rfl (by decide) (by decide) rfl rfl (fun _ => rfl) rfl (fun _ => rfl) (fun _ => rfl) _
    · cases hm; exact key _ rfl rfl rfl rfl rfl (by decide) (by decide) rfl rfl (fun _ => rfl) rfl (fun _ => rfl) (fun _ => rfl) _
    · cases hm; exact key _ rfl rfl rfl rfl rfl (by decide) (by decide) rfl rfl (fun _ => rfl) rfl (fun _ => rfl) (fun _ => rfl) _
    · exact nomatch hm
  residues := by
    have h0 : Residue.Ok { isInter := true, sel1 := some false, yMode := ZEROMV } {} :=
      ⟨fun _ => rfl, fun _ => rfl, representable_default _, fun _ => representable_default _,
        fun _ => representable_default _, fun _ => representable_default _, by decide +kernel⟩
    intro k m r hm hr
    rcases k with _ | _ | _ | _ | k
    · cases hm; cases hr; exact h0
    · cases hm; cases hr; exact h0
    · cases hm; cases hr; exact h0
    · cases hm; cases hr
      refine ⟨fun h => absurd h (by decide), fun h => absurd h (by decide), representable_default _, fun i => ?_, fun _ => representable_default _,
        fun _ => representable_default _, by decide +kernel⟩
      rw [if_neg (by decide)]
      show (if i.val = 5 then exampleBlock else {}).Representable _
      split
      · exact exampleBlock_ok
      · exact representable_default _
    · exact nomatch hm

theorem exampleKeyFrame2_bits : (writeMBs (keyKind.writeMB exampleKeyFrame2.header (keyKind.tables {} exampleKeyFrame2.header))
    (macroblockDimension exampleKeyFrame2.width) (macroblockDimension exampleKeyFrame2.height) exampleKeyFrame2.modes 0 exampleKeyFrame2.modes).all
    (fun b => decide ((keyKind.writeHeader exampleKeyFrame2.header).length + b.length < 10000)) = true := by decide +kernel

theorem exampleKeyFrame2_tokens : (keyKind.serializeTokens (keyKind.tables {} exampleKeyFrame2.header) exampleKeyFrame2).all
    (fun bs => bs.all fun b => decide (b.length < 2 ^ 24)) = true := by decide +kernel

theorem serializeFirst_short {H : Type} {K : FrameKind H} {t : ProbabilityTables} {f : Frame H}
    (h3 : (writeMBs (K.writeMB f.header t) (macroblockDimension f.width) (macroblockDimension f.height) f.modes 0 f.modes).all
      (fun b => decide ((K.writeHeader f.header).length + b.length < 10000)) = true) :
    ∀ b, K.serializeFirst t f = some b → b.length < 2 ^ 19 := by
  intro b hb
  unfold FrameKind.serializeFirst at hb
  obtain ⟨x, h1, h2⟩ := Option.bind_eq_some_iff.mp hb
  rw [h1] at h3
  simp only [Option.all_some, decide_eq_true_eq] at h3
  have h5 := encodeBits_length h2
  rw [List.length_append] at h5
  omega

/-- An encoder that has just been created for that size. -/
def exampleEncoder : Encoder := ⟨exampleDecoder.state, exampleDecoder.references⟩

theorem exampleKeyFrame2_emittable : KeyEmittable exampleEncoder exampleKeyFrame2 :=
  ⟨exampleKeyFrame2_ok, rfl, rfl, rfl, serializeFirst_short exampleKeyFrame2_bits, shorter_of_all_list exampleKeyFrame2_tokens⟩

theorem exampleKeyFrame2_tables (R : Renderer) (e : Encoder) (b : List UInt8) (h : exampleEncoder.writeKey R exampleKeyFrame2 = some (e, b)) :
    e.state.tables = keyKind.tables {} exampleKeyFrame2.header ∧ e.state.width = 17 ∧ e.state.height = 20 := by
  unfold Encoder.writeKey at h
  obtain ⟨x, -, h⟩ := Option.bind_eq_some_iff.mp h
  have : _ = _ := (Prod.mk.inj (Option.some.inj h)).1
  rw [← this]
  exact ⟨rfl, rfl, rfl⟩

theorem exampleInterFrame2_bits : (writeMBs (interKind.writeMB exampleInterFrame2.header
      (interKind.tables (keyKind.tables {} exampleKeyFrame2.header) exampleInterFrame2.header))
    (macroblockDimension exampleInterFrame2.width) (macroblockDimension exampleInterFrame2.height) exampleInterFrame2.modes 0 exampleInterFrame2.modes).all
    (fun b => decide ((interKind.writeHeader exampleInterFrame2.header).length + b.length < 10000)) = true := by decide +kernel

theorem exampleInterFrame2_tokens : (interKind.serializeTokens (interKind.tables (keyKind.tables {} exampleKeyFrame2.header) exampleInterFrame2.header)
    exampleInterFrame2).all (fun bs => bs.all fun b => decide (b.length < 2 ^ 24)) = true := by decide +kernel

/-- An encoder emits a key frame and an inter frame with coefficients, tables and copies of references; its pictures are real ones. -/
theorem exampleHistory : ∃ e' bytes₁ bytes₂, Emits grayRenderer exampleEncoder [bytes₁, bytes₂] e' ∧
    (exampleDecoder.run grayRenderer [bytes₁, bytes₂]).1 = e'.exportDecoder ∧ e'.references.golden ≠ e'.references.last := by
  obtain ⟨e1, b1, k1, k2, k3, -⟩ := key_step grayRenderer exampleEncoder exampleKeyFrame2 exampleKeyFrame2_emittable
  obtain ⟨t1, t2, t3⟩ := exampleKeyFrame2_tables _ _ _ k1
  have hf : InterEmittable e1 exampleInterFrame2 := ⟨exampleInterFrame2_ok, t2.symm, t3.symm, rfl,
    serializeFirst_short (by rw [t1]; exact exampleInterFrame2_bits), shorter_of_all_list (by rw [t1]; exact exampleInterFrame2_tokens)⟩
  obtain ⟨e2, b2, new, i1, i2, i3, -⟩ := inter_step grayRenderer e1 exampleInterFrame2 hf k3
  have hem : Emits grayRenderer exampleEncoder [b1, b2] e2 := .key exampleKeyFrame2_emittable k1 (.inter hf i1 (.nil _))
  refine ⟨e2, b1, b2, hem, (C17_encoder_decoder_in_step _ _ _ _ hem rfl).1, ?_⟩
  have h1 : e1.references = ⟨grayRaster 17 20 99, grayRaster 17 20 99, grayRaster 17 20 99⟩ := by
    unfold Encoder.writeKey at k1
    obtain ⟨x, -, h⟩ := Option.bind_eq_some_iff.mp k1
    have : _ = _ := (Prod.mk.inj (Option.some.inj h)).1
    rw [← this]
    rfl
  have h2 : e2.references = ⟨grayRaster 17 20 77, grayRaster 17 20 99, grayRaster 17 20 99⟩ := by
    unfold Encoder.writeInter at i1
    obtain ⟨x, -, h⟩ := Option.bind_eq_some_iff.mp i1
    have : _ = _ := (Prod.mk.inj (Option.some.inj h)).1
    rw [← this]
    dsimp only
    rw [h1]
    rfl
  rw [h2]
  decide +kernel

/-- The hypotheses of C13, C14 and C15 are met: both frames of that history are accepted by `splitFrame` and parsed. -/
example : ∃ (d : Decoder) (b₁ b₂ : List UInt8) (c₁ c₂ : FrameParts) (st₁ st₂ : DecoderState) (p₁ : ParsedFrame KeyFrameHeader) (p₂ : ParsedFrame InterFrameHeader),
    splitFrame b₁ 17 20 false = .ok c₁ ∧ c₁.keyFrame = true ∧ exampleDecoder.state.applyKey c₁ = (st₁, .ok p₁) ∧ st₁.tables ≠ {} ∧
    (∃ b, b₁.head? = some b ∧ b.toNat % 2 = 0) ∧
    splitFrame b₂ 17 20 false = .ok c₂ ∧ c₂.keyFrame = false ∧ d.state.applyInter c₂ = (st₂, .ok p₂) ∧ p₂.frame = exampleInterFrame2 := by
  obtain ⟨b1, c1, h1, h2, h3, h4⟩ := C09_key_frame_round_trip exampleKeyFrame2 exampleKeyFrame2_ok exampleKeyFrame2_emittable.first exampleKeyFrame2_emittable.tokens
  obtain ⟨st1, p1, h5, h6⟩ := h4 exampleDecoder.state rfl rfl
  obtain ⟨b2, c2, i1, i2, i3, i4⟩ := C09_inter_frame_round_trip exampleInterFrame2 exampleInterFrame2_ok (keyKind.tables {} exampleKeyFrame2.header)
    (serializeFirst_short exampleInterFrame2_bits) (shorter_of_all_list exampleInterFrame2_tokens)
  let d : Decoder := ⟨{ width := 17, height := 20, tables := keyKind.tables {} exampleKeyFrame2.header }, exampleDecoder.references⟩
  obtain ⟨st2, p2, i5, i6⟩ := i4 d.state ⟨by decide, by decide, fun _ h => (nomatch h), fun _ h => (nomatch h)⟩ rfl rfl rfl
  refine ⟨d, b1, b2, c1, c2, st1, st2, p1, p2, h2, h3, h5, ?_, splitFrame_key_head h2 h3, i2, i3, i5, i6⟩
  obtain ⟨t, k1, -, k3, -⟩ := C13_key_frame_tables _ _ _ _ h5
  rw [h6] at k1 k3
  rw [k3 rfl]
  intro ht
  have := (k1.1 0 0 0 0).1 255 rfl
  rw [ht] at this
  revert this
  decide +kernel

/-- C16: the decoder at the end of such a history is saved and restored with its golden picture lost. -/
example : ∃ d : Decoder, d.Ok ∧ ∀ blank, loadDecoder blank (saveDecoder d) ≠ some d ∧ (loadDecoder blank (saveDecoder d)).isSome = true :=
  ⟨exampleDecoder, exampleDecoder_ok, fun blank => ⟨fun h => by
    have := ((C16_restores_exactly_iff _ exampleDecoder_ok blank).mp h).1
    revert this; decide +kernel, by rw [C16_save_restore_partial _ exampleDecoder_ok]; rfl⟩⟩

/-- C18: a rejection that leaves the decoder alone. -/
example (R : Renderer) : (exampleDecoder.getFrameOutput R [0x10, 0, 0, 0x9d, 0x01, 0x2a, 18, 0, 20, 0, 1]).2 = .error .unsupported ∧
    (exampleDecoder.getFrameOutput R [0x10, 0, 0, 0x9d, 0x01, 0x2a, 18, 0, 20, 0, 1]).1 = exampleDecoder := by
  have h : (exampleDecoder.getFrameOutput R [0x10, 0, 0, 0x9d, 0x01, 0x2a, 18, 0, 20, 0, 1]).2 = .error .unsupported := rfl
  exact ⟨h, C18_rejected_frame_partial R _ exampleDecoder_ok _ _ h (by decide)⟩

/-- The example decoder with another alternate picture. -/
def exampleDecoder2 : Decoder where
  state := exampleDecoder.state
  references := ⟨grayRaster 17 20 1, grayRaster 17 20 2, grayRaster 17 20 4⟩

theorem exampleDecoder_ne : exampleDecoder.references ≠ exampleDecoder2.references := by decide +kernel

/-- C19: for a mixing function without collisions, decoders with different references have different hashes. -/
example (mix : Nat → Nat → Nat) (hm : IdealMix mix) : (exampleDecoder.getHash mix).hash mix ≠ (exampleDecoder2.getHash mix).hash mix := fun h =>
  exampleDecoder_ne (C19_hash_determines_decoder_partial mix hm exampleDecoder exampleDecoder2 exampleDecoder_ok
    ⟨exampleDecoder_ok.state, ⟨grayRaster_ok .., grayRaster_ok .., grayRaster_ok ..⟩⟩ h).2

end Alfalfa
