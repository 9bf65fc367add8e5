import Verif.Props.SameFrame
import Verif.Props.DecoderExamples

/-! C114: what an encoder emits is a stream of the format, and every stream that holds the same frames keeps a decoder in step with it. -/

namespace Alfalfa

open FrameSpec

theorem key_emits (R : Renderer) (e : Encoder) (f : Frame KeyFrameHeader) (hf : KeyEmittable e f) {e' : Encoder} {bytes : List UInt8}
    (h : e.writeKey R f = some (e', bytes)) : HoldsKey f bytes := by
  have htab : keyKind.tables (e.updateStateKey f.header).tables f.header = keyKind.tables {} f.header := by
    unfold Encoder.updateStateKey
    by_cases hr : f.header.refreshEntropyProbs = true
    · rw [if_pos hr]; exact keyTables_idem _ _
    · rw [if_neg hr]; rfl
  obtain ⟨b, h1, h2⟩ := serialize_holds (K := keyKind) hf.ok {} (C108_key_header _ hf.ok.header).1 (fun k m hm => key_modes hf.ok _ k m hm)
    hf.first hf.tokens
  unfold Encoder.writeKey at h
  change (keyKind.serialize (e.updateStateKey f.header).tables f).bind _ = _ at h
  rw [serialize_congr _ htab, h1] at h
  cases h
  exact h2

theorem inter_emits (R : Renderer) (e : Encoder) (f : Frame InterFrameHeader) (hf : InterEmittable e f) {e' : Encoder} {bytes : List UInt8}
    (h : e.writeInter R f = some (e', bytes)) : HoldsInter e.state.tables f bytes := by
  have htab : interKind.tables (e.updateStateInter f.header).tables f.header = interKind.tables e.state.tables f.header := by
    show interKind.tables (if f.header.refreshEntropyProbs then interKind.tables e.state.tables f.header else e.state.tables) f.header = _
    by_cases hr : f.header.refreshEntropyProbs = true
    · rw [if_pos hr]; exact interTables_idem _ _
    · rw [if_neg hr]
  obtain ⟨b, h1, h2⟩ := serialize_holds (K := interKind) hf.ok e.state.tables (C108_inter_header _ hf.ok.header).1
    (fun k m hm => (C106_inter_modes f.header (e.state.tables.update f.header) _ m (hf.ok.modes k m hm)).1) hf.first hf.tokens
  unfold Encoder.writeInter at h
  change (interKind.serialize (e.updateStateInter f.header).tables f).bind _ = _ at h
  rw [serialize_congr _ htab, h1] at h
  cases h
  exact h2

/-- **C114**, emitted streams: each frame of a stream that an encoder emits is held, as the format says, in the bytes emitted for it, for a
decoder that starts as the encoder's record. -/
theorem C114_emitted {R : Renderer} {e e' : Encoder} {frames : List (List UInt8)} (h : Emits R e frames e') (hn : e.state.segmentation = none) :
    SameFrames R e.exportDecoder frames frames := by
  induction h with
  | nil e => exact .nil _
  | @key e e1 e2 f bytes rest hf hw _ ih =>
    obtain ⟨e1', bytes', k1, k2, k3, -⟩ := key_step R e f hf
    rw [hw, Option.some.injEq, Prod.mk.injEq] at k1
    obtain ⟨rfl, rfl⟩ := k1
    have hb := key_emits R e f hf hw
    exact .key hf.ok hf.width.symm hf.height.symm hb hb (by rw [k2]; exact ih k3)
  | @inter e e1 e2 f bytes rest hf hw _ ih =>
    obtain ⟨e1', bytes', new, k1, k2, k3, -⟩ := inter_step R e f hf hn
    rw [hw, Option.some.injEq, Prod.mk.injEq] at k1
    obtain ⟨rfl, rfl⟩ := k1
    have hb := inter_emits R e f hf hw
    exact .inter hf.ok hf.width.symm hf.height.symm hb hb (by rw [k2]; exact ih k3)

/-- **C114**, other bytes: if a stream holds the same frames as one that an encoder emitted, a decoder that starts as the encoder's record
accepts all of it, gives the same pictures, and ends as the encoder's record. -/
theorem C114_in_step {R : Renderer} {e e' : Encoder} {frames other : List (List UInt8)} (h : Emits R e frames e') (hn : e.state.segmentation = none)
    (hok : e.state.Ok) (hs : SameFrames R e.exportDecoder frames other) :
    (e.exportDecoder.run R other).1 = e'.exportDecoder ∧ (e.exportDecoder.run R other).2 = (e.exportDecoder.run R frames).2 ∧
      ∀ out ∈ (e.exportDecoder.run R other).2, ∃ x, out = .ok x := by
  obtain ⟨h1, -, h3⟩ := C113_streams hs hok
  rw [← h1]
  exact ⟨(C17_encoder_decoder_in_step R e e' frames h hn).1, rfl, h3⟩

/-- A key frame and an inter frame that an encoder emits. -/
example : ∃ e' bytes₁ bytes₂, Emits grayRenderer exampleEncoder [bytes₁, bytes₂] e' ∧ SameFrames grayRenderer exampleEncoder.exportDecoder [bytes₁, bytes₂] [bytes₁, bytes₂] := by
  obtain ⟨e', b1, b2, h, -⟩ := exampleHistory
  exact ⟨e', b1, b2, h, C114_emitted h rfl⟩

end Alfalfa
