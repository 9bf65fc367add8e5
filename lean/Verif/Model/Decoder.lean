import Verif.Model.DecoderState
import Verif.Model.Grid

/-! The decoder as a whole: its state and its three reference pictures (src/decoder/decoder.{hh,cc}).

How a picture is computed from a parsed frame is left open here: `Renderer` stands for `Frame::decode` followed by
`Frame::loopfilter`, and every definition and theorem of this layer is about all renderers. -/

namespace Alfalfa

/-- `TwoD<uint8_t>` (src/util/2d.hh:40-274, src/util/raster.hh:38-46). -/
abbrev Plane := Grid UInt8

/-- `class BaseRaster` (src/util/raster.hh): display size and the three planes. -/
@[ext] structure Raster where
  displayWidth : Nat
  displayHeight : Nat
  y : Plane
  u : Plane
  v : Plane
deriving Repr, DecidableEq

/-- `struct References` (src/decoder/decoder.hh:123-149). -/
@[ext] structure References where
  last : Raster
  golden : Raster
  alternative : Raster
deriving Repr, DecidableEq

/-- `class Decoder` (src/decoder/decoder.hh:244-300), with `error_concealment_ == false`. -/
@[ext] structure Decoder where
  state : DecoderState
  references : References

/-- `Frame::decode` and `Frame::loopfilter` (src/decoder/frame.cc:139-182,208-250) into a raster of the size of the frame.
What they read is exactly their arguments: the segmentation, the loop-filter adjustments, the frame (with the
segment ids its macroblocks cache) and, for inter frames only, the references. -/
structure Renderer where
  key : Option Segmentation → Option FilterAdjustments → ParsedFrame KeyFrameHeader → Raster
  inter : Option Segmentation → Option FilterAdjustments → References → ParsedFrame InterFrameHeader → Raster

/-- `InterFrame::copy_to` (src/decoder/frame.cc:277-307), in the order of the code: the alternate picture is copied first, so
that a golden picture copied from the alternate one gets the new alternate. -/
def References.copyInter (r : References) (h : InterFrameHeader) (new : Raster) : References :=
  let r := match h.copyBufferToAlternate with
    | some 1 => { r with alternative := r.last }
    | some 2 => { r with alternative := r.golden }
    | _ => r
  let r := match h.copyBufferToGolden with
    | some 1 => { r with golden := r.last }
    | some 2 => { r with golden := r.alternative }
    | _ => r
  let r := if h.refreshGoldenFrame then { r with golden := new } else r
  let r := if h.refreshAlternateFrame then { r with alternative := new } else r
  if h.refreshLast then { r with last := new } else r

/-- `KeyFrame::copy_to` (src/decoder/frame.cc:271-275). -/
def References.copyKey (_ : References) (new : Raster) : References := ⟨new, new, new⟩

/-- `Decoder::decode_frame<KeyFrame>` (src/decoder/decoder.cc:102-118). -/
def Decoder.decodeKey (R : Renderer) (d : Decoder) (f : ParsedFrame KeyFrameHeader) : Decoder × Bool × Raster :=
  let raster := R.key d.state.segmentation d.state.filterAdjustments f
  ({ d with references := d.references.copyKey raster }, f.frame.show', raster)

/-- `Decoder::decode_frame<InterFrame>` (src/decoder/decoder.cc:102-118). -/
def Decoder.decodeInter (R : Renderer) (d : Decoder) (f : ParsedFrame InterFrameHeader) : Decoder × Bool × Raster :=
  let raster := R.inter d.state.segmentation d.state.filterAdjustments d.references f
  ({ d with references := d.references.copyInter f.frame.header raster }, f.frame.show', raster)

/-- `Decoder::get_frame_output` (src/decoder/decoder.cc:125-135): the decoder afterwards, also after an exception, and
whether to show the picture, and the picture. -/
def Decoder.getFrameOutput (R : Renderer) (d : Decoder) (bytes : List UInt8) : Decoder × Except FrameError (Bool × Raster) :=
  match splitFrame bytes d.state.width d.state.height false with
  | .error e => (d, .error e)
  | .ok c =>
    if c.keyFrame then
      match d.state.applyKey c with
      | (st, .error e) => ({ d with state := st }, .error e)
      | (st, .ok f) => let (d, out) := { d with state := st }.decodeKey R f; (d, .ok out)
    else if ¬ c.experimental then
      match d.state.applyInter c with
      | (st, .error e) => ({ d with state := st }, .error e)
      | (st, .ok f) => let (d, out) := { d with state := st }.decodeInter R f; (d, .ok out)
    else (d, .error .unsupported)

/-- `Decoder::parse_and_decode_frame` (src/decoder/decoder.cc:137-141): the picture only if it is to be shown. -/
def Decoder.parseAndDecodeFrame (R : Renderer) (d : Decoder) (bytes : List UInt8) : Decoder × Except FrameError (Option Raster) :=
  match d.getFrameOutput R bytes with
  | (d, .error e) => (d, .error e)
  | (d, .ok (shown, raster)) => (d, .ok (if shown then some raster else none))

/-- A sequence of frames given to `get_frame_output`, as every client does in a loop (e.g. src/decoder/player.cc:60-63). -/
def Decoder.run (R : Renderer) (d : Decoder) : List (List UInt8) → Decoder × List (Except FrameError (Bool × Raster))
  | [] => (d, [])
  | bytes :: rest =>
    let (d, out) := d.getFrameOutput R bytes
    let (d, outs) := d.run R rest
    (d, out :: outs)

/-! ### The encoder's record of the decoder -/

/-- The part of `class Encoder` that mirrors a decoder (src/encoder/encoder.hh:121-125). -/
structure Encoder where
  state : DecoderState
  references : References

/-- `Encoder::export_decoder` (src/encoder/encoder.hh:378). -/
def Encoder.exportDecoder (e : Encoder) : Decoder := ⟨e.state, e.references⟩

/-- `Encoder::update_decoder_state( KeyFrame )` (src/encoder/encode_intra.cc:36-46), without the references, which the
caller overwrites. -/
def Encoder.updateStateKey (e : Encoder) (h : KeyFrameHeader) : DecoderState :=
  let st := DecoderState.ofKeyHeader h e.state.width e.state.height
  if h.refreshEntropyProbs then { st with tables := st.tables.coeffProbUpdate h.tokenProbUpdate } else st

/-- `Encoder::update_decoder_state( InterFrame )` (src/encoder/encode_inter.cc:154-170): the segmentation is left alone. -/
def Encoder.updateStateInter (e : Encoder) (h : InterFrameHeader) : DecoderState :=
  { e.state with
    tables := if h.refreshEntropyProbs then e.state.tables.update h else e.state.tables
    filterAdjustments := match h.modeLfAdjustments with
      | some u => some ((e.state.filterAdjustments.getD {}).update u)
      | none => none }

/-- `Encoder::write_frame<KeyFrame>` (src/encoder/encoder.cc:146-176), without the search settings it records.  The
macroblocks of a frame made by the encoder have segment id 0 (src/decoder/macroblock.cc:59). -/
def Encoder.writeKey (R : Renderer) (e : Encoder) (f : Frame KeyFrameHeader) : Option (Encoder × List UInt8) := do
  let st := e.updateStateKey f.header
  let raster := R.key st.segmentation st.filterAdjustments { frame := f, segmentIds := f.modes.map fun _ => 0 }
  let bytes ← keyKind.serialize st.tables f
  pure (⟨st, e.references.copyKey raster⟩, bytes)

/-- `Encoder::write_frame<InterFrame>` (src/encoder/encoder.cc:146-176). -/
def Encoder.writeInter (R : Renderer) (e : Encoder) (f : Frame InterFrameHeader) : Option (Encoder × List UInt8) := do
  let st := e.updateStateInter f.header
  let raster := R.inter st.segmentation st.filterAdjustments e.references { frame := f, segmentIds := f.modes.map fun _ => 0 }
  let bytes ← interKind.serialize st.tables f
  pure (⟨st, e.references.copyInter f.header raster⟩, bytes)

end Alfalfa
