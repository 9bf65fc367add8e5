import Verif.Model.Frame

/-! Decoder state (src/decoder/decoder.{hh,cc}, src/decoder/decoder_state.hh).

Error concealment is off (`error_concealment_ == false`, the default), so the container reader gives whole frames only and
`corruption_level` is `NO_CORRUPTION`. -/

namespace Alfalfa

/-- `struct Segmentation` (src/decoder/decoder.hh:153-188); the map is the list of its cells in raster order. -/
@[ext] structure Segmentation where
  absolute : Bool := false
  quantizer : Fin 4 → Int := fun _ => 0
  filter : Fin 4 → Int := fun _ => 0
  mapWidth : Nat
  mapHeight : Nat
  map : List Nat

/-- `struct FilterAdjustments` (src/decoder/decoder.hh:93-121). -/
@[ext] structure FilterAdjustments where
  ref : Fin 4 → Int := fun _ => 0
  mode : Fin 4 → Int := fun _ => 0

/-- `struct DecoderState` (src/decoder/decoder.hh:190-225). -/
@[ext] structure DecoderState where
  width : Nat
  height : Nat
  tables : ProbabilityTables := {}
  segmentation : Option Segmentation := none
  filterAdjustments : Option FilterAdjustments := none

/-- `Segmentation::update` (src/decoder/decoder_state.hh:35-51). -/
def Segmentation.update (s : Segmentation) (u : UpdateSegmentation) : Segmentation :=
  match u.segmentFeatureData with
  | none => s
  | some d => { s with absolute := d.segmentFeatureMode, quantizer := fun i => (d.quantizerUpdate i).getD 0
                       filter := fun i => (d.loopFilterUpdate i).getD 0 }

/-- `Segmentation( header, width, height )` (src/decoder/decoder_state.hh:169-176): the map has one cell for each pixel
position of the picture, of which only the first `macroblock_width` x `macroblock_height` are used, and is filled with 3. -/
def Segmentation.new (u : UpdateSegmentation) (width height : Nat) : Segmentation :=
  ({ mapWidth := width, mapHeight := height, map := List.replicate (width * height) 3 } : Segmentation).update u

/-- `FilterAdjustments::update` (src/decoder/decoder_state.hh:53-64): deltas that are not given become zero. -/
def FilterAdjustments.update (a : FilterAdjustments) : Option ModeRefLFDeltaUpdate → FilterAdjustments
  | none => a
  | some d => { ref := fun i => (d.refUpdate i).getD 0, mode := fun i => (d.modeUpdate i).getD 0 }

/-- `DecoderState( header, width, height )` (src/decoder/decoder.cc:234-240). -/
def DecoderState.ofKeyHeader (h : KeyFrameHeader) (width height : Nat) : DecoderState :=
  { width, height, segmentation := h.updateSegmentation.map (Segmentation.new · width height)
    filterAdjustments := h.modeLfAdjustments.map (FilterAdjustments.update {}) }

/-- The update of one cell of the map, if the macroblock carries one (src/decoder/macroblock.cc:75-77). -/
def Segmentation.setCell (s : Segmentation) (i : Nat) : Option Nat → Segmentation
  | some v => { s with map := s.map.set i v }
  | none => s

/-- `Macroblock::update_segmentation` (src/decoder/macroblock.cc:73-82) for all macroblocks from index `k` on
(src/decoder/frame.cc:115-119): the new map and the segment ids; `none` is the failed assertion of `TwoD::at`. -/
def Segmentation.applyMap (w : Nat) : Nat → List MBModes → Segmentation → Option (Segmentation × List Nat)
  | _, [], s => some (s, [])
  | k, m :: rest, s => do
    if s.mapWidth ≤ k % w ∨ s.mapHeight ≤ k / w then failure
    let i := k / w * s.mapWidth + k % w
    let s := s.setCell i m.segmentIdUpdate
    let id ← s.map[i]?
    let (s, ids) ← applyMap w (k + 1) rest s
    pure (s, id :: ids)

/-- The segmentation step of `parse_and_apply` (src/decoder/decoder_state.hh:103-105,159-161); without segmentation the ids
keep the 0 they are made with (src/decoder/macroblock.cc:59). -/
def applySegmentation (width : Nat) (modes : List MBModes) : Option Segmentation → Option (Option Segmentation × List Nat)
  | none => some (none, modes.map fun _ => 0)
  | some s => do
    let (s, ids) ← s.applyMap (macroblockDimension width) 0 modes
    pure (some s, ids)

/-- A parsed frame, with the segment ids that the macroblocks cache. -/
structure ParsedFrame (H : Type) where
  frame : Frame H
  segmentIds : List Nat

/-- The end of `parse_and_apply`, the same for both kinds of frame (src/decoder/decoder_state.hh:99-110,155-166).  `st` is
the state after the header has been applied and `t` the tables of the frame.  An exception leaves the state as it
is at that moment. -/
def parseBody {H : Type} (K : FrameKind H) (st : DecoderState) (t : ProbabilityTables) (c : FrameParts) (h : H) (d : BoolDecoder) :
    DecoderState × Except FrameError (ParsedFrame H) :=
  match K.parseModes h t st.width st.height d with
  | none => (st, .error .internal)
  | some (modes, _) =>
    match applySegmentation st.width modes st.segmentation with
    | none => (st, .error .internal)
    | some (seg, ids) =>
      let st := { st with segmentation := seg }
      match dctPartitions c.rest (K.partitionCount h) with
      | .error e => (st, .error e)
      | .ok parts =>
        match parseFrameTokens t st.width modes parts with
        | none => (st, .error .internal)
        | some residues =>
          (st, .ok { frame := { show' := c.showFrame, width := st.width, height := st.height, header := h, modes, residues }
                     segmentIds := ids })

/-- `DecoderState::parse_and_apply<KeyFrame>` (src/decoder/decoder_state.hh:72-111): the state and, unless it threw, the
frame. -/
def DecoderState.applyKey (st : DecoderState) (c : FrameParts) : DecoderState × Except FrameError (ParsedFrame KeyFrameHeader) :=
  if c.experimental then (st, .error .invalid)
  else
    match parseKeyFrameHeader (BoolDecoder.init c.firstPartition false) with
    | none => (st, .error .unsupported)
    | some (h, d) =>
      let st := DecoderState.ofKeyHeader h st.width st.height
      let t := keyKind.tables st.tables h
      let st := if h.refreshEntropyProbs then { st with tables := t } else st
      parseBody keyKind st t c h d

/-- The state after an inter-frame header (src/decoder/decoder_state.hh:126-153). -/
def DecoderState.applyInterHeader (st : DecoderState) (h : InterFrameHeader) : DecoderState :=
  { st with
    tables := if h.refreshEntropyProbs then interKind.tables st.tables h else st.tables
    filterAdjustments := h.modeLfAdjustments.map fun u => (st.filterAdjustments.getD {}).update u
    segmentation := h.updateSegmentation.map fun u =>
      match st.segmentation with
      | some s => s.update u
      | none => Segmentation.new u st.width st.height }

/-- `DecoderState::parse_and_apply<InterFrame>` (src/decoder/decoder_state.hh:113-167). -/
def DecoderState.applyInter (st : DecoderState) (c : FrameParts) : DecoderState × Except FrameError (ParsedFrame InterFrameHeader) :=
  match parseInterFrameHeader (BoolDecoder.init c.firstPartition false) with
  | none => (st, .error .unsupported)
  | some (h, d) => parseBody interKind (st.applyInterHeader h) (interKind.tables st.tables h) c h d

end Alfalfa
