import Verif.Model.Decoder

/-! Decoding with error concealment on, as the receiver does (src/salsify/salsify-receiver.cc:192): frames of which the end is missing are accepted.

The functions are those of `Verif.Model.DecoderState` and `Verif.Model.Decoder` with the branches for missing data. -/

namespace Alfalfa

/-- `error_concealment and not data.valid()` (src/decoder/macroblock.cc:57,61,63,347,386). -/
def missing (conceal : Bool) : Parser Bool := fun d => some (conceal && !d.valid, d)

/-- Reading from `BoolDecoder::zero_decoder()` instead of the frame's decoder (src/decoder/macroblock.cc:57,61).  The static object has no data, so
its value is 0 for ever; that its range differs from one use to the next makes no difference to the bits, which are all zero, and is not modelled. -/
def fromZero {α : Type} (p : Parser α) : Parser α := fun d => (p (BoolDecoder.init [])).map fun r => (r.1, d)

/-- A field of the macroblock header, from the frame or, if that has ended, from the zero decoder (src/decoder/macroblock.cc:55-62). -/
def orZero {α : Type} (conceal : Bool) (p : Parser α) : Parser α := do
  let gone ← missing conceal
  if gone then fromZero p else p

/-- `InterFrameMacroblockHeader()` (src/decoder/macroblock.cc:470-473) if the data have ended, else `InterFrameMacroblockHeader( data, frame_header )`
(src/decoder/macroblock.cc:63-64,458-465): `is_inter_mb`, the two reference selectors and the sign bias. -/
def parseInterMBHeader (conceal : Bool) (h : InterFrameHeader) : Parser (Bool × Option Bool × Option Bool × Bool) := do
  let gone ← missing conceal
  if gone then pure (true, some false, none, false)
  else do
    let isInter ← getBit (UInt8.ofNat h.probInter)
    let sel1 ← parseOptional isInter (getBit (UInt8.ofNat h.probReferencesLast))
    let sel2 ← parseOptional (sel1.getD false) (getBit (UInt8.ofNat h.probReferencesGolden))
    pure (isInter, sel1, sel2, flippedOf h isInter sel1 sel2)

/-- `InterFrameMacroblock::decode_prediction_modes` (src/decoder/macroblock.cc:342-456).  Between the test at line 347 and the one at line 386 nothing
is read if the first one was true or the macroblock is inter-coded, so one test stands for both.  If the data have ended the macroblock
becomes inter-coded without motion. -/
def readModesConcealing (conceal : Bool) (t : ProbabilityTables) (c : MBContext) (m : MBModes) : Parser MBModes := do
  let gone ← missing conceal
  if gone then do
    let s ← liftM (census m.flipped c)
    let _ ← liftM (mvRefProbs s)
    pure { m with isInter := true, yMode := ZEROMV, mvs := fun _ => {}, uMvs := chromaMvs fun _ => {} }
  else readModes t c m

/-- The `InterFrameMacroblock` constructor with its argument `error_concealment` (src/decoder/macroblock.cc:43-71). -/
def parseInterMBConcealing (conceal : Bool) (h : InterFrameHeader) (t : ProbabilityTables) (c : MBContext) : Parser MBModes := do
  let segmentIdUpdate ← orZero conceal (parseSegmentId h.updateSegmentation)
  let skip ← orZero conceal (parseSkip h.probSkipFalse)
  let (isInter, sel1, sel2, flipped) ← parseInterMBHeader conceal h
  readModesConcealing conceal t c { segmentIdUpdate, skip, isInter, sel1, sel2, flipped }

/-- `InterFrame` with `parse_macroblock_headers( …, error_concealment )` (src/decoder/frame.cc:95-113). -/
def interKindConcealing (conceal : Bool) : FrameKind InterFrameHeader := { interKind with parseMB := parseInterMBConcealing conceal }

/-- The order of `enum CorruptionLevel` (src/decoder/uncompressed_chunk.hh:37-43): `corruption_level() >= CORRUPTED_FIRST_PARTITION`, which is also
`corruption_level() > CORRUPTED_RESIDUES` (src/decoder/decoder_state.hh:79,121,156). -/
def Corruption.beyondResidues : Corruption → Bool
  | .none => false
  | .residues => false
  | .firstPartition => true
  | .frame => true

/-- `DecoderState::parse_and_apply<KeyFrame>` for any level of corruption (src/decoder/decoder_state.hh:72-111): the second argument of the decoder
says that the partition is complete when it is not. -/
def DecoderState.applyKeyConcealing (st : DecoderState) (c : FrameParts) : DecoderState × Except FrameError (ParsedFrame KeyFrameHeader) :=
  if c.experimental then (st, .error .invalid)
  else
    match parseKeyFrameHeader (BoolDecoder.init c.firstPartition c.corruption.beyondResidues) with
    | none => (st, .error .unsupported)
    | some (h, d) =>
      let st := DecoderState.ofKeyHeader h st.width st.height
      let t := keyKind.tables st.tables h
      let st := if h.refreshEntropyProbs then { st with tables := t } else st
      parseBody keyKind st t c h d

/-- `DecoderState::parse_and_apply<InterFrame>` for any level of corruption (src/decoder/decoder_state.hh:113-167). -/
def DecoderState.applyInterConcealing (st : DecoderState) (c : FrameParts) : DecoderState × Except FrameError (ParsedFrame InterFrameHeader) :=
  match parseInterFrameHeader (BoolDecoder.init c.firstPartition c.corruption.beyondResidues) with
  | none => (st, .error .unsupported)
  | some (h, d) =>
    parseBody (interKindConcealing c.corruption.beyondResidues) (st.applyInterHeader h) (interKind.tables st.tables h) c h d

/-- `Decoder::get_frame_output` (src/decoder/decoder.cc:83-87,125-135) with `error_concealment_` as given (src/decoder/decoder.hh:250,298). -/
def Decoder.getFrameOutputWith (R : Renderer) (concealment : Bool) (d : Decoder) (bytes : List UInt8) :
    Decoder × Except FrameError (Bool × Raster) :=
  match splitFrame bytes d.state.width d.state.height concealment with
  | .error e => (d, .error e)
  | .ok c =>
    if c.keyFrame then
      match d.state.applyKeyConcealing c with
      | (st, .error e) => ({ d with state := st }, .error e)
      | (st, .ok f) => let (d, out) := { d with state := st }.decodeKey R f; (d, .ok out)
    else if ¬ c.experimental then
      match d.state.applyInterConcealing c with
      | (st, .error e) => ({ d with state := st }, .error e)
      | (st, .ok f) => let (d, out) := { d with state := st }.decodeInter R f; (d, .ok out)
    else (d, .error .unsupported)

end Alfalfa
