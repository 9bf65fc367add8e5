import Verif.Model.Encode

/-! Re-encoding (src/encoder/reencode.cc): a chunk of video that was encoded on its own is made to follow on another one.  Its frames keep their modes
and motion vectors, and their coefficients are made again for the pictures that the other chunk ends with; a key frame at its
start becomes an inter frame.

As for the encoder (Model/Encode), what is decided by measuring is an argument.  So is the mean of two quantizer indices, which is computed
with floating-point numbers.  What the predictions leave in a macroblock before it is reconstructed is an argument (`Trials.late`). -/

namespace Alfalfa

/-! ### Macroblocks -/

/-- The luma of a macroblock without a Y2 block (src/encoder/encode_inter.cc:385-399), whose prediction is in `p`. -/
def codePlain (mb : Nat) (q : Quantizer) (o p : Plane) (column row : Nat) : Option (Fin 16 → Block) := do
  let c ← allSome (lumaDct o p column row)
  let y ← allSome fun k : Fin 16 => compress none mb ⟨k.val, by omega⟩ q .yWithoutY2 (c k)
  pure fun k => codedBlock (y k)

/-- The luma of an inter-predicted macroblock with the modes `m` (src/encoder/reencode.cc:175-206, src/encoder/encode_inter.cc:375-434). -/
def updateLuma (mb : Nat) (q : Quantizer) (reference : Plane) (m : MBModes) (o p : Plane) (column row : Nat) : Option (Block × (Fin 16 → Block)) :=
  if m.yMode = SPLITMV then do
    let p ← forLuma (fun p k => interPredict 4 p reference (m.mvs k) (4 * column + k.val % 4) (4 * row + k.val / 4)) p
    let y ← codePlain mb q o p column row
    pure ({}, y)
  else do
    let p ← interPredict 16 p reference m.baseMv column row
    codeWhole none mb q o p column row

/-- The prediction of a chroma plane (src/encoder/encode_inter.cc:463-478); `mvs` are the vectors of the U blocks. -/
def predictChroma (reference : Plane) (split : Bool) (mvs : Fin 4 → MotionVector) (p : Plane) (column row : Nat) : Option Plane :=
  if split then forChroma (fun p k => interPredict 4 p reference (mvs k) (2 * column + k.val % 2) (2 * row + k.val / 2)) p
  else interPredict 8 p reference (mvs 0) column row

/-- `update_macroblock` for an inter-predicted macroblock (src/encoder/reencode.cc:140-144,175-218): `m` is what the prediction frame has.  The new
macroblock gets the header, the luma mode and the vectors, and with `SPLITMV` the modes of the blocks; it does not get the segment id. -/
def updateInter (mb : Nat) (q : Quantizer) (references : References) (m : MBModes) (o s : Raster) (column row : Nat) : Option (MBModes × Residue) := do
  let id ← m.reference
  let reference ← references.at? id
  let y ← updateLuma mb q reference.y m o.y s.y column row
  let mvs : Fin 16 → MotionVector := if m.yMode = SPLITMV then m.mvs else fun _ => m.baseMv
  let pu ← predictChroma reference.u (m.yMode == SPLITMV) (chromaMvs mvs) s.u column row
  let pv ← predictChroma reference.v (m.yMode == SPLITMV) (chromaMvs mvs) s.v column row
  let u ← codeChroma none mb 16 q o.u pu column row
  let v ← codeChroma none mb 20 q o.v pv column row
  let r := assembleResidue y.1 y.2 u v
  pure ({ skip := some (!r.nonzero), isInter := true, sel1 := m.sel1, sel2 := m.sel2, flipped := m.flipped, partitionId := m.partitionId, yMode := m.yMode,
          bModes := if m.yMode = SPLITMV then m.bModes else fun _ => 0, mvs, uMvs := chromaMvs mvs }, r)

/-- The modes of an intra-predicted macroblock as they are used again (src/encoder/reencode.cc:144-173,225); other values throw. -/
def intraChoice (m : MBModes) : Option IntraChoice :=
  if h : m.yMode < 5 ∧ m.uvMode < 4 ∧ ∀ i, m.bModes i < 10 then some ⟨⟨m.yMode, h.1⟩, ⟨m.uvMode, h.2.1⟩, fun i => ⟨m.bModes i, h.2.2 i⟩⟩ else none

/-- `update_macroblock` up to the reconstruction (src/encoder/reencode.cc:133-236). -/
def updateMacroblock (mb : Nat) (q : Quantizer) (references : References) (m : MBModes) (o s : Raster) (column row : Nat) : Option (MBModes × Residue) :=
  if m.isInter then updateInter mb q references m o s column row
  else do
    let choice ← intraChoice m
    codeIntra none mb q choice o s column row

/-- The body of the loop of `update_residues` (src/encoder/reencode.cc:283-297). -/
def updateStep (late : Nat → Raster → Raster) (q : Quantizer) (references : References) (old : List MBModes) (o : Raster) (w : Nat) (s : Coded) (k : Nat) :
    Option Coded := do
  let m0 ← old[k]?
  let (m, r) ← updateMacroblock k q references m0 o s.raster (k % w) (k / w)
  let raster ← if m.isInter then reconstructInter q references m r (k % w) (k / w) (late k s.raster)
    else reconstructIntra q m r (k % w) (k / w) (late k s.raster)
  pure { raster, modes := s.modes ++ [m], residues := s.residues ++ [r] }

/-- The loop (src/encoder/reencode.cc:283-297). -/
def updatePass (late : Nat → Raster → Raster) (q : Quantizer) (references : References) (old : List MBModes) (o : Raster) (width height : Nat) (s : Raster) :
    Option Coded :=
  (List.range (macroblockDimension width * macroblockDimension height)).foldlM
    (updateStep late q references old o (macroblockDimension width)) { raster := s, modes := [], residues := [] }

/-! ### Frames -/

/-- What is measured while a frame is made, and the recycled picture. -/
structure ReencodeWork where
  inter : InterChoices
  scratch : Raster

/-- The references of the macroblocks, for `optimize_interframe_probs` (src/encoder/encode_inter.cc:530-557). -/
def allReferences (modes : List MBModes) : Option (List (Fin 4)) := modes.mapM MBModes.reference

/-- The header before the probabilities are chosen (src/encoder/reencode.cc:243-274): a new one with what is taken over from `h`. -/
def updatedHeader (h : InterFrameHeader) (quantIndices : QuantIndices) (last : Bool) : InterFrameHeader :=
  { emptyInterHeader with
    updateSegmentation := h.updateSegmentation
    filterType := h.filterType
    loopFilterLevel := h.loopFilterLevel
    sharpnessLevel := h.sharpnessLevel
    modeLfAdjustments := h.modeLfAdjustments
    signBiasGolden := h.signBiasGolden
    signBiasAlternate := h.signBiasAlternate
    refreshEntropyProbs := h.refreshEntropyProbs
    probReferencesLast := h.probReferencesLast
    probReferencesGolden := h.probReferencesGolden
    refreshLast := if last then true else h.refreshLast
    refreshGoldenFrame := if last then true else h.refreshGoldenFrame
    refreshAlternateFrame := if last then true else h.refreshAlternateFrame
    copyBufferToGolden := if last then none else h.copyBufferToGolden
    copyBufferToAlternate := if last then none else h.copyBufferToAlternate
    quantIndices }

/-- `update_residues` (src/encoder/reencode.cc:238-307): the frame, and the picture before the loop filter.  The new frame is to be shown, whether or not
the old one was (src/decoder/frame.cc:383-389). -/
def updateResidues (w : ReencodeWork) (e : Encoder) (o : Raster) (f : Frame InterFrameHeader) (quantIndices : QuantIndices) (last : Bool) :
    Option (Frame InterFrameHeader × Raster) := do
  let h := updatedHeader f.header quantIndices last
  let q ← quantizer quantIndices
  let coded ← updatePass w.inter.trials.late q e.references f.modes o e.state.width e.state.height w.scratch
  let skip ← optimizeSkip coded.residues
  let refs ← allReferences coded.modes
  let probs ← optimizeReferences (h.probInter, h.probReferencesLast, h.probReferencesGolden) refs
  let tokenProbUpdate ← optimizeTables h.tokenProbUpdate e.state.tables.coeffProbs w.inter.counts
  let header := { h with tokenProbUpdate, probSkipFalse := some skip, probInter := probs.1, probReferencesLast := probs.2.1, probReferencesGolden := probs.2.2 }
  pure ({ show' := true, width := e.state.width, height := e.state.height, header, modes := coded.modes, residues := coded.residues }, coded.raster)

/-- The header with which `reencode_as_interframe` begins (src/encoder/reencode.cc:43-78). -/
def asInterHeader (h : KeyFrameHeader) : InterFrameHeader :=
  { emptyInterHeader with
    filterType := h.filterType
    loopFilterLevel := h.loopFilterLevel
    sharpnessLevel := h.sharpnessLevel
    modeLfAdjustments := h.modeLfAdjustments
    refreshGoldenFrame := true
    refreshAlternateFrame := true
    copyBufferToGolden := none
    copyBufferToAlternate := none
    intra16x16Prob := some fun i => (yModeDefaultProbs i).toNat
    intraChromaProb := some fun i => (uvModeDefaultProbs i).toNat }

/-- The exceptions of `reencode` and of what it calls; `undefined` is what the model does not define. -/
inductive ReencodeError where
  | noRasters
  | countMismatch
  | sizeMismatch
  | notKeyFrame
  | neitherFrame
  | segmentation
  | undefined
deriving DecidableEq

/-- What the model does not define, as an outcome. -/
def orUndefined {α : Type} : Option α → Except ReencodeError α
  | some x => .ok x
  | none => .error .undefined

/-- `reencode_as_interframe` (src/encoder/reencode.cc:37-131).  From the macroblocks on it does the same as `encode_raster<InterFrame>`. -/
def reencodeAsInter (w : ReencodeWork) (e : Encoder) (o : Raster) (h : KeyFrameHeader) (quantIndices : QuantIndices) :
    Except ReencodeError (Frame InterFrameHeader) :=
  if h.updateSegmentation.isSome then .error .segmentation
  else
    match encodeInter w.inter e (asInterHeader h) quantIndices o w.scratch with
    | some (f, _) => .ok f
    | none => .error .undefined

/-! ### Chunks -/

/-- A frame of the chunk, as `pair<Optional<KeyFrame>, Optional<InterFrame>>`. -/
abbrev PredictionFrame := Option (Frame KeyFrameHeader) × Option (Frame InterFrameHeader)

/-- `write_frame( … )` for what `updateResidues` gives. -/
def writeUpdated (R : Renderer) (w : ReencodeWork) (e : Encoder) (o : Raster) (f : Frame InterFrameHeader) (quantIndices : QuantIndices) (last : Bool) :
    Except ReencodeError (Encoder × List UInt8) :=
  orUndefined ((updateResidues w e o f quantIndices last).bind fun x => e.writeInter R x.1)

/-- The quantizer indices for a key frame that becomes an inter frame (src/encoder/reencode.cc:343-354): `next` is the frame after it. -/
def firstIndices (blend : Nat → Nat → Nat) (f : Frame KeyFrameHeader) (next : Option PredictionFrame) : QuantIndices :=
  match next with
  | some (_, some n) => { f.header.quantIndices with yAcQi := blend f.header.quantIndices.yAcQi n.header.quantIndices.yAcQi }
  | _ => f.header.quantIndices

/-- The body of the loop of `reencode` (src/encoder/reencode.cc:325-379): the encoder afterwards and the frame that is written.  `blend` is the weighted
mean (lines 352-353 and 371-372); `width` and `height` are those of the file that is written. -/
def reencodeFrame (R : Renderer) (blend : Nat → Nat → Nat) (extra : Bool) (width height : Nat) (predictions : List PredictionFrame) (e : Encoder)
    (k : Nat) (o : Raster) (w : ReencodeWork) : Except ReencodeError (Encoder × List UInt8) :=
  let start := if extra then 1 else 0
  let last := k == predictions.length - 1
  if o.displayWidth ≠ e.state.width ∨ o.displayHeight ≠ e.state.height ∨ e.state.width ≠ width ∨ e.state.height ≠ height then .error .sizeMismatch
  else
    match predictions[k]? with
    | none => .error .undefined
    | some (some f, _) =>
      if k = start then
        match reencodeAsInter w e o f.header (firstIndices blend f predictions[k + 1]?) with
        | .error x => .error x
        | .ok f => orUndefined (e.writeInter R f)
      else orUndefined (e.writeKey R f)
    | some (none, second) =>
      if k = start ∧ extra then
        match predictions[0]? with
        | some (some first, _) =>
          match second with
          | none => .error .undefined
          | some f => writeUpdated R w e o f { f.header.quantIndices with
              yAcQi := blend first.header.quantIndices.yAcQi f.header.quantIndices.yAcQi } last
        | _ => .error .notKeyFrame
      else
        match second with
        | some f => writeUpdated R w e o f f.header.quantIndices last
        | none => .error .neitherFrame

/-- The loop (src/encoder/reencode.cc:320-380) from frame `k` on: the encoder afterwards and the frames that are written. -/
def reencodeLoop (R : Renderer) (blend : Nat → Nat → Nat) (extra : Bool) (width height : Nat) (predictions : List PredictionFrame) :
    (k : Nat) → List (Raster × ReencodeWork) → Encoder → Except ReencodeError (Encoder × List (List UInt8))
  | _, [], e => .ok (e, [])
  | k, (o, w) :: rest, e => do
    let (e, frame) ← reencodeFrame R blend extra width height predictions e k o w
    let (e, frames) ← reencodeLoop R blend extra width height predictions (k + 1) rest e
    pure (e, frame :: frames)

/-- `Encoder::reencode` (src/encoder/reencode.cc:309-381). -/
def reencode (R : Renderer) (blend : Nat → Nat → Nat) (extra : Bool) (width height : Nat) (rasters : List (Raster × ReencodeWork))
    (predictions : List PredictionFrame) (e : Encoder) : Except ReencodeError (Encoder × List (List UInt8)) :=
  if rasters.isEmpty then .error .noRasters
  else if rasters.length ≠ predictions.length then .error .countMismatch
  else
    let start := if extra then 1 else 0
    reencodeLoop R blend extra width height predictions start (rasters.drop start) e

/-! ### The frames of the chunk -/

/-- How the program reads the frames of the chunk (src/frontend/xc-enc.cc:289-303), with a decoder of its own; `width` and `height` are those of the
file. -/
def readPredictions (R : Renderer) (width height : Nat) (d : Decoder) : List (List UInt8) → Except FrameError (List PredictionFrame)
  | [] => .ok []
  | bytes :: rest => do
    let c ← splitFrame bytes width height false
    if c.keyFrame then
      match d.state.applyKey c with
      | (_, .error e) => throw e
      | (st, .ok f) =>
        let frames ← readPredictions R width height (Decoder.decodeKey R { d with state := st } f).1 rest
        pure ((some f.frame, none) :: frames)
    else
      match d.state.applyInter c with
      | (_, .error e) => throw e
      | (st, .ok f) =>
        let frames ← readPredictions R width height (Decoder.decodeInter R { d with state := st } f).1 rest
        pure ((none, some f.frame) :: frames)

/-- The program (src/frontend/xc-enc.cc:262-326) with the flag `--reencode`: from the state in which the chunk before it ends, the pictures and the
frames of the chunk, to the frames that are written and the state that is saved.  The two decoders are read from files; the comparison
of hashes before the frames are read is left out. -/
def xcReencode (R : Renderer) (blend : Nat → Nat → Nat) (extra : Bool) (width height : Nat) (predictionDecoder source : Decoder) (chunkWidth chunkHeight : Nat)
    (rasters : List (Raster × ReencodeWork)) (chunk : List (List UInt8)) : Option (Decoder × List (List UInt8)) :=
  match readPredictions R chunkWidth chunkHeight predictionDecoder chunk with
  | .error _ => none
  | .ok predictions =>
    match reencode R blend extra width height rasters predictions ⟨source.state, source.references⟩ with
    | .ok (e, frames) => some (e.exportDecoder, frames)
    | .error _ => none

end Alfalfa
