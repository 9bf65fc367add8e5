import Verif.Model.Render
import Verif.Model.Choices
import Verif.Model.Search

/-! The encoder from a picture to a frame: `encode_raster` for key frames and inter frames (src/encoder/encode_intra.cc:48-456,
src/encoder/encode_inter.cc:231-653).

Which mode a macroblock gets, which contexts and costs the search for coefficients uses, how often the branches of the token tree were
taken and which loop-filter level gives the best picture depends on costs and on floating-point numbers; the model takes them as
arguments, with any values.  What follows from them (predictions, coefficients, flags, headers, the picture) is computed as in the code.

Two simplifications.  The objects for macroblocks and headers are used again for each picture: what an earlier picture left in parts
that are neither written to the bitstream nor read when the picture is decoded (motion vectors of intra-coded macroblocks, intra modes of
inter-coded ones, coefficients of a Y2 block that is not coded) has its default value here; the token probability updates and other
header fields, which are written, are arguments.  A trial of `B_PRED` predicts each block twice, which is the same as once.  What the
trials of modes leave in the macroblock before its coefficients are made and before it is reconstructed is an argument too. -/

namespace Alfalfa

/-! ### Choices that are arguments -/

/-- The modes chosen for an intra-coded macroblock (`luma_mb_best_prediction_mode`, `luma_sb_intra_predict`,
`chroma_mb_best_prediction_mode`, src/encoder/encode_intra.cc:82-161,248-284,360-386): a luma mode up to `B_PRED`, a chroma mode up
to `TM_PRED`, and block modes, which matter only with `B_PRED`. -/
structure IntraChoice where
  yMode : Fin 5
  uvMode : Fin 4
  bModes : Fin 16 → Fin 10

/-- How coefficients are quantized: the first pass (`none`) simply divides, the second uses `trellis_quantize` with these costs for
each type of block and these contexts for the 25 blocks of each macroblock (Y, U, V, Y2). -/
structure SecondPass where
  costs : BlockType → TrellisCosts
  contexts : Nat → Fin 25 → Fin 3
  /-- The type that the Y blocks of a macroblock have before `set_Y_without_Y2` is called, left by the first pass. -/
  staleType : Nat → BlockType

/-- What the trials of modes leave in the picture while macroblock `k` is coded (src/encoder/encode_intra.cc:95-160,258-283,365-385,
src/encoder/encode_inter.cc:328-368): before the coefficients of the chosen modes are made and before the macroblock is reconstructed.  They
write to the macroblock itself only. -/
structure Trials where
  early : Nat → Raster → Raster
  late : Nat → Raster → Raster

/-! ### Blocks -/

/-- `calculate_has_nonzero` of a block (src/decoder/block.hh:229-233). -/
def codedBlock (c : Fin 16 → Int) : Block := { coeffs := c, hasNonzero := decide (∃ i, c i ≠ 0) }

/-- `if ( encoder_pass == FIRST_PASS ) … quantize … else trellis_quantize` (src/encoder/encode_intra.cc:58-63,199-204,305-310): `type` is
the type that the block has at that moment. -/
def compress (pass : Option SecondPass) (mb : Nat) (block : Fin 25) (q : Quantizer) (type : BlockType) (c : Fin 16 → Int) : Option (Fin 16 → Int) :=
  match pass with
  | none => quantize (q.factors type).1 (q.factors type).2 c
  | some s => trellisQuantize (s.costs type) type (q.factors type).1 (q.factors type).2 (s.contexts mb block) c

/-- The same for the Y2 block (src/encoder/encode_intra.cc:213-219). -/
def compressY2 (pass : Option SecondPass) (mb : Nat) (q : Quantizer) (c : Fin 16 → Int) : Option (Fin 16 → Int) :=
  match pass with
  | none => compress none mb 24 q .y2 c
  | some s => compress (some s) mb 24 q .y2 (checkResetY2 q.y2Dc q.y2Ac c)

/-- `subtract_dct( original_sb, prediction )` for Y block `k` (src/encoder/encode_intra.cc:55-56,192-193, src/encoder/encode_inter.cc:418-419);
`o` is the original plane, `p` holds the prediction. -/
def lumaDct (o p : Plane) (column row : Nat) (k : Fin 16) : Option (Fin 16 → Int) := do
  let a ← o.getSquare 4 (4 * (4 * column + k.val % 4)) (4 * (4 * row + k.val / 4))
  let b ← p.getSquare 4 (4 * (4 * column + k.val % 4)) (4 * (4 * row + k.val / 4))
  pure (subtractDct a b)

/-- The same for a U or V block (src/encoder/encode_intra.cc:302-303,321-322, src/encoder/encode_inter.cc:485-486,498-499). -/
def chromaDct (o p : Plane) (column row : Nat) (k : Fin 4) : Option (Fin 16 → Int) := do
  let a ← o.getSquare 4 (4 * (2 * column + k.val % 2)) (4 * (2 * row + k.val / 2))
  let b ← p.getSquare 4 (4 * (2 * column + k.val % 2)) (4 * (2 * row + k.val / 2))
  pure (subtractDct a b)

/-- The coefficients of the luma of a macroblock with a Y2 block, whose prediction is in `p` (src/encoder/encode_intra.cc:184-221,
src/encoder/encode_inter.cc:410-433): the DC coefficients go to the Y2 block. -/
def codeWhole (pass : Option SecondPass) (mb : Nat) (q : Quantizer) (o p : Plane) (column row : Nat) : Option (Block × (Fin 16 → Block)) := do
  let c ← allSome (lumaDct o p column row)
  let y ← allSome fun k : Fin 16 => compress pass mb ⟨k.val, by omega⟩ q .yAfterY2 (Function.update (c k) 0 0)
  let y2 ← compressY2 pass mb q (wht fun k => c k 0)
  pure (codedBlock y2, fun k => codedBlock (y k))

/-- One block with `B_PRED` (src/encoder/encode_intra.cc:48-71,116-137): its coefficients are made with the type that the block has before
`set_Y_without_Y2`.  The state is the plane and the blocks so far. -/
def codeSub (pass : Option SecondPass) (mb : Nat) (q : Quantizer) (modes : Fin 16 → Fin 10) (o : Plane) (column row : Nat)
    (s : Plane × (Fin 16 → Block)) (k : Fin 16) : Option (Plane × (Fin 16 → Block)) := do
  let p ← intraPredict4 s.1 (modes k).val (4 * column + k.val % 4) (4 * row + k.val / 4)
  let c ← lumaDct o p column row k
  let z ← compress pass mb ⟨k.val, by omega⟩ q ((pass.map (·.staleType mb)).getD .yWithoutY2) c
  let p ← addLuma (fun _ => q.dequantizeY z) column row p k
  pure (p, Function.update s.2 k (codedBlock z))

/-- The luma of an intra-coded macroblock (src/encoder/encode_intra.cc:116-137,169-222): the Y2 block and the Y blocks.  `p` is the plane
of the picture that is being reconstructed. -/
def codeIntraLuma (pass : Option SecondPass) (mb : Nat) (q : Quantizer) (choice : IntraChoice) (o p : Plane) (column row : Nat) :
    Option (Block × (Fin 16 → Block)) :=
  if choice.yMode.val = B_PRED then do
    let s ← (List.finRange 16).foldlM (codeSub pass mb q choice.bModes o column row) (p, fun _ => {})
    pure ({}, s.2)
  else do
    let p ← intraPredict16 p choice.yMode.val column row
    codeWhole pass mb q o p column row

/-- One chroma plane whose prediction is in `p` (src/encoder/encode_intra.cc:297-333, src/encoder/encode_inter.cc:480-504); `first` is 16 for
U and 20 for V. -/
def codeChroma (pass : Option SecondPass) (mb : Nat) (first : Fin 21) (q : Quantizer) (o p : Plane) (column row : Nat) : Option (Fin 4 → Block) := do
  let c ← allSome (chromaDct o p column row)
  let z ← allSome fun k : Fin 4 => compress pass mb ⟨first.val + k.val, by omega⟩ q .uv (c k)
  pure fun k => codedBlock (z k)

/-- `Macroblock::calculate_has_nonzero` (src/encoder/encoder.cc:631-658), where a Y2 block that is not coded is empty. -/
def assembleResidue (y2 : Block) (y : Fin 16 → Block) (u v : Fin 4 → Block) : Residue :=
  { y2, y, u, v, nonzero := y2.hasNonzero || decide (∃ k, (y k).hasNonzero = true) || decide (∃ k, (u k).hasNonzero = true) ||
      decide (∃ k, (v k).hasNonzero = true) }

/-! ### Macroblocks -/

/-- The modes of an intra-coded macroblock (src/encoder/encode_intra.cc:65,177,190,295, src/encoder/encoder.cc:657). -/
def intraModes (choice : IntraChoice) (r : Residue) : Option MBModes := do
  let bModes ← if choice.yMode.val = B_PRED then some fun i => (choice.bModes i).val
    else (impliedSubblockMode choice.yMode.val).map fun m _ => m
  pure { skip := some (!r.nonzero), yMode := choice.yMode.val, uvMode := choice.uvMode.val, bModes }

/-- `luma_mb_intra_predict`, `chroma_mb_intra_predict` and `calculate_has_nonzero` (src/encoder/encode_intra.cc:224-243,336-355,425-431,
src/encoder/encode_inter.cc:353-360,620-625); `s` is the picture so far. -/
def codeIntra (pass : Option SecondPass) (mb : Nat) (q : Quantizer) (choice : IntraChoice) (o s : Raster) (column row : Nat) :
    Option (MBModes × Residue) := do
  let y ← codeIntraLuma pass mb q choice o.y s.y column row
  let pu ← intraPredict8 s.u choice.uvMode.val column row
  let pv ← intraPredict8 s.v choice.uvMode.val column row
  let u ← codeChroma pass mb 16 q o.u pu column row
  let v ← codeChroma pass mb 20 q o.v pv column row
  let r := assembleResidue y.1 y.2 u v
  let m ← intraModes choice r
  pure (m, r)

/-- What `luma_mb_inter_predict` settles on (src/encoder/encode_inter.cc:269-369): an intra mode, or one of the four inter modes.  The
code passes over a mode other than `ZEROMV` whose vector is zero; here it may be chosen as well.  For `NEWMV` the argument is the cost that
the search goes by. -/
inductive InterChoice
  | intra (choice : IntraChoice)
  | zero
  | nearest
  | near
  | new (cost : MotionVector → Square 16 → Nat)

/-- The mode and the vector (src/encoder/encode_inter.cc:259-326) from the padded copy of the reference and the neighbours; `none` for an
intra mode is not reached.  `place` is that of `original_mb`. -/
def interVector (rows : List (List UInt8)) (c : MBContext) (choice : InterChoice) (place : Nat × Nat := (c.column, c.row)) : Option (Nat × MotionVector) :=
  match choice with
  | .intra _ => none
  | .zero => some (ZEROMV, {})
  | .nearest => do
    let s ← census false c
    pure (NEARESTMV, clampMv (s.mvs 1) c)
  | .near => do
    let s ← census false c
    pure (NEARMV, clampMv (s.mvs 2) c)
  | .new cost => do
    let s ← census false c
    let d ← newVector { rows, context := c, cost, place } (clampMv (s.mvs 0) c)
    pure (NEWMV, d.add (clampMv (s.mvs 0) c))

/-- An inter-coded macroblock (src/encoder/encode_inter.cc:328,346-349,361-368,375-507,616-625): the prediction of the luma comes from the padded copy
and that of the chroma from the reference itself. -/
def codeInter (q : Quantizer) (rows : List (List UInt8)) (reference : Raster) (c : MBContext) (mode : Nat) (mv : MotionVector) (mb : Nat)
    (o s : Raster) : Option (MBModes × Residue) := do
  let prediction ← searchPredict rows mv c.column c.row
  let py ← s.y.putSquare (16 * c.column) (16 * c.row) prediction
  let y ← codeWhole none mb q o.y py c.column c.row
  let mvs : Fin 16 → MotionVector := fun _ => mv
  let pu ← interPredict 8 s.u reference.u (chromaMvs mvs 0) c.column c.row
  let pv ← interPredict 8 s.v reference.v (chromaMvs mvs 0) c.column c.row
  let u ← codeChroma none mb 16 q o.u pu c.column c.row
  let v ← codeChroma none mb 20 q o.v pv c.column c.row
  let r := assembleResidue y.1 y.2 u v
  pure ({ skip := some (!r.nonzero), isInter := true, sel1 := some false, yMode := mode, mvs, uMvs := chromaMvs mvs }, r)

/-! ### Frames -/

/-- What one pass over the macroblocks has made so far: the picture, the modes and the coefficients. -/
structure Coded where
  raster : Raster
  modes : List MBModes
  residues : List Residue

/-- The body of the loop of `encode_raster<KeyFrame>` (src/encoder/encode_intra.cc:418-436). -/
def keyStep (pass : Option SecondPass) (trials : Trials) (q : Quantizer) (choices : Nat → IntraChoice) (o : Raster) (w : Nat) (s : Coded) (k : Nat) : Option Coded := do
  let (m, r) ← codeIntra pass k q (choices k) o (trials.early k s.raster) (k % w) (k / w)
  let raster ← reconstructIntra q m r (k % w) (k / w) (trials.late k s.raster)
  pure { raster, modes := s.modes ++ [m], residues := s.residues ++ [r] }

/-- One pass (src/encoder/encode_intra.cc:418-436), into a picture with any content. -/
def keyPass (pass : Option SecondPass) (trials : Trials) (q : Quantizer) (choices : Nat → IntraChoice) (o : Raster) (width height : Nat) (s : Raster) : Option Coded :=
  (List.range (macroblockDimension width * macroblockDimension height)).foldlM
    (keyStep pass trials q choices o (macroblockDimension width)) { raster := s, modes := [], residues := [] }

/-- The body of the loop of `encode_raster<InterFrame>` (src/encoder/encode_inter.cc:604-636). -/
def interStep (trials : Trials) (q : Quantizer) (choices : Nat → InterChoice) (rows : List (List UInt8)) (references : References) (o : Raster) (w h : Nat)
    (s : Coded) (k : Nat) : Option Coded :=
  match choices k with
  | .intra choice => do
    let (m, r) ← codeIntra none k q choice o (trials.early k s.raster) (k % w) (k / w)
    let raster ← reconstructIntra q m r (k % w) (k / w) (trials.late k s.raster)
    pure { raster, modes := s.modes ++ [m], residues := s.residues ++ [r] }
  | choice => do
    let (mode, mv) ← interVector rows (gridContext w h s.modes k) choice
    let (m, r) ← codeInter q rows references.last (gridContext w h s.modes k) mode mv k o (trials.early k s.raster)
    let raster ← reconstructInter q references m r (k % w) (k / w) (trials.late k s.raster)
    pure { raster, modes := s.modes ++ [m], residues := s.residues ++ [r] }

/-- The pass over an inter frame (src/encoder/encode_inter.cc:604-636). -/
def interPass (trials : Trials) (q : Quantizer) (choices : Nat → InterChoice) (references : References) (o : Raster) (width height : Nat) (s : Raster) : Option Coded := do
  let rows ← safeRaster references.last.y
  let w := macroblockDimension width
  let h := macroblockDimension height
  (List.range (w * h)).foldlM (interStep trials q choices rows references o w h) { raster := s, modes := [], residues := [] }

/-- The adjustments set by `apply_best_loopfilter_settings` (src/encoder/encoder.cc:464-470): all zero. -/
def zeroAdjustments : Option (Option ModeRefLFDeltaUpdate) := some (some { refUpdate := fun _ => some 0, modeUpdate := fun _ => some 0 })

/-- The choices of the second pass. -/
structure SecondChoices where
  trials : Trials
  costs : BlockType → TrellisCosts
  contexts : Nat → Fin 25 → Fin 3
  modes : Nat → IntraChoice
  counts : BranchCounts

/-- The choices for a key frame: modes, the second pass if there is one (`two_pass_encoder_`), the branch counts of each pass and the
loop-filter level, which `C65_level` shows to be at most 63. -/
structure KeyChoices where
  trials : Trials
  modes : Nat → IntraChoice
  counts : BranchCounts
  second : Option SecondChoices
  level : Fin 64

/-- The passes of `encode_raster<KeyFrame>` (src/encoder/encode_intra.cc:409-439): what was coded last, and the token probability updates, to
which each pass adds.  The tables are the default ones, as `decoder_state_` is new. -/
def keyPasses (d : KeyChoices) (q : Quantizer) (u : TokenProbUpdate) (o : Raster) (width height : Nat) (s : Raster) : Option (Coded × TokenProbUpdate) := do
  let one ← keyPass none d.trials q d.modes o width height s
  let u ← optimizeTables u ({} : ProbabilityTables).coeffProbs d.counts
  match d.second with
  | none => pure (one, u)
  | some e => do
    let staleType (k : Nat) : BlockType := if (d.modes k).yMode.val = B_PRED then .yWithoutY2 else .yAfterY2
    let two ← keyPass (some { costs := e.costs, contexts := e.contexts, staleType }) e.trials q e.modes o width height one.raster
    let u ← optimizeTables u ({} : ProbabilityTables).coeffProbs e.counts
    pure (two, u)

/-- `encode_raster<KeyFrame>` (src/encoder/encode_intra.cc:388-456) with a header `h` from earlier pictures: the frame and the picture after
the loop filter. -/
def encodeKey (d : KeyChoices) (h : KeyFrameHeader) (quantIndices : QuantIndices) (o : Raster) (width height : Nat) (s : Raster) :
    Option (Frame KeyFrameHeader × Raster) := do
  let q ← quantizer quantIndices
  let (coded, tokenProbUpdate) ← keyPasses d q h.tokenProbUpdate o width height s
  let skip ← optimizeSkip coded.residues
  let header := { h with quantIndices, refreshEntropyProbs := true, tokenProbUpdate, probSkipFalse := some skip,
                         modeLfAdjustments := zeroAdjustments, loopFilterLevel := d.level.val }
  let f : Frame KeyFrameHeader := { show' := true, width, height, header, modes := coded.modes, residues := coded.residues }
  let raster ← loopfilterFrame true header.filterType header.loopFilterLevel header.sharpnessLevel none (some {})
    { frame := f, segmentIds := f.modes.map fun _ => 0 } coded.raster
  pure (f, raster)

/-- The choices for an inter frame. -/
structure InterChoices where
  trials : Trials
  modes : Nat → InterChoice
  counts : BranchCounts
  level : Fin 64

/-- The references of the macroblocks, for `optimize_interframe_probs` (src/encoder/encode_inter.cc:530-557). -/
def codedReferences (modes : List MBModes) : List (Fin 4) := modes.map fun m => if m.isInter then 1 else 0

/-- `encode_raster<InterFrame>` (src/encoder/encode_inter.cc:577-653). -/
def encodeInter (d : InterChoices) (e : Encoder) (h : InterFrameHeader) (quantIndices : QuantIndices) (o : Raster) (s : Raster) :
    Option (Frame InterFrameHeader × Raster) := do
  let q ← quantizer quantIndices
  let coded ← interPass d.trials q d.modes e.references o e.state.width e.state.height s
  let skip ← optimizeSkip coded.residues
  let probs ← optimizeReferences (h.probInter, h.probReferencesLast, h.probReferencesGolden) (codedReferences coded.modes)
  let tokenProbUpdate ← optimizeTables h.tokenProbUpdate e.state.tables.coeffProbs d.counts
  let header := { h with quantIndices, refreshEntropyProbs := true, refreshLast := true, tokenProbUpdate, probSkipFalse := some skip,
                         probInter := probs.1, probReferencesLast := probs.2.1, probReferencesGolden := probs.2.2,
                         modeLfAdjustments := zeroAdjustments, loopFilterLevel := d.level.val }
  let f : Frame InterFrameHeader :=
    { show' := true, width := e.state.width, height := e.state.height, header, modes := coded.modes, residues := coded.residues }
  let raster ← loopfilterFrame false header.filterType header.loopFilterLevel header.sharpnessLevel e.state.segmentation (some {})
    { frame := f, segmentIds := f.modes.map fun _ => 0 } coded.raster
  pure (f, raster)

/-! ### New frames -/

/-- The header of an empty key frame (src/decoder/frame.cc:383-389): every bit read is zero. -/
def emptyKeyHeader : KeyFrameHeader where
  colorSpace := false
  clampingType := false
  updateSegmentation := none
  filterType := false
  loopFilterLevel := 0
  sharpnessLevel := 0
  modeLfAdjustments := none
  log2Partitions := 0
  quantIndices := { yAcQi := 0, yDc := none, y2Dc := none, y2Ac := none, uvDc := none, uvAc := none }
  refreshEntropyProbs := false
  tokenProbUpdate := fun _ _ _ _ => none
  probSkipFalse := none

/-- The header of an empty inter frame (src/decoder/frame.cc:383-389). -/
def emptyInterHeader : InterFrameHeader where
  updateSegmentation := none
  filterType := false
  loopFilterLevel := 0
  sharpnessLevel := 0
  modeLfAdjustments := none
  log2Partitions := 0
  quantIndices := { yAcQi := 0, yDc := none, y2Dc := none, y2Ac := none, uvDc := none, uvAc := none }
  refreshGoldenFrame := false
  refreshAlternateFrame := false
  copyBufferToGolden := some 0
  copyBufferToAlternate := some 0
  signBiasGolden := false
  signBiasAlternate := false
  refreshEntropyProbs := false
  refreshLast := false
  tokenProbUpdate := fun _ _ _ _ => none
  probSkipFalse := none
  probInter := 0
  probReferencesLast := 0
  probReferencesGolden := 0
  intra16x16Prob := none
  intraChromaProb := none
  mvProbUpdate := fun _ _ => none

/-- `QuantIndices()` with `y_ac_qi` set (src/encoder/encoder.cc:57-59,565-566). -/
def uniformIndices (qi : Nat) : QuantIndices := { yAcQi := qi, yDc := none, y2Dc := none, y2Ac := none, uvDc := none, uvAc := none }

end Alfalfa
