import Verif.Model.Session

/-! How large a frame would be (src/encoder/size_estimation.cc): the encoder codes every fourth macroblock of every fourth row into a frame of a quarter of
the width and height, and multiplies the size of that frame by sixteen.  As in Model/Encode, the choices of modes are arguments, and what the trials of
modes leave in the picture. -/

namespace Alfalfa

/-- `WIDTH_SAMPLE_DIMENSION_FACTOR`, `HEIGHT_SAMPLE_DIMENSION_FACTOR` (src/encoder/encoder.hh:114-115). -/
def sampleFactor : Nat := 4

/-- What one estimate takes from outside the model: the choices made by measuring, and the recycled picture. -/
structure EstimateWork where
  trials : Trials
  keyModes : Nat → IntraChoice
  interModes : Nat → InterChoice
  scratch : Raster

/-- The headers of `subsampled_key_frame_` and `subsampled_inter_frame_` (src/encoder/encoder.hh:136-142), which are used again for each estimate; their
macroblocks are overwritten. -/
structure Samples where
  keyHeader : KeyFrameHeader := emptyKeyHeader
  interHeader : InterFrameHeader := emptyInterHeader

/-- `macroblock_mapper` (src/encoder/size_estimation.cc:37-41,101-105). -/
def mapped (column row : Nat) : Nat × Nat := (column * sampleFactor, row * sampleFactor)

/-- `raster.macroblock( org_mb_column, org_mb_row )` (src/encoder/size_estimation.cc:67-71,130-134), `none` outside of the picture.  The functions of Model/Encode take
the pixels to be coded from the place of the macroblock in the frame, so here they are copied to that place in an empty picture. -/
def originalAt (o : Raster) (place : Nat × Nat) (column row : Nat) : Option Raster := do
  let y ← o.y.getSquare 16 (16 * place.1) (16 * place.2)
  let u ← o.u.getSquare 8 (8 * place.1) (8 * place.2)
  let v ← o.v.getSquare 8 (8 * place.1) (8 * place.2)
  let b := blankRaster o.displayWidth o.displayHeight
  let py ← b.y.putSquare (16 * column) (16 * row) y
  let pu ← b.u.putSquare (8 * column) (8 * row) u
  let pv ← b.v.putSquare (8 * column) (8 * row) v
  pure { b with y := py, u := pu, v := pv }

/-! ### Key frames -/

/-- The body of the loop of `estimate_size<KeyFrame>` (src/encoder/size_estimation.cc:64-86). -/
def sampleKeyStep (e : EstimateWork) (q : Quantizer) (o : Raster) (w : Nat) (s : Coded) (k : Nat) : Option Coded := do
  let o ← originalAt o (mapped (k % w) (k / w)) (k % w) (k / w)
  keyStep none e.trials q e.keyModes o w s k

/-- The frame of `estimate_size<KeyFrame>` (src/encoder/size_estimation.cc:46-92) for pictures of `width` by `height` pixels. -/
def sampleKey (e : EstimateWork) (h : KeyFrameHeader) (qi : Nat) (o : Raster) (width height : Nat) : Option (Frame KeyFrameHeader) := do
  let q ← quantizer (uniformIndices qi)
  let w := macroblockDimension (width / sampleFactor)
  let coded ← (List.range (w * macroblockDimension (height / sampleFactor))).foldlM (sampleKeyStep e q o w) { raster := e.scratch, modes := [], residues := [] }
  let skip ← optimizeSkip coded.residues
  let header := { h with quantIndices := uniformIndices qi, refreshEntropyProbs := true, probSkipFalse := some skip }
  pure { show' := true, width := width / sampleFactor, height := height / sampleFactor, header, modes := coded.modes, residues := coded.residues }

/-- `estimate_size<KeyFrame>` (src/encoder/size_estimation.cc:35-96): the state of the decoder is replaced and put back. -/
def Session.estimateKey (e : EstimateWork) (s : Session) (a : Samples) (o : Raster) (qi : Nat) : Option (Session × Samples × Nat) := do
  let copy := s.encoder.state
  let s := { s with encoder := { s.encoder with state := { width := copy.width, height := copy.height } } }
  let f ← sampleKey e a.keyHeader qi o copy.width copy.height
  let bytes ← keyKind.serialize s.encoder.state.tables f
  let s := { s with encoder := { s.encoder with state := copy } }
  pure (s, { a with keyHeader := f.header }, bytes.length * sampleFactor * sampleFactor)

/-! ### Inter frames -/

/-- An inter-coded macroblock (src/encoder/encode_inter.cc:328,346-349,361-368,375-507, src/encoder/size_estimation.cc:138-153): see `codeInter`; the prediction
comes from `place` in the reference and goes to the place of the macroblock in the frame. -/
def sampleInter (q : Quantizer) (rows : List (List UInt8)) (reference : Raster) (c : MBContext) (place : Nat × Nat) (mode : Nat) (mv : MotionVector) (mb : Nat)
    (o s : Raster) : Option (MBModes × Residue) := do
  let prediction ← searchPredict rows mv place.1 place.2
  let py ← s.y.putSquare (16 * c.column) (16 * c.row) prediction
  let y ← codeWhole none mb q o.y py c.column c.row
  let mvs : Fin 16 → MotionVector := fun _ => mv
  let fu ← interSquare 8 reference.u s.u.width (chromaMvs mvs 0) place.1 place.2
  let pu ← s.u.putSquare (8 * c.column) (8 * c.row) fu
  let fv ← interSquare 8 reference.v s.v.width (chromaMvs mvs 0) place.1 place.2
  let pv ← s.v.putSquare (8 * c.column) (8 * c.row) fv
  let u ← codeChroma none mb 16 q o.u pu c.column c.row
  let v ← codeChroma none mb 20 q o.v pv c.column c.row
  let r := assembleResidue y.1 y.2 u v
  pure ({ skip := some (!r.nonzero), isInter := true, sel1 := some false, yMode := mode, mvs, uMvs := chromaMvs mvs }, r)

/-- The body of the loop of `estimate_size<InterFrame>` (src/encoder/size_estimation.cc:127-161).  The vectors of the neighbours are those in the frame that is
made, and the vectors are kept within the borders of that frame; the macroblock is reconstructed at its place in that frame. -/
def sampleInterStep (e : EstimateWork) (q : Quantizer) (rows : List (List UInt8)) (references : References) (o : Raster) (w h : Nat) (s : Coded) (k : Nat) :
    Option Coded := do
  let place := mapped (k % w) (k / w)
  let o ← originalAt o place (k % w) (k / w)
  match e.interModes k with
  | .intra choice => do
    let (m, r) ← codeIntra none k q choice o (e.trials.early k s.raster) (k % w) (k / w)
    let raster ← reconstructIntra q m r (k % w) (k / w) (e.trials.late k s.raster)
    pure { raster, modes := s.modes ++ [m], residues := s.residues ++ [r] }
  | choice => do
    let (mode, mv) ← interVector rows (gridContext w h s.modes k) choice place
    let (m, r) ← sampleInter q rows references.last (gridContext w h s.modes k) place mode mv k o (e.trials.early k s.raster)
    let raster ← reconstructInter q references m r (k % w) (k / w) (e.trials.late k s.raster)
    pure { raster, modes := s.modes ++ [m], residues := s.residues ++ [r] }

/-- The frame of `estimate_size<InterFrame>` (src/encoder/size_estimation.cc:107-167). -/
def sampleInterFrame (e : EstimateWork) (encoder : Encoder) (h : InterFrameHeader) (qi : Nat) (o : Raster) : Option (Frame InterFrameHeader) := do
  let q ← quantizer (uniformIndices qi)
  let rows ← safeRaster encoder.references.last.y
  let w := macroblockDimension (encoder.state.width / sampleFactor)
  let h' := macroblockDimension (encoder.state.height / sampleFactor)
  let coded ← (List.range (w * h')).foldlM (sampleInterStep e q rows encoder.references o w h') { raster := e.scratch, modes := [], residues := [] }
  let skip ← optimizeSkip coded.residues
  let probs ← optimizeReferences (h.probInter, h.probReferencesLast, h.probReferencesGolden) (codedReferences coded.modes)
  let header := { h with quantIndices := uniformIndices qi, refreshEntropyProbs := true, refreshLast := true, probSkipFalse := some skip,
                         probInter := probs.1, probReferencesLast := probs.2.1, probReferencesGolden := probs.2.2 }
  pure { show' := true, width := encoder.state.width / sampleFactor, height := encoder.state.height / sampleFactor, header, modes := coded.modes,
         residues := coded.residues }

/-- `estimate_size<InterFrame>` (src/encoder/size_estimation.cc:98-171). -/
def Session.estimateInter (e : EstimateWork) (s : Session) (a : Samples) (o : Raster) (qi : Nat) : Option (Session × Samples × Nat) := do
  let copy := s.encoder.state
  let f ← sampleInterFrame e s.encoder a.interHeader qi o
  let bytes ← interKind.serialize s.encoder.state.tables f
  let s := { s with encoder := { s.encoder with state := copy } }
  pure (s, { a with interHeader := f.header }, bytes.length * sampleFactor * sampleFactor)

/-- `estimate_frame_size` (src/encoder/size_estimation.cc:173-181). -/
def Session.estimateSize (e : EstimateWork) (s : Session) (a : Samples) (o : Raster) (qi : Nat) : Option (Session × Samples × Nat) :=
  if !s.hasState then s.estimateKey e a o qi else s.estimateInter e a o qi

/-! ### The size asked for -/

/-- The loop of `encode_with_target_size` (src/encoder/encoder.cc:614-626) with the estimates that the encoder makes; see `targetLoop`.  `work` are the choices
for the estimate with an index. -/
def sizeLoop (work : Nat → EstimateWork) (o : Raster) (target : Nat) (lo hi : Int) (best : Nat) (s : Session) (a : Samples) : Option (Nat × Session × Samples) :=
  if _h : lo ≤ hi ∧ 0 ≤ lo then do
    let q := ((lo + hi) / 2).toNat
    let (s, a, size) ← s.estimateSize (work q) a o q
    if size ≤ target ∨ (lo = hi ∧ best = 255) then sizeLoop work o target lo ((q : Int) - 1) q s a
    else sizeLoop work o target ((q : Int) + 1) hi best s a
  else some (best, s, a)
termination_by (hi - lo + 1).toNat
decreasing_by all_goals omega

/-- `encode_with_target_size` (src/encoder/encoder.cc:592-629) with the estimates that the encoder makes. -/
def Session.encodeToSize (R : Renderer) (work : Nat → EstimateWork) (w : Work) (s : Session) (a : Samples) (o : Raster) (target : Nat) :
    Except EncodeError (Samples × Session × List UInt8 × Raster) :=
  if !s.fits o then .error .scaling
  else
    let window := searchWindow s.lastQi
    match sizeLoop work o target window.1 window.2 255 s a with
    | none => .error .undefined
    | some (q, s, a) => (s.encodeWithQuantizer R w o q).map fun x => (a, x)

/-! ### Any calls -/

/-- A call that asks for a frame; if it asks for a size, the encoder makes the estimates. -/
inductive OwnCall (Q : Type) where
  | quantizer (o : Raster) (qi : Nat) (w : Work)
  | minimum (o : Raster) (m : Q) (work : Nat → Work) (last : Work)
  | size (o : Raster) (target : Nat) (work : Nat → EstimateWork) (w : Work)

/-- The call made (src/encoder/encoder.cc:560-629). -/
def Session.ownCall {Q : Type} [LinearOrder Q] (R : Renderer) (M : Meter Q) (s : Session) (a : Samples) :
    OwnCall Q → Except EncodeError (Samples × Session × List UInt8 × Raster)
  | .quantizer o qi w => (s.encodeWithQuantizer R w o qi).map fun x => (a, x)
  | .minimum o m work last => (s.encodeWithMinimum R M work last o m).map fun x => (a, x)
  | .size o target work w => s.encodeToSize R work w a o target

/-- Calls made one after the other, up to the first that fails: the frames and the pictures. -/
def Session.ownCalls {Q : Type} [LinearOrder Q] (R : Renderer) (M : Meter Q) (s : Session) (a : Samples) :
    List (OwnCall Q) → Except EncodeError (Session × List (List UInt8 × Raster))
  | [] => .ok (s, [])
  | c :: rest => do
    let (a, s, x) ← s.ownCall R M a c
    let (s, xs) ← s.ownCalls R M a rest
    pure (s, x :: xs)

end Alfalfa
