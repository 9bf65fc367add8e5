import Verif.Model.SseRender
import Verif.Model.Encode

/-! The encoder (Model/Encode, Model/Search) built with vector instructions: what `HAVE_SSE2` selects in `subtract_dct`, `wht`, `dequantize`,
`idct_add`, `iwht`, `intra_predict`, `inter_predict` and the loop filter is put in place of the portable code, the rest is the same.  How
blocks are measured (`sad`, `variance`) is part of the choices, as in Model/Encode; for them see C85_sad and the others. -/

namespace Alfalfa

/-! ### Blocks -/

/-- See `lumaDct` (src/encoder/encode_intra.cc:55-56,192-193, src/encoder/encode_inter.cc:418-419). -/
def sseLumaDct (o p : Plane) (column row : Nat) (k : Fin 16) : Option (Fin 16 → Int) := do
  let a ← o.getSquare 4 (4 * (4 * column + k.val % 4)) (4 * (4 * row + k.val / 4))
  let b ← p.getSquare 4 (4 * (4 * column + k.val % 4)) (4 * (4 * row + k.val / 4))
  pure (sseSubtractDct a b)

/-- See `chromaDct` (src/encoder/encode_intra.cc:302-303,321-322, src/encoder/encode_inter.cc:485-486,498-499). -/
def sseChromaDct (o p : Plane) (column row : Nat) (k : Fin 4) : Option (Fin 16 → Int) := do
  let a ← o.getSquare 4 (4 * (2 * column + k.val % 2)) (4 * (2 * row + k.val / 2))
  let b ← p.getSquare 4 (4 * (2 * column + k.val % 2)) (4 * (2 * row + k.val / 2))
  pure (sseSubtractDct a b)

/-- See `codeWhole` (src/encoder/encode_intra.cc:184-221, src/encoder/encode_inter.cc:410-433). -/
def sseCodeWhole (pass : Option SecondPass) (mb : Nat) (q : Quantizer) (o p : Plane) (column row : Nat) : Option (Block × (Fin 16 → Block)) := do
  let c ← allSome (sseLumaDct o p column row)
  let y ← allSome fun k : Fin 16 => compress pass mb ⟨k.val, by omega⟩ q .yAfterY2 (Function.update (c k) 0 0)
  let y2 ← compressY2 pass mb q (sseWht fun k => c k 0)
  pure (codedBlock y2, fun k => codedBlock (y k))

/-- See `codeSub` (src/encoder/encode_intra.cc:48-71,116-137). -/
def sseCodeSub (z : Leftovers) (pass : Option SecondPass) (mb : Nat) (q : Quantizer) (modes : Fin 16 → Fin 10) (o : Plane) (column row : Nat)
    (s : Plane × (Fin 16 → Block)) (k : Fin 16) : Option (Plane × (Fin 16 → Block)) := do
  let p ← sseIntraPredict4 (z.above 0 column row k.val) (z.left 0 column row k.val) s.1 (modes k).val (4 * column + k.val % 4) (4 * row + k.val / 4)
  let c ← sseLumaDct o p column row k
  let b ← compress pass mb ⟨k.val, by omega⟩ q ((pass.map (·.staleType mb)).getD .yWithoutY2) c
  let p ← sseAddLuma (fun _ => q.sseDequantizeY b) column row p k
  pure (p, Function.update s.2 k (codedBlock b))

/-- See `codeIntraLuma` (src/encoder/encode_intra.cc:116-137,169-222). -/
def sseCodeIntraLuma (z : Leftovers) (pass : Option SecondPass) (mb : Nat) (q : Quantizer) (choice : IntraChoice) (o p : Plane) (column row : Nat) :
    Option (Block × (Fin 16 → Block)) :=
  if choice.yMode.val = B_PRED then do
    let s ← (List.finRange 16).foldlM (sseCodeSub z pass mb q choice.bModes o column row) (p, fun _ => {})
    pure ({}, s.2)
  else do
    let p ← sseIntraPredict16 (z.above 0 column row 0) (z.left 0 column row 0) (z.m2 column row) p choice.yMode.val column row
    sseCodeWhole pass mb q o p column row

/-- See `codeChroma` (src/encoder/encode_intra.cc:297-333, src/encoder/encode_inter.cc:480-504). -/
def sseCodeChroma (pass : Option SecondPass) (mb : Nat) (first : Fin 21) (q : Quantizer) (o p : Plane) (column row : Nat) : Option (Fin 4 → Block) := do
  let c ← allSome (sseChromaDct o p column row)
  let z ← allSome fun k : Fin 4 => compress pass mb ⟨first.val + k.val, by omega⟩ q .uv (c k)
  pure fun k => codedBlock (z k)

/-! ### Macroblocks -/

/-- See `codeIntra` (src/encoder/encode_intra.cc:224-243,336-355,425-431, src/encoder/encode_inter.cc:353-360,620-625). -/
def sseCodeIntra (z : Leftovers) (pass : Option SecondPass) (mb : Nat) (q : Quantizer) (choice : IntraChoice) (o s : Raster) (column row : Nat) :
    Option (MBModes × Residue) := do
  let y ← sseCodeIntraLuma z pass mb q choice o.y s.y column row
  let pu ← sseIntraPredict8 (z.above 1 column row 0) (z.left 1 column row 0) s.u choice.uvMode.val column row
  let pv ← sseIntraPredict8 (z.above 2 column row 0) (z.left 2 column row 0) s.v choice.uvMode.val column row
  let u ← sseCodeChroma pass mb 16 q o.u pu column row
  let v ← sseCodeChroma pass mb 20 q o.v pv column row
  let r := assembleResidue y.1 y.2 u v
  let m ← intraModes choice r
  pure (m, r)

/-- See `siteStep` (src/encoder/encode_inter.cc:199-218). -/
def sseSiteStep (s : Search) (base origin : MotionVector) (step : Nat) (best : Nat × MotionVector) (site : Int × Int) : Option (Nat × MotionVector) :=
  let mv := ({} : MotionVector).add (origin.add { x := toInt16 (step * site.1), y := toInt16 (step * site.2) })
  if outOfBounds mv then some best
  else do
    let prediction ← sseSafePredict 16 s.rows (clampMv (mv.add base) s.context) s.place.1 s.place.2
    pure (if s.cost mv prediction < best.1 then (s.cost mv prediction, mv) else best)

/-- See `diamondLoop` (src/encoder/encode_inter.cc:195-226). -/
def sseDiamondLoop (s : Search) (base origin : MotionVector) (firstStep step : Nat) : Option (MotionVector × Nat) :=
  if _h : step > 1 then do
    let best ← checkSites.foldlM (sseSiteStep s base origin step) (2 ^ 32 - 1, {})
    sseDiamondLoop s base best.2 (if best.2 = origin then step / 2 else firstStep) (step / 2)
  else some (origin, firstStep)
termination_by step
decreasing_by omega

/-- See `diamondSearch` (src/encoder/encode_inter.cc:172-229). -/
def sseDiamondSearch (s : Search) (base origin : MotionVector) (step : Nat) : Option (MotionVector × Nat) :=
  sseDiamondLoop s (clampMv base s.context) origin (step / 2) step

/-- See `newVectorLoop` (src/encoder/encode_inter.cc:287-298). -/
def sseNewVectorLoop (s : Search) (base mv : MotionVector) (step : Nat) : Option MotionVector :=
  if step > 1 then do
    let r ← sseDiamondSearch s base mv step
    if r.1 = mv then pure mv
    else if _h : r.2 < step then sseNewVectorLoop s base r.1 r.2
    else none
  else some mv
termination_by step
decreasing_by omega

/-- See `newVector` (src/encoder/encode_inter.cc:287-300). -/
def sseNewVector (s : Search) (base : MotionVector) : Option MotionVector := sseNewVectorLoop s base {} 512

/-- See `interVector` (src/encoder/encode_inter.cc:259-326). -/
def sseInterVector (rows : List (List UInt8)) (c : MBContext) (choice : InterChoice) (place : Nat × Nat := (c.column, c.row)) : Option (Nat × MotionVector) :=
  match choice with
  | .intra _ => none
  | .zero => some (ZEROMV, {})
  | .nearest => do
    let s ← census false c
    pure (NEARESTMV, clampMv (s.mvs 1) c)
  | .near => do
    let s ← census false c
    pure (NEARMV, clampMv (s.mvs 2) c)
  | .new cost => do
    let s ← census false c
    let d ← sseNewVector { rows, context := c, cost, place } (clampMv (s.mvs 0) c)
    pure (NEWMV, d.add (clampMv (s.mvs 0) c))

/-- See `codeInter` (src/encoder/encode_inter.cc:328,346-349,361-368,375-507,616-625). -/
def sseCodeInter (q : Quantizer) (rows : List (List UInt8)) (reference : Raster) (c : MBContext) (mode : Nat) (mv : MotionVector) (mb : Nat)
    (o s : Raster) : Option (MBModes × Residue) := do
  let prediction ← sseSafePredict 16 rows mv c.column c.row
  let py ← s.y.putSquare (16 * c.column) (16 * c.row) prediction
  let y ← sseCodeWhole none mb q o.y py c.column c.row
  let mvs : Fin 16 → MotionVector := fun _ => mv
  let pu ← sseInterPredictTo 8 s.u reference.u (chromaMvs mvs 0) c.column c.row
  let pv ← sseInterPredictTo 8 s.v reference.v (chromaMvs mvs 0) c.column c.row
  let u ← sseCodeChroma none mb 16 q o.u pu c.column c.row
  let v ← sseCodeChroma none mb 20 q o.v pv c.column c.row
  let r := assembleResidue y.1 y.2 u v
  pure ({ skip := some (!r.nonzero), isInter := true, sel1 := some false, yMode := mode, mvs, uMvs := chromaMvs mvs }, r)

/-! ### Frames -/

/-- See `keyStep` (src/encoder/encode_intra.cc:418-436). -/
def sseKeyStep (z : Leftovers) (pass : Option SecondPass) (trials : Trials) (q : Quantizer) (choices : Nat → IntraChoice) (o : Raster) (w : Nat) (s : Coded)
    (k : Nat) : Option Coded := do
  let (m, r) ← sseCodeIntra z pass k q (choices k) o (trials.early k s.raster) (k % w) (k / w)
  let raster ← sseReconstructIntra z q m r (k % w) (k / w) (trials.late k s.raster)
  pure { raster, modes := s.modes ++ [m], residues := s.residues ++ [r] }

/-- See `keyPass` (src/encoder/encode_intra.cc:418-436). -/
def sseKeyPass (z : Leftovers) (pass : Option SecondPass) (trials : Trials) (q : Quantizer) (choices : Nat → IntraChoice) (o : Raster) (width height : Nat)
    (s : Raster) : Option Coded :=
  (List.range (macroblockDimension width * macroblockDimension height)).foldlM
    (sseKeyStep z pass trials q choices o (macroblockDimension width)) { raster := s, modes := [], residues := [] }

/-- See `interStep` (src/encoder/encode_inter.cc:604-636). -/
def sseInterStep (z : Leftovers) (trials : Trials) (q : Quantizer) (choices : Nat → InterChoice) (rows : List (List UInt8)) (references : References) (o : Raster)
    (w h : Nat) (s : Coded) (k : Nat) : Option Coded :=
  match choices k with
  | .intra choice => do
    let (m, r) ← sseCodeIntra z none k q choice o (trials.early k s.raster) (k % w) (k / w)
    let raster ← sseReconstructIntra z q m r (k % w) (k / w) (trials.late k s.raster)
    pure { raster, modes := s.modes ++ [m], residues := s.residues ++ [r] }
  | choice => do
    let (mode, mv) ← sseInterVector rows (gridContext w h s.modes k) choice
    let (m, r) ← sseCodeInter q rows references.last (gridContext w h s.modes k) mode mv k o (trials.early k s.raster)
    let raster ← sseReconstructInter q references m r (k % w) (k / w) (trials.late k s.raster)
    pure { raster, modes := s.modes ++ [m], residues := s.residues ++ [r] }

/-- See `interPass` (src/encoder/encode_inter.cc:604-636). -/
def sseInterPass (z : Leftovers) (trials : Trials) (q : Quantizer) (choices : Nat → InterChoice) (references : References) (o : Raster) (width height : Nat)
    (s : Raster) : Option Coded := do
  let rows ← safeRaster references.last.y
  let w := macroblockDimension width
  let h := macroblockDimension height
  (List.range (w * h)).foldlM (sseInterStep z trials q choices rows references o w h) { raster := s, modes := [], residues := [] }

/-- See `keyPasses` (src/encoder/encode_intra.cc:409-439). -/
def sseKeyPasses (z : Leftovers) (d : KeyChoices) (q : Quantizer) (u : TokenProbUpdate) (o : Raster) (width height : Nat) (s : Raster) :
    Option (Coded × TokenProbUpdate) := do
  let one ← sseKeyPass z none d.trials q d.modes o width height s
  let u ← optimizeTables u ({} : ProbabilityTables).coeffProbs d.counts
  match d.second with
  | none => pure (one, u)
  | some e => do
    let staleType (k : Nat) : BlockType := if (d.modes k).yMode.val = B_PRED then .yWithoutY2 else .yAfterY2
    let two ← sseKeyPass z (some { costs := e.costs, contexts := e.contexts, staleType }) e.trials q e.modes o width height one.raster
    let u ← optimizeTables u ({} : ProbabilityTables).coeffProbs e.counts
    pure (two, u)

/-- See `encodeKey` (src/encoder/encode_intra.cc:388-456). -/
def sseEncodeKey (z : Leftovers) (d : KeyChoices) (h : KeyFrameHeader) (quantIndices : QuantIndices) (o : Raster) (width height : Nat) (s : Raster) :
    Option (Frame KeyFrameHeader × Raster) := do
  let q ← quantizer quantIndices
  let (coded, tokenProbUpdate) ← sseKeyPasses z d q h.tokenProbUpdate o width height s
  let skip ← optimizeSkip coded.residues
  let header := { h with quantIndices, refreshEntropyProbs := true, tokenProbUpdate, probSkipFalse := some skip,
                         modeLfAdjustments := zeroAdjustments, loopFilterLevel := d.level.val }
  let f : Frame KeyFrameHeader := { show' := true, width, height, header, modes := coded.modes, residues := coded.residues }
  let raster ← sseLoopfilterFrame z true header.filterType header.loopFilterLevel header.sharpnessLevel none (some {})
    { frame := f, segmentIds := f.modes.map fun _ => 0 } coded.raster
  pure (f, raster)

/-- See `encodeInter` (src/encoder/encode_inter.cc:577-653). -/
def sseEncodeInter (z : Leftovers) (d : InterChoices) (e : Encoder) (h : InterFrameHeader) (quantIndices : QuantIndices) (o : Raster) (s : Raster) :
    Option (Frame InterFrameHeader × Raster) := do
  let q ← quantizer quantIndices
  let coded ← sseInterPass z d.trials q d.modes e.references o e.state.width e.state.height s
  let skip ← optimizeSkip coded.residues
  let probs ← optimizeReferences (h.probInter, h.probReferencesLast, h.probReferencesGolden) (codedReferences coded.modes)
  let tokenProbUpdate ← optimizeTables h.tokenProbUpdate e.state.tables.coeffProbs d.counts
  let header := { h with quantIndices, refreshEntropyProbs := true, refreshLast := true, tokenProbUpdate, probSkipFalse := some skip,
                         probInter := probs.1, probReferencesLast := probs.2.1, probReferencesGolden := probs.2.2,
                         modeLfAdjustments := zeroAdjustments, loopFilterLevel := d.level.val }
  let f : Frame InterFrameHeader :=
    { show' := true, width := e.state.width, height := e.state.height, header, modes := coded.modes, residues := coded.residues }
  let raster ← sseLoopfilterFrame z false header.filterType header.loopFilterLevel header.sharpnessLevel e.state.segmentation (some {})
    { frame := f, segmentIds := f.modes.map fun _ => 0 } coded.raster
  pure (f, raster)

end Alfalfa
