import Verif.Model.Render
import Verif.Model.SseTransform
import Verif.Model.SseInter
import Verif.Model.SseIntra
import Verif.Model.SseFilter

/-! From a parsed frame to a picture as in Verif/Model/Render.lean, on a processor with MMX, SSE2 and SSSE3: where the portable code
calls a function that there is vector code for, the vector code is called (`#ifdef HAVE_SSE2` in src/decoder/prediction.cc,
src/decoder/transform.cc, src/decoder/quantization.cc and src/decoder/loopfilter.cc). -/

namespace Alfalfa

open Sse

/-- What nobody wrote before it is read: the bytes around the edges that the intra predictors load, and two registers.  The functions
say what is there for each plane (0 is Y, 1 is U, 2 is V), macroblock and block. -/
structure Leftovers where
  above : Fin 3 → Nat → Nat → Nat → Int → UInt8
  left : Fin 3 → Nat → Nat → Nat → Int → UInt8
  m2 : Nat → Nat → Reg
  xmm5 : Nat → Nat → Reg

/-- `idct_add` (src/decoder/transform.cc:90-96) with MMX, to the block at `x`, `y`. -/
def sseIdctAddTo (c : Fin 16 → Int) (p : Plane) (x y : Nat) : Option Plane := do
  let old ← p.getSquare 4 x y
  p.putSquare x y (sseIdctAdd c old)

/-- `Y2Block::dequantize`, `YBlock::dequantize`, `UVBlock::dequantize` (src/decoder/quantization.cc:95-147) with SSE2. -/
def Quantizer.sseDequantizeY2 (q : Quantizer) : (Fin 16 → Int) → Fin 16 → Int := sseDequantize q.y2Dc q.y2Ac
def Quantizer.sseDequantizeY (q : Quantizer) : (Fin 16 → Int) → Fin 16 → Int := sseDequantize q.yDc q.yAc
def Quantizer.sseDequantizeUV (q : Quantizer) : (Fin 16 → Int) → Fin 16 → Int := sseDequantize q.uvDc q.uvAc

/-- See `addLuma`. -/
def sseAddLuma (coeffs : Fin 16 → Fin 16 → Int) (column row : Nat) (p : Plane) (k : Fin 16) : Option Plane :=
  sseIdctAddTo (coeffs k) p (4 * (4 * column + k.val % 4)) (4 * (4 * row + k.val / 4))

/-- See `walshCoeffs` (src/decoder/macroblock.cc:508-514). -/
def sseWalshCoeffs (q : Quantizer) (r : Residue) (k : Fin 16) (i : Fin 16) : Int :=
  if i = 0 then sseIwht (q.sseDequantizeY2 r.y2.coeffs) ⟨k.val % 4, by omega⟩ ⟨k.val / 4, by omega⟩ else q.sseDequantizeY (r.y k).coeffs i

/-- `apply_walsh` (src/decoder/macroblock.cc:504-521). -/
def sseApplyWalsh (q : Quantizer) (r : Residue) (column row : Nat) (p : Plane) : Option Plane := forLuma (sseAddLuma (sseWalshCoeffs q r) column row) p

/-- See `plainCoeffs` (src/decoder/macroblock.cc:543,582). -/
def ssePlainCoeffs (q : Quantizer) (r : Residue) (k : Fin 16) : Fin 16 → Int := q.sseDequantizeY (r.y k).coeffs

/-- See `addChroma` (src/decoder/macroblock.cc:532-535,583-586,595-598). -/
def sseAddChroma (q : Quantizer) (blocks : Fin 4 → Block) (column row : Nat) (p : Plane) : Option Plane :=
  forChroma (fun p k => sseIdctAddTo (q.sseDequantizeUV (blocks k).coeffs) p (4 * (2 * column + k.val % 2)) (4 * (2 * row + k.val / 2))) p

/-- See `intraBlock` (src/decoder/macroblock.cc:541-544). -/
def sseIntraBlock (z : Leftovers) (q : Quantizer) (m : MBModes) (r : Residue) (column row : Nat) (p : Plane) (k : Fin 16) : Option Plane := do
  let p ← sseIntraPredict4 (z.above 0 column row k.val) (z.left 0 column row k.val) p (m.bModes k) (4 * column + k.val % 4) (4 * row + k.val / 4)
  ifNonzero r (sseAddLuma (ssePlainCoeffs q r) column row · k) p

/-- See `intraLuma` (src/decoder/macroblock.cc:538-551). -/
def sseIntraLuma (z : Leftovers) (q : Quantizer) (m : MBModes) (r : Residue) (column row : Nat) (p : Plane) : Option Plane :=
  if m.yMode = B_PRED then forLuma (sseIntraBlock z q m r column row) p
  else do
    let p ← sseIntraPredict16 (z.above 0 column row 0) (z.left 0 column row 0) (z.m2 column row) p m.yMode column row
    ifNonzero r (sseApplyWalsh q r column row) p

/-- See `intraChroma` (src/decoder/macroblock.cc:527-536). -/
def sseIntraChroma (z : Leftovers) (plane : Fin 3) (q : Quantizer) (m : MBModes) (r : Residue) (blocks : Fin 4 → Block) (column row : Nat) (p : Plane) :
    Option Plane := do
  let p ← sseIntraPredict8 (z.above plane column row 0) (z.left plane column row 0) p m.uvMode column row
  ifNonzero r (sseAddChroma q blocks column row) p

/-- `reconstruct_intra` (src/decoder/macroblock.cc:523-551). -/
def sseReconstructIntra (z : Leftovers) (q : Quantizer) (m : MBModes) (r : Residue) (column row : Nat) (s : Raster) : Option Raster := do
  let u ← sseIntraChroma z 1 q m r r.u column row s.u
  let v ← sseIntraChroma z 2 q m r r.v column row s.v
  let y ← sseIntraLuma z q m r column row s.y
  pure { s with y, u, v }

/-- See `interPredict` (src/decoder/vp8_raster.hh:124-125). -/
def sseInterPredictTo (n : Nat) (p reference : Plane) (mv : MotionVector) (column row : Nat) : Option Plane := do
  p.subRange n (n * column) (n * row)
  let f ← sseInterSquare n reference p.width mv column row
  p.putSquare (n * column) (n * row) f

/-- See `interLuma` (src/decoder/macroblock.cc:561-567,579-582,589,593-594). -/
def sseInterLuma (q : Quantizer) (reference : Plane) (m : MBModes) (r : Residue) (column row : Nat) (p : Plane) : Option Plane :=
  if m.yMode = SPLITMV then do
    let p ← forLuma (fun p k => sseInterPredictTo 4 p reference (m.mvs k) (4 * column + k.val % 4) (4 * row + k.val / 4)) p
    ifNonzero r (forLuma (sseAddLuma (ssePlainCoeffs q r) column row)) p
  else do
    let p ← sseInterPredictTo 16 p reference (m.mvs 15) column row
    ifNonzero r (sseApplyWalsh q r column row) p

/-- See `interChroma` (src/decoder/macroblock.cc:569-577,583-586,590-591,595-598). -/
def sseInterChroma (q : Quantizer) (reference : Plane) (m : MBModes) (r : Residue) (blocks : Fin 4 → Block) (column row : Nat) (p : Plane) :
    Option Plane :=
  if m.yMode = SPLITMV then do
    let p ← forChroma (fun p k => sseInterPredictTo 4 p reference (m.uMvs k) (2 * column + k.val % 2) (2 * row + k.val / 2)) p
    ifNonzero r (sseAddChroma q blocks column row) p
  else do
    let p ← sseInterPredictTo 8 p reference (m.uMvs 0) column row
    ifNonzero r (sseAddChroma q blocks column row) p

/-- `reconstruct_inter` (src/decoder/macroblock.cc:553-601). -/
def sseReconstructInter (q : Quantizer) (references : References) (m : MBModes) (r : Residue) (column row : Nat) (s : Raster) : Option Raster := do
  let id ← m.reference
  let reference ← references.at? id
  let y ← sseInterLuma q reference.y m r column row s.y
  let u ← sseInterChroma q reference.u m r r.u column row s.u
  let v ← sseInterChroma q reference.v m r r.v column row s.v
  pure { s with y, u, v }

/-- `KeyFrame::decode` (src/decoder/frame.cc:208-225). -/
def sseDecodeKeyFrame (z : Leftovers) (segmentation : Option Segmentation) (f : ParsedFrame KeyFrameHeader) (s : Raster) : Option Raster :=
  forMacroblocks f (fun s column row m r id => do
    let q ← macroblockQuantizer segmentation f.frame.header.quantIndices id
    sseReconstructIntra z q m r column row s) s

/-- `InterFrame::decode` (src/decoder/frame.cc:227-250). -/
def sseDecodeInterFrame (z : Leftovers) (segmentation : Option Segmentation) (references : References) (f : ParsedFrame InterFrameHeader) (s : Raster) :
    Option Raster :=
  forMacroblocks f (fun s column row m r id => do
    let q ← macroblockQuantizer segmentation f.frame.header.quantIndices id
    if m.isInter then sseReconstructInter q references m r column row s else sseReconstructIntra z q m r column row s) s

/-- `Macroblock::loopfilter` (src/decoder/macroblock.cc:603-641). -/
def sseLoopfilterMacroblock (z : Leftovers) (keyFrame : Bool) (adjustments : Option FilterAdjustments) (p : FilterParameters) (m : MBModes) (r : Residue)
    (column row : Nat) (s : Raster) : Option Raster := do
  let id ← m.reference
  let skip := m.y2Coded && !r.nonzero
  let p := match adjustments with
    | some a => p.adjust a id m.yMode
    | none => p
  if p.level ≤ 0 then some s
  else if p.simple then none
  else (p.filter keyFrame).sseApply (z.xmm5 column row) skip column row s

/-- `Frame::loopfilter` (src/decoder/frame.cc:139-182). -/
def sseLoopfilterFrame {H : Type} (z : Leftovers) (keyFrame simple : Bool) (level sharpness : Nat) (segmentation : Option Segmentation)
    (adjustments : Option FilterAdjustments) (f : ParsedFrame H) (s : Raster) : Option Raster :=
  if level ≠ 0 then
    forMacroblocks f (fun s column row m r id => do
      let p ← macroblockFilterParameters segmentation simple level sharpness id
      sseLoopfilterMacroblock z keyFrame adjustments p m r column row s) s
  else some s

/-- `decode` and then `loopfilter` of a key frame (src/decoder/decoder.cc:105-111). -/
def sseRenderKey (z : Leftovers) (segmentation : Option Segmentation) (adjustments : Option FilterAdjustments) (f : ParsedFrame KeyFrameHeader)
    (s : Raster) : Option Raster := do
  let s ← sseDecodeKeyFrame z segmentation f s
  let h := f.frame.header
  sseLoopfilterFrame z true h.filterType h.loopFilterLevel h.sharpnessLevel segmentation adjustments f s

/-- The same for an inter frame. -/
def sseRenderInter (z : Leftovers) (segmentation : Option Segmentation) (adjustments : Option FilterAdjustments) (references : References)
    (f : ParsedFrame InterFrameHeader) (s : Raster) : Option Raster := do
  let s ← sseDecodeInterFrame z segmentation references f s
  let h := f.frame.header
  sseLoopfilterFrame z false h.filterType h.loopFilterLevel h.sharpnessLevel segmentation adjustments f s

/-- The calls of `decode` and `loopfilter` in `Decoder::decode_frame` (src/decoder/decoder.cc:105-111), into a new picture. -/
def sseRenderer (z : Leftovers) : Renderer where
  key segmentation adjustments f := settled f.frame.width f.frame.height
    (sseRenderKey z segmentation adjustments f (blankRaster f.frame.width f.frame.height))
  inter segmentation adjustments references f := settled f.frame.width f.frame.height
    (sseRenderInter z segmentation adjustments references f (blankRaster f.frame.width f.frame.height))

end Alfalfa
