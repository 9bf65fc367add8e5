import Verif.Model.Intra
import Verif.Model.Inter
import Verif.Model.Transform
import Verif.Model.LoopFilter

/-! From a parsed frame to a picture: reconstruction of the macroblocks (src/decoder/macroblock.cc:504-601, src/decoder/frame.cc:185-250)
and the loop filter over the frame (src/decoder/macroblock.cc:603-641, src/decoder/frame.cc:139-182). -/

namespace Alfalfa

/-! ### Residue -/

/-- A loop over the sixteen Y blocks of a macroblock, row by row, as `forall_ij` (src/util/2d.hh:385-413). -/
def forLuma (f : Plane → Fin 16 → Option Plane) (p : Plane) : Option Plane := (List.finRange 16).foldlM f p

/-- A loop over the four U or V blocks. -/
def forChroma (f : Plane → Fin 4 → Option Plane) (p : Plane) : Option Plane := (List.finRange 4).foldlM f p

/-- `idct_add( raster.Y_sub_at( k % 4, k / 4 ) )`: `Y_sub` are the 4x4 blocks `4 * column + k % 4`, `4 * row + k / 4`
(src/decoder/prediction.cc:65-91). -/
def addLuma (coeffs : Fin 16 → Fin 16 → Int) (column row : Nat) (p : Plane) (k : Fin 16) : Option Plane :=
  idctAdd (coeffs k) p (4 * (4 * column + k.val % 4)) (4 * (4 * row + k.val / 4))

/-- The coefficients of the Y blocks in `apply_walsh` (src/decoder/macroblock.cc:508-514): `iwht` overwrites the DC coefficients. -/
def walshCoeffs (q : Quantizer) (r : Residue) (k : Fin 16) (i : Fin 16) : Int :=
  if i = 0 then iwht (q.dequantizeY2 r.y2.coeffs) ⟨k.val % 4, by omega⟩ ⟨k.val / 4, by omega⟩ else q.dequantizeY (r.y k).coeffs i

/-- `apply_walsh` (src/decoder/macroblock.cc:504-521). -/
def applyWalsh (q : Quantizer) (r : Residue) (column row : Nat) (p : Plane) : Option Plane := forLuma (addLuma (walshCoeffs q r) column row) p

/-- The coefficients of a Y block with its own DC coefficient (src/decoder/macroblock.cc:543,582). -/
def plainCoeffs (q : Quantizer) (r : Residue) (k : Fin 16) : Fin 16 → Int := q.dequantizeY (r.y k).coeffs

/-- The loops that add the residue to U and V (src/decoder/macroblock.cc:532-535,583-586,595-598). -/
def addChroma (q : Quantizer) (blocks : Fin 4 → Block) (column row : Nat) (p : Plane) : Option Plane :=
  forChroma (fun p k => idctAdd (q.dequantizeUV (blocks k).coeffs) p (4 * (2 * column + k.val % 2)) (4 * (2 * row + k.val / 2))) p

/-- `if ( has_nonzero_ ) ...`. -/
def ifNonzero (r : Residue) (f : Plane → Option Plane) (p : Plane) : Option Plane := if r.nonzero then f p else some p

/-! ### Macroblocks -/

/-- One Y block of a macroblock with the mode `B_PRED` (src/decoder/macroblock.cc:541-544). -/
def intraBlock (q : Quantizer) (m : MBModes) (r : Residue) (column row : Nat) (p : Plane) (k : Fin 16) : Option Plane := do
  let p ← intraPredict4 p (m.bModes k) (4 * column + k.val % 4) (4 * row + k.val / 4)
  ifNonzero r (addLuma (plainCoeffs q r) column row · k) p

/-- The luma part of `reconstruct_intra` (src/decoder/macroblock.cc:538-551). -/
def intraLuma (q : Quantizer) (m : MBModes) (r : Residue) (column row : Nat) (p : Plane) : Option Plane :=
  if m.yMode = B_PRED then forLuma (intraBlock q m r column row) p
  else do
    let p ← intraPredict16 p m.yMode column row
    ifNonzero r (applyWalsh q r column row) p

/-- The chroma part for one plane (src/decoder/macroblock.cc:527-536). -/
def intraChroma (q : Quantizer) (m : MBModes) (r : Residue) (blocks : Fin 4 → Block) (column row : Nat) (p : Plane) : Option Plane := do
  let p ← intraPredict8 p m.uvMode column row
  ifNonzero r (addChroma q blocks column row) p

/-- `reconstruct_intra` (src/decoder/macroblock.cc:523-551).  The three planes are separate objects, so that the steps on one of them
can be put together. -/
def reconstructIntra (q : Quantizer) (m : MBModes) (r : Residue) (column row : Nat) (s : Raster) : Option Raster := do
  let u ← intraChroma q m r r.u column row s.u
  let v ← intraChroma q m r r.v column row s.v
  let y ← intraLuma q m r column row s.y
  pure { s with y, u, v }

/-- `InterFrameMacroblockHeader::reference` (src/decoder/macroblock.cc:643-658) and `KeyFrameMacroblockHeader::reference`: 0 is
`CURRENT_FRAME`, 1 `LAST_FRAME`, 2 `GOLDEN_FRAME`, 3 `ALTREF_FRAME`. -/
def MBModes.reference (m : MBModes) : Option (Fin 4) :=
  if m.isInter = false then some 0
  else match m.sel1, m.sel2 with
    | none, _ => none
    | some false, _ => some 1
    | some true, none => none
    | some true, some false => some 2
    | some true, some true => some 3

/-- `References::at` (src/decoder/decoder.hh:133-141); `none` is `LogicError`. -/
def References.at? (r : References) : Fin 4 → Option Raster
  | 0 => none
  | 1 => some r.last
  | 2 => some r.golden
  | 3 => some r.alternative

/-- The luma part of `reconstruct_inter` (src/decoder/macroblock.cc:561-567,579-582,589,593-594). -/
def interLuma (q : Quantizer) (reference : Plane) (m : MBModes) (r : Residue) (column row : Nat) (p : Plane) : Option Plane :=
  if m.yMode = SPLITMV then do
    let p ← forLuma (fun p k => interPredict 4 p reference (m.mvs k) (4 * column + k.val % 4) (4 * row + k.val / 4)) p
    ifNonzero r (forLuma (addLuma (plainCoeffs q r) column row)) p
  else do
    let p ← interPredict 16 p reference (m.mvs 15) column row
    ifNonzero r (applyWalsh q r column row) p

/-- The part for one chroma plane (src/decoder/macroblock.cc:569-577,583-586,590-591,595-598): the vectors are those of the U blocks
for both planes. -/
def interChroma (q : Quantizer) (reference : Plane) (m : MBModes) (r : Residue) (blocks : Fin 4 → Block) (column row : Nat) (p : Plane) :
    Option Plane :=
  if m.yMode = SPLITMV then do
    let p ← forChroma (fun p k => interPredict 4 p reference (m.uMvs k) (2 * column + k.val % 2) (2 * row + k.val / 2)) p
    ifNonzero r (addChroma q blocks column row) p
  else do
    let p ← interPredict 8 p reference (m.uMvs 0) column row
    ifNonzero r (addChroma q blocks column row) p

/-- `reconstruct_inter` (src/decoder/macroblock.cc:553-601). -/
def reconstructInter (q : Quantizer) (references : References) (m : MBModes) (r : Residue) (column row : Nat) (s : Raster) : Option Raster := do
  let id ← m.reference
  let reference ← references.at? id
  let y ← interLuma q reference.y m r column row s.y
  let u ← interChroma q reference.u m r r.u column row s.u
  let v ← interChroma q reference.v m r r.v column row s.v
  pure { s with y, u, v }

/-! ### Frames -/

/-- The choice between `frame_quantizer` and `segment_quantizers.at( segment_id )` (src/decoder/frame.cc:212-221,231-240).  The code
computes all of them beforehand, which never fails. -/
def macroblockQuantizer (s : Option Segmentation) (i : QuantIndices) (id : Nat) : Option Quantizer :=
  match s with
  | none => quantizer i
  | some s => if h : id < 4 then segmentQuantizer s i ⟨id, h⟩ else none

/-- The loop over all macroblocks, row by row (src/util/2d.hh:126-164); `step` gets the place of the macroblock, its modes, its
coefficients and its segment. -/
def forMacroblocks {H : Type} (f : ParsedFrame H) (step : Raster → Nat → Nat → MBModes → Residue → Nat → Option Raster) (s : Raster) : Option Raster :=
  let w := macroblockDimension f.frame.width
  (List.range (w * macroblockDimension f.frame.height)).foldlM (fun s k => do
    let m ← f.frame.modes[k]?
    let r ← f.frame.residues[k]?
    let id ← f.segmentIds[k]?
    step s (k % w) (k / w) m r id) s

/-- `KeyFrame::decode` (src/decoder/frame.cc:208-225). -/
def decodeKeyFrame (segmentation : Option Segmentation) (f : ParsedFrame KeyFrameHeader) (s : Raster) : Option Raster :=
  forMacroblocks f (fun s column row m r id => do
    let q ← macroblockQuantizer segmentation f.frame.header.quantIndices id
    reconstructIntra q m r column row s) s

/-- `InterFrame::decode` (src/decoder/frame.cc:227-250). -/
def decodeInterFrame (segmentation : Option Segmentation) (references : References) (f : ParsedFrame InterFrameHeader) (s : Raster) : Option Raster :=
  forMacroblocks f (fun s column row m r id => do
    let q ← macroblockQuantizer segmentation f.frame.header.quantIndices id
    if m.isInter then reconstructInter q references m r column row s else reconstructIntra q m r column row s) s

/-- `Macroblock::loopfilter` (src/decoder/macroblock.cc:603-641); the simple filter throws `Unsupported`
(src/decoder/loopfilter.cc:127-130). -/
def loopfilterMacroblock (keyFrame : Bool) (adjustments : Option FilterAdjustments) (p : FilterParameters) (m : MBModes) (r : Residue)
    (column row : Nat) (s : Raster) : Option Raster := do
  let id ← m.reference
  let skip := m.y2Coded && !r.nonzero
  let p := match adjustments with
    | some a => p.adjust a id m.yMode
    | none => p
  if p.level ≤ 0 then some s
  else if p.simple then none
  else (p.filter keyFrame).apply skip column row s

/-- The choice of the filter parameters (src/decoder/frame.cc:148-166,177-179). -/
def macroblockFilterParameters (s : Option Segmentation) (simple : Bool) (level sharpness : Nat) (id : Nat) : Option FilterParameters :=
  match s with
  | none => some { simple, level, sharpness }
  | some s => if h : id < 4 then some { simple, level := s.filter ⟨id, h⟩ + (if s.absolute then 0 else (level : Int)), sharpness } else none

/-- `Frame::loopfilter` (src/decoder/frame.cc:139-182). -/
def loopfilterFrame {H : Type} (keyFrame simple : Bool) (level sharpness : Nat) (segmentation : Option Segmentation)
    (adjustments : Option FilterAdjustments) (f : ParsedFrame H) (s : Raster) : Option Raster :=
  if level ≠ 0 then
    forMacroblocks f (fun s column row m r id => do
      let p ← macroblockFilterParameters segmentation simple level sharpness id
      loopfilterMacroblock keyFrame adjustments p m r column row s) s
  else some s

/-- `decode` and then `loopfilter` of a key frame, into a picture `s` from the pool, which has the right size but any content
(src/decoder/decoder.cc:105-111). -/
def renderKey (segmentation : Option Segmentation) (adjustments : Option FilterAdjustments) (f : ParsedFrame KeyFrameHeader) (s : Raster) :
    Option Raster := do
  let s ← decodeKeyFrame segmentation f s
  let h := f.frame.header
  loopfilterFrame true h.filterType h.loopFilterLevel h.sharpnessLevel segmentation adjustments f s

/-- The same for an inter frame. -/
def renderInter (segmentation : Option Segmentation) (adjustments : Option FilterAdjustments) (references : References)
    (f : ParsedFrame InterFrameHeader) (s : Raster) : Option Raster := do
  let s ← decodeInterFrame segmentation references f s
  let h := f.frame.header
  loopfilterFrame false h.filterType h.loopFilterLevel h.sharpnessLevel segmentation adjustments f s

/-- `VP8Raster( width, height )` (src/decoder/prediction.cc:94-97, src/util/raster.cc): a new picture. -/
def blankRaster (width height : Nat) : Raster :=
  let w := macroblockDimension width
  let h := macroblockDimension height
  let plane (n : Nat) : Plane := { width := w * n, height := h * n, cells := List.replicate (w * n * (h * n)) 0 }
  { displayWidth := width, displayHeight := height, y := plane 16, u := plane 8, v := plane 8 }

/-- The picture has the size of the frame. -/
def Raster.hasSize (width height : Nat) (r : Raster) : Bool :=
  r.displayWidth == width && r.displayHeight == height && r.y.width == (width + 15) / 16 * 16 && r.y.height == (height + 15) / 16 * 16 &&
    r.u.width == (width + 15) / 16 * 8 && r.u.height == (height + 15) / 16 * 8 && r.v.width == (width + 15) / 16 * 8 &&
    r.v.height == (height + 15) / 16 * 8 && r.y.cells.length == r.y.width * r.y.height && r.u.cells.length == r.u.width * r.u.height &&
    r.v.cells.length == r.v.width * r.v.height

/-- A total function for the decoder: `C63_decoder` shows that the other cases do not arise. -/
def settled (width height : Nat) (r : Option Raster) : Raster :=
  match r with
  | some r => if r.hasSize width height then r else blankRaster width height
  | none => blankRaster width height

/-- The calls of `decode` and `loopfilter` in `Decoder::decode_frame` (src/decoder/decoder.cc:105-111), into a new picture. -/
def codeRenderer : Renderer where
  key segmentation adjustments f := settled f.frame.width f.frame.height
    (renderKey segmentation adjustments f (blankRaster f.frame.width f.frame.height))
  inter segmentation adjustments references f := settled f.frame.width f.frame.height
    (renderInter segmentation adjustments references f (blankRaster f.frame.width f.frame.height))

end Alfalfa
