import Verif.Spec.Intra
import Verif.Spec.Inter
import Verif.Spec.Transform
import Verif.Spec.LoopFilter
import Verif.Model.Quantizer
import Verif.Spec.Decoder

/-! What the picture of a frame shall be (RFC 6386, sections 12 to 15 and 18).

The picture before the loop filter is described by equations: each pixel is the prediction for it, made from pixels of the same picture
(or of a reference picture), plus the residue. -/

namespace Alfalfa.RenderSpec

/-- A block of coefficients times the steps of the quantizer. -/
def scaled (dc ac : Nat) (b : Block) (i : Fin 16) : Int := b.coeffs i * (if i = 0 then dc else ac : Nat)

/-- A macroblock has a block Y2 with the DC coefficients of the luma blocks unless these are predicted one by one. -/
def HasY2 (m : MBModes) : Prop := m.yMode ≠ B_PRED ∧ m.yMode ≠ SPLITMV

instance (m : MBModes) : Decidable (HasY2 m) := inferInstanceAs (Decidable (_ ∧ _))

/-- The coefficients of the 4x4 luma block number `k`. -/
def lumaCoefficients (q : Quantizer) (m : MBModes) (r : Residue) (k : Fin 16) (i : Fin 16) : Int :=
  if HasY2 m ∧ i = 0 then TransformSpec.walsh (scaled q.y2Dc q.y2Ac r.y2) ⟨k.val % 4, by omega⟩ ⟨k.val / 4, by omega⟩
  else scaled q.yDc q.yAc (r.y k) i

/-- The 4x4 block that the pixel `c`, `r` of a macroblock of 16 by 16 pixels is in; of one of 8 by 8 pixels. -/
def block16 (c r : Fin 16) : Fin 16 := ⟨r.val / 4 * 4 + c.val / 4, by omega⟩
def block8 (c r : Fin 8) : Fin 4 := ⟨r.val / 4 * 2 + c.val / 4, by omega⟩

/-- A coordinate inside of a 4x4 block. -/
def in4 (c : Nat) : Fin 4 := ⟨c % 4, by omega⟩

/-- The residue at a pixel of the luma plane and of a chroma plane. -/
def lumaResidue (q : Quantizer) (m : MBModes) (r : Residue) (x y : Fin 16) : Int :=
  TransformSpec.residue (lumaCoefficients q m r (block16 x y)) (in4 x) (in4 y)
def chromaResidue (q : Quantizer) (blocks : Fin 4 → Block) (x y : Fin 8) : Int :=
  TransformSpec.residue (scaled q.uvDc q.uvAc (blocks (block8 x y))) (in4 x) (in4 y)

/-- The prediction of the luma pixel `x`, `y` of the macroblock at `column`, `row` of the picture `p`. -/
def lumaPrediction (reference p : Plane) (m : MBModes) (column row : Nat) (x y : Fin 16) : Nat :=
  if m.isInter then
    let v := m.mvs (block16 x y)
    InterSpec.interpolated reference (8 * ((16 * column + x : Nat) : Int) + v.x) (8 * ((16 * row + y : Nat) : Int) + v.y)
  else if m.yMode = B_PRED then
    IntraSpec.sub (m.bModes (block16 x y)) (IntraSpec.edge4 p (4 * column + x / 4) (4 * row + y / 4)) (in4 x) (in4 y)
  else IntraSpec.whole 16 m.yMode (decide (0 < row)) (decide (0 < column)) (IntraSpec.edge p 16 column row) x y

/-- The same in a chroma plane. -/
def chromaPrediction (reference p : Plane) (m : MBModes) (column row : Nat) (x y : Fin 8) : Nat :=
  if m.isInter then
    let v := m.uMvs (block8 x y)
    InterSpec.interpolated reference (8 * ((8 * column + x : Nat) : Int) + v.x) (8 * ((8 * row + y : Nat) : Int) + v.y)
  else IntraSpec.whole 8 m.uvMode (decide (0 < row)) (decide (0 < column)) (IntraSpec.edge p 8 column row) x y

/-- The pixels of `p` in the macroblock of `n` by `n` pixels at `column`, `row` are a prediction plus a residue, limited to 0 .. 255. -/
def Sum (n : Nat) (p : Plane) (column row : Nat) (prediction : Fin n → Fin n → Nat) (residue : Fin n → Fin n → Int) : Prop :=
  ∀ x y : Fin n, p.px (n * column + x) (n * row + y) = UInt8.ofNat (IntraSpec.limited (prediction x y + residue x y))

/-- The macroblock at `column`, `row` of the picture `s` is what its modes and coefficients say.  `reference` is the picture that the
macroblock names, if any. -/
structure Reconstructed (q : Quantizer) (reference : Raster) (m : MBModes) (r : Residue) (column row : Nat) (s : Raster) : Prop where
  y : Sum 16 s.y column row (lumaPrediction reference.y s.y m column row) (lumaResidue q m r)
  u : Sum 8 s.u column row (chromaPrediction reference.u s.u m column row) (chromaResidue q r.u)
  v : Sum 8 s.v column row (chromaPrediction reference.v s.v m column row) (chromaResidue q r.v)

/-- The picture that a macroblock is predicted from. -/
def reference (refs : References) (m : MBModes) : Raster :=
  if m.sel1 = some true then (if m.sel2 = some true then refs.alternative else refs.golden) else refs.last

/-- The index of the loop-filter adjustments for the same: 0 without a reference. -/
def referenceIndex (m : MBModes) : Fin 4 :=
  if m.isInter then (if m.sel1 = some true then (if m.sel2 = some true then 3 else 2) else 1) else 0

/-- The numbers that the transforms of a macroblock go through fit in 16 bits. -/
structure FitsIn16 (q : Quantizer) (m : MBModes) (r : Residue) : Prop where
  y2 : ∀ i, -32768 ≤ scaled q.y2Dc q.y2Ac r.y2 i ∧ scaled q.y2Dc q.y2Ac r.y2 i ≤ 32767
  walsh : TransformSpec.Fits TransformSpec.walshLine (scaled q.y2Dc q.y2Ac r.y2)
  y : ∀ k i, -32768 ≤ scaled q.yDc q.yAc (r.y k) i ∧ scaled q.yDc q.yAc (r.y k) i ≤ 32767
  luma : ∀ k, TransformSpec.Fits TransformSpec.line (lumaCoefficients q m r k)
  u : ∀ k i, -32768 ≤ scaled q.uvDc q.uvAc (r.u k) i ∧ scaled q.uvDc q.uvAc (r.u k) i ≤ 32767
  v : ∀ k i, -32768 ≤ scaled q.uvDc q.uvAc (r.v k) i ∧ scaled q.uvDc q.uvAc (r.v k) i ≤ 32767
  chromaU : ∀ k, TransformSpec.Fits TransformSpec.line (scaled q.uvDc q.uvAc (r.u k))
  chromaV : ∀ k, TransformSpec.Fits TransformSpec.line (scaled q.uvDc q.uvAc (r.v k))

variable {H : Type}

/-- The picture `s` of the frame `f` before the loop filter: each macroblock is what it shall be.  `quantizer` is the quantizer of each
segment, `reference` the picture that each macroblock is predicted from. -/
def Unfiltered (quantizer : Nat → Quantizer) (reference : MBModes → Raster) (f : ParsedFrame H) (s : Raster) : Prop :=
  ∀ (k : Nat) m r id, f.frame.modes[k]? = some m → f.frame.residues[k]? = some r → f.segmentIds[k]? = some id →
    Reconstructed (quantizer id) (reference m) m r (k % ((f.frame.width + 15) / 16)) (k / ((f.frame.width + 15) / 16)) s

/-- All macroblocks of a frame fit in 16 bits. -/
def FrameFits (quantizer : Nat → Quantizer) (f : ParsedFrame H) : Prop :=
  ∀ (k : Nat) m r id, f.frame.modes[k]? = some m → f.frame.residues[k]? = some r → f.segmentIds[k]? = some id → FitsIn16 (quantizer id) m r

/-! ### The loop filter over a frame -/

/-- The level that the header and the segment give. -/
def baseLevel (s : Option Segmentation) (level : Nat) (id : Nat) : Int :=
  match s with
  | none => level
  | some s => if h : id < 4 then s.filter ⟨id, h⟩ + (if s.absolute then 0 else (level : Int)) else level

/-- The adjustment for the reference and the mode of a macroblock. -/
def adjustment (a : Option FilterAdjustments) (m : MBModes) : Int :=
  match a with
  | none => 0
  | some a => a.ref (referenceIndex m) +
      (if referenceIndex m = 0 then (if m.yMode = B_PRED then a.mode 0 else 0) else if m.yMode = ZEROMV then a.mode 1
        else if m.yMode = SPLITMV then a.mode 3 else a.mode 2)

/-- A macroblock has a coefficient that is not zero. -/
def AnyCoefficient (r : Residue) : Prop :=
  (∃ i, r.y2.coeffs i ≠ 0) ∨ (∃ k i, (r.y k).coeffs i ≠ 0) ∨ (∃ k i, (r.u k).coeffs i ≠ 0) ∨ (∃ k i, (r.v k).coeffs i ≠ 0)

instance (r : Residue) : Decidable (AnyCoefficient r) := inferInstanceAs (Decidable (_ ∨ _ ∨ _ ∨ _))

/-- The edges inside of a macroblock are filtered unless it is predicted as a whole and has no coefficients. -/
def Inside (m : MBModes) (r : Residue) : Prop := ¬ HasY2 m ∨ AnyCoefficient r

instance (m : MBModes) (r : Residue) : Decidable (Inside m r) := inferInstanceAs (Decidable (_ ∨ _))

/-- The filter of macroblock number `k` in a plane where it has `n` by `n` pixels: none at level zero. -/
def filteredAt (keyFrame : Bool) (sharpness : Nat) (level : MBModes → Nat → Nat) (f : ParsedFrame H) (n : Nat) (img : Nat → Nat → UInt8) (k : Nat) :
    Nat → Nat → UInt8 :=
  match f.frame.modes[k]?, f.frame.residues[k]?, f.segmentIds[k]? with
  | some m, some r, some id =>
    if level m id = 0 then img
    else LoopFilterSpec.block keyFrame (level m id) sharpness (decide (Inside m r)) n (k % ((f.frame.width + 15) / 16)) (k / ((f.frame.width + 15) / 16)) img
  | _, _, _ => img

/-- The filter of all macroblocks of a plane, one after another. -/
def filtered (keyFrame : Bool) (sharpness : Nat) (level : MBModes → Nat → Nat) (f : ParsedFrame H) (n : Nat) (img : Nat → Nat → UInt8) : Nat → Nat → UInt8 :=
  (List.range ((f.frame.width + 15) / 16 * ((f.frame.height + 15) / 16))).foldl (filteredAt keyFrame sharpness level f n) img

end Alfalfa.RenderSpec
