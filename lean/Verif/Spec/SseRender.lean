import Verif.Spec.Render
import Verif.Model.Encode

/-! When a decoder with vector instructions can be asked to give the pictures of one without. -/

namespace Alfalfa.RenderSpec

open TransformSpec

/-- A number fits in 16 bits. -/
def Short (x : Int) : Prop := -32768 ≤ x ∧ x ≤ 32767

/-- All numbers that the transforms of a macroblock go through fit in 16 bits, also the sums before they are rounded, which the portable
code keeps in 32 bits. -/
structure SumsFit (q : Quantizer) (m : MBModes) (r : Residue) : Prop extends FitsIn16 q m r where
  walshSums : ∀ column row, Short (both walshLine (scaled q.y2Dc q.y2Ac r.y2) column row + 3)
  lumaSums : ∀ k column row, Short (both line (lumaCoefficients q m r k) column row + 4)
  uSums : ∀ k column row, Short (both line (scaled q.uvDc q.uvAc (r.u k)) column row + 4)
  vSums : ∀ k column row, Short (both line (scaled q.uvDc q.uvAc (r.v k)) column row + 4)

/-- The 4x4 block at `column`, `row` moved by `mv` does not end, with the three lines below it, at the end of the plane, or it ends nine
pixels before the right side: the filter for four pixels loads sixteen. -/
def ClearOfEnd (p : Plane) (mv : MotionVector) (column row : Nat) : Prop :=
  ¬ (((row * 4 : Nat) : Int) + mv.y / 8 + 7 = p.height ∧ p.width < ((column * 4 : Nat) : Int) + mv.x / 8 + 14)

/-- This for all of the blocks of a macroblock that has a vector for each of them. -/
structure SplitClear (reference : Raster) (m : MBModes) (column row : Nat) : Prop where
  y : ∀ k : Fin 16, ClearOfEnd reference.y (m.mvs k) (4 * column + k.val % 4) (4 * row + k.val / 4)
  u : ∀ k : Fin 4, ClearOfEnd reference.u (m.uMvs k) (2 * column + k.val % 2) (2 * row + k.val / 2)
  v : ∀ k : Fin 4, ClearOfEnd reference.v (m.uMvs k) (2 * column + k.val % 2) (2 * row + k.val / 2)

variable {H : Type}

/-- The sums of all macroblocks of a frame that have coefficients fit; `quantizer` is the quantizer of each segment. -/
def FrameSumsFit (quantizer : Nat → Option Quantizer) (f : ParsedFrame H) : Prop :=
  ∀ (k : Nat) m r id q, f.frame.modes[k]? = some m → f.frame.residues[k]? = some r → f.segmentIds[k]? = some id → quantizer id = some q →
    SumsFit q m r

/-- No macroblock of a frame that has several vectors is predicted from the end of a reference. -/
def FrameClear (refs : References) (f : ParsedFrame H) : Prop :=
  ∀ (k : Nat) m, f.frame.modes[k]? = some m → m.isInter = true → m.yMode = SPLITMV →
    SplitClear (reference refs m) m (k % ((f.frame.width + 15) / 16)) (k / ((f.frame.width + 15) / 16))

/-- What a decoder in the state `d` finds in `bytes` is a frame whose sums fit and that is not predicted from the end of a reference, or is no
frame. -/
structure Moderate (d : Decoder) (bytes : List UInt8) : Prop where
  key : ∀ c st f, splitFrame bytes d.state.width d.state.height false = .ok c → c.keyFrame = true → d.state.applyKey c = (st, .ok f) →
    FrameSumsFit (macroblockQuantizer st.segmentation f.frame.header.quantIndices) f
  inter : ∀ c st f, splitFrame bytes d.state.width d.state.height false = .ok c → c.keyFrame = false → d.state.applyInter c = (st, .ok f) →
    FrameSumsFit (macroblockQuantizer st.segmentation f.frame.header.quantIndices) f ∧ FrameClear d.references f

/-- All of the frames that are given to a decoder one after the other are such. -/
def AllModerate (R : Renderer) : Decoder → List (List UInt8) → Prop
  | _, [] => True
  | d, bytes :: rest => Moderate d bytes ∧ AllModerate R (d.getFrameOutput R bytes).1 rest

end Alfalfa.RenderSpec
