import Verif.Model.Encode
import Verif.Spec.Pixels

/-! How much a picture may lose when it is coded: a bound for each pixel that depends on the steps of the quantizer only. -/

namespace Alfalfa.FidelitySpec

/-- The difference of two pixels. -/
def apart (a b : UInt8) : Nat := (a.toNat - b.toNat) + (b.toNat - a.toNat)

/-- Blocks that are coded with the steps `dc` and `ac`: one eighth of the first, fourteen eighths of the second, and a little for rounding. -/
def plain (dc ac : Nat) : Nat := (dc + 14 * ac + 9) / 8

/-- Luma blocks whose DC coefficients are coded together in a block of their own. -/
def whole (q : Quantizer) : Nat := ((q.y2Dc + 15 * q.y2Ac) / 8 + 14 * q.yAc + 10) / 8

/-- Luma and chroma in general. -/
def luma (q : Quantizer) : Nat := max (plain q.yDc q.yAc) (whole q)
def chroma (q : Quantizer) : Nat := plain q.uvDc q.uvAc

/-- All pixels of `s`, with the margins up to whole macroblocks, are within `l` (luma) and `c` (chroma) of those of `o`. -/
structure NearBy (l c : Nat) (o s : Raster) : Prop where
  y : ∀ u v, u < o.y.width → v < o.y.height → apart (s.y.px u v) (o.y.px u v) ≤ l
  u : ∀ u v, u < o.u.width → v < o.u.height → apart (s.u.px u v) (o.u.px u v) ≤ c
  v : ∀ u v, u < o.v.width → v < o.v.height → apart (s.v.px u v) (o.v.px u v) ≤ c

/-- As near as the steps of the quantizer promise. -/
def Resembles (q : Quantizer) (o s : Raster) : Prop := NearBy (luma q) (chroma q) o s

/-- A quantizer with steps that are twice as wide: a second pass may leave out one step of every coefficient. -/
def twice (q : Quantizer) : Quantizer := ⟨2 * q.yAc, 2 * q.yDc, 2 * q.y2Ac, 2 * q.y2Dc, 2 * q.uvAc, 2 * q.uvDc⟩

/-- The steps that bound the loss of a key frame that is coded in one pass or two. -/
def effective (twoPasses : Bool) (q : Quantizer) : Quantizer := if twoPasses then twice q else q

/-- No macroblock is predicted in sixteen blocks by the second pass only.  For one that is, the DC coefficients are sent unquantized (C70). -/
def _root_.Alfalfa.KeyChoices.TypesKept (d : KeyChoices) : Prop :=
  ∀ e, d.second = some e → ∀ k, (e.modes k).yMode.val = B_PRED → (d.modes k).yMode.val = B_PRED

/-! ### The loop filter -/

/-- The greatest adjustment with which the filter starts at an edge between macroblocks at this level: steps that need more are left alone. -/
def swing (level : Nat) : Nat := min 128 (2 * (2 * (level + 2) + max 1 level) + 1)

/-- How far the filter may move a pixel in all: 27/128 of that, once across vertical edges and once across horizontal ones. -/
def reach (level : Nat) : Nat := if level = 0 then 0 else 2 * ((27 * swing level + 64) / 128)

end Alfalfa.FidelitySpec
