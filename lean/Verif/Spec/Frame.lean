import Verif.Model.Frame
import Verif.Spec.Header
import Verif.Spec.Macroblock
import Verif.Spec.Tokens

/-! Which frames the format can carry. -/

namespace Alfalfa

/-- The coefficients of a macroblock: nothing if it is marked as skipped, no Y2 block if its mode has none, every block
representable, and a flag that says whether there is anything. -/
structure Residue.Ok (m : MBModes) (r : Residue) : Prop where
  skipped : m.skip = some true → r = {}
  noY2 : m.yMode = B_PRED ∨ m.yMode = SPLITMV → r.y2 = {}
  y2 : r.y2.Representable .y2
  y : ∀ i, (r.y i).Representable (if m.yMode = B_PRED ∨ m.yMode = SPLITMV then .yWithoutY2 else .yAfterY2)
  u : ∀ i, (r.u i).Representable .uv
  v : ∀ i, (r.v i).Representable .uv
  nonzero : r.nonzero = true ↔
    r.y2.hasNonzero = true ∨ (∃ i, (r.y i).hasNonzero = true) ∨ (∃ i, (r.u i).hasNonzero = true) ∨ (∃ i, (r.v i).hasNonzero = true)

/-- A frame: a header in range, a nonempty picture of permitted size, one macroblock for each 16x16 square (the last ones
possibly cut off), each of them possible where it is. -/
structure Frame.Ok {H : Type} (headerOk : H → Prop) (mbOk : H → MBContext → MBModes → Prop) (f : Frame H) : Prop where
  header : headerOk f.header
  width : 0 < f.width ∧ f.width < 2 ^ 14
  height : 0 < f.height ∧ f.height < 2 ^ 14
  count : f.modes.length = (f.width + 15) / 16 * ((f.height + 15) / 16)
  countResidues : f.residues.length = f.modes.length
  modes : ∀ k m, f.modes[k]? = some m → mbOk f.header (gridContext ((f.width + 15) / 16) ((f.height + 15) / 16) f.modes k) m
  residues : ∀ (k : Nat) m (r : Residue), f.modes[k]? = some m → f.residues[k]? = some r → r.Ok m

/-- A key frame the format can carry. -/
abbrev KeyFrameOk (f : Frame KeyFrameHeader) : Prop := f.Ok KeyFrameHeader.InRange (fun h _ m => m.KeyOk h)

/-- An inter frame the format can carry. -/
abbrev InterFrameOk (f : Frame InterFrameHeader) : Prop := f.Ok InterFrameHeader.InRange (fun h c m => m.InterFrameOk h c)

end Alfalfa
