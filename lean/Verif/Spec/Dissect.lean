import Verif.Model.Dissect
import Verif.Spec.ZeroOut

/-! What the printed description of a frame must say. -/

namespace Alfalfa
namespace DissectSpec

/-- The modes of a macroblock and their names. -/
def mbNamed : List (Nat × String) :=
  [(DC_PRED, "DC_PRED"), (V_PRED, "V_PRED"), (H_PRED, "H_PRED"), (TM_PRED, "TM_PRED"), (B_PRED, "B_PRED"), (NEARESTMV, "NEARESTMV"), (NEARMV, "NEARMV"), (ZEROMV, "ZEROMV"), (NEWMV, "NEWMV"),
    (SPLITMV, "SPLITMV")]

/-- The modes of a block and their names. -/
def bNamed : List (Nat × String) :=
  [(B_DC_PRED, "B_DC_PRED"), (B_TM_PRED, "B_TM_PRED"), (B_VE_PRED, "B_VE_PRED"), (B_HE_PRED, "B_HE_PRED"), (B_LD_PRED, "B_LD_PRED"), (B_RD_PRED, "B_RD_PRED"), (B_VR_PRED, "B_VR_PRED"),
    (B_VL_PRED, "B_VL_PRED"), (B_HD_PRED, "B_HD_PRED"), (B_HU_PRED, "B_HU_PRED"), (LEFT4X4, "LEFT4X4"), (ABOVE4X4, "ABOVE4X4"), (ZERO4X4, "ZERO4X4"), (NEW4X4, "NEW4X4")]

/-- The picture that a macroblock is predicted from, by its two selecting bits. -/
def referenceName (sel1 sel2 : Option Bool) : String := if sel1 = some false then "LAST_FRAME" else if sel2 = some false then "GOLDEN_FRAME" else "ALTREF_FRAME"

/-- The text says what the macroblock is: its mode; if it is predicted from another picture, the vector of its last block and which picture, otherwise the mode of its colours; and the modes of its blocks if they
have any of their own. -/
structure Says (t : MBText) (m : MBModes) : Prop where
  yMode : (m.yMode, t.yMode) ∈ mbNamed
  motion : t.motion = if m.isInter then some (m.mvs 15, referenceName m.sel1 m.sel2) else none
  own : m.yMode = B_PRED ∨ m.yMode = SPLITMV → ∃ l, t.blocks = some l ∧ l.length = 16 ∧ ∀ i : Fin 16, ∃ name, l[i.val]? = some name ∧ (m.bModes i, name) ∈ bNamed
  shared : ¬ (m.yMode = B_PRED ∨ m.yMode = SPLITMV) → t.blocks = none
  intra : m.isInter = false → ∃ name, t.uvMode = some name ∧ (m.uvMode, name) ∈ mbNamed
  inter : m.isInter = true → t.uvMode = none

/-- The description is that of the frame. -/
inductive Describes : DissectedFrame → ReadFrame → Prop
  | key {p l} : List.Forall₂ Says l p.frame.modes → Describes (.key p l) (.key p)
  | inter {p l} : List.Forall₂ Says l p.frame.modes → Describes (.inter p l) (.inter p)

/-- The section is that of the frame with this number and these bytes, in which a decoder reads `x`. -/
structure Of (number : Nat) (bytes : List UInt8) (x : ReadFrame) (s : DissectSection) : Prop where
  number : s.number = number
  size : s.size = bytes.length
  key : s.key = true ↔ ∃ p, x = .key p
  contents : ∃ d, s.contents = some d ∧ Describes d x

end DissectSpec
end Alfalfa
