import Verif.Model.Tokens

/-! Which coefficient blocks the bitstream can carry. -/

namespace Alfalfa

/-- Coefficients of magnitude at most 2114, no DC coefficient in a luma block whose DC is in the Y2 block, and a
`has_nonzero` flag that says whether there is a nonzero coefficient. -/
structure Block.Representable (type : BlockType) (b : Block) : Prop where
  magnitude : ∀ i, -2114 ≤ b.coeffs i ∧ b.coeffs i ≤ 2114
  dc : type = .yAfterY2 → b.coeffs 0 = 0
  flag : b.hasNonzero = true ↔ ∃ i, b.coeffs i ≠ 0

end Alfalfa
