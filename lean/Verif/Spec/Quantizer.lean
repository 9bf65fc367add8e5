import Verif.Model.Quantizer

/-! What the quantizers shall be (RFC 6386, sections 9.6 and 14.1). -/

namespace Alfalfa.QuantizerSpec

/-- An index limited to 0 .. 127. -/
def index (q : Int) : Nat := (max 0 (min 127 q)).toNat

/-- The step size of AC coefficients: it grows by 1, then by 2, 3, 4 and 5; there is one irregularity, at 120. -/
def ac (q : Int) : Nat :=
  let q := index q
  if q ≤ 54 then 4 + q
  else if q ≤ 83 then 58 + 2 * (q - 54)
  else if q ≤ 102 then 116 + 3 * (q - 83)
  else if q ≤ 116 then 173 + 4 * (q - 102)
  else if q = 119 then 245
  else if q ≤ 118 then 229 + 5 * (q - 116)
  else 249 + 5 * (q - 120)

/-- The indices at which the step size of DC coefficients stays the same, and those at which it grows by two, three or four. -/
def dcSame : List Nat := [7, 15, 19, 21, 23, 25, 28, 41, 51, 82]
def dcTwo : List Nat :=
  [96, 97, 98, 100, 101, 104, 105, 106, 107, 108, 109, 110, 111, 113, 114, 115, 116, 117, 118, 119, 120, 121, 123]
def dcThree : List Nat := [122, 124, 125, 126, 127]
def dcFour : List Nat := [112]

/-- The growth of the step size of DC coefficients at an index. -/
def dcGrowth (q : Nat) : Nat :=
  if q ∈ dcSame then 0 else if q ∈ dcTwo then 2 else if q ∈ dcThree then 3 else if q ∈ dcFour then 4 else 1

/-- The step size of DC coefficients. -/
def dc (q : Int) : Nat := 4 + ((List.range (index q)).map fun k => dcGrowth (k + 1)).sum

/-- The quantizer for the base index `q` and the differences in `i`. -/
def prescribed (q : Int) (i : QuantIndices) : Quantizer where
  yAc := ac q
  yDc := dc (q + i.yDc.getD 0)
  y2Ac := max 8 (155 * ac (q + i.y2Ac.getD 0) / 100)
  y2Dc := 2 * dc (q + i.y2Dc.getD 0)
  uvAc := ac (q + i.uvAc.getD 0)
  uvDc := min 132 (dc (q + i.uvDc.getD 0))

/-- The differences have four bits and a sign. -/
structure Differences (i : QuantIndices) : Prop where
  yDc : -15 ≤ i.yDc.getD 0 ∧ i.yDc.getD 0 ≤ 15
  y2Dc : -15 ≤ i.y2Dc.getD 0 ∧ i.y2Dc.getD 0 ≤ 15
  y2Ac : -15 ≤ i.y2Ac.getD 0 ∧ i.y2Ac.getD 0 ≤ 15
  uvDc : -15 ≤ i.uvDc.getD 0 ∧ i.uvDc.getD 0 ≤ 15
  uvAc : -15 ≤ i.uvAc.getD 0 ∧ i.uvAc.getD 0 ≤ 15

end Alfalfa.QuantizerSpec
