import Verif.Model.Parser

/-! Tree-coded symbols (src/decoder/tree.cc, src/encoder/encode_tree.cc, src/decoder/modemv_data.cc). -/

namespace Alfalfa

/-- The loop of `BoolDecoder::tree` (src/decoder/tree.cc:49-56) from node index `i`.  `nodes.at` and
`probabilities.at` throw when out of range (`none`).  The loop has fuel; running out of it is `none` as well, and
C04 shows neither happens for the codec's trees. -/
def readTreeFrom (nodes : List Int) (probs : List Prob) : Nat → Nat → Parser Nat
  | 0, _ => fun _ => none
  | fuel + 1, i => do
    let p ← liftM (probs[i >>> 1]?)
    let b ← getBit p
    let next ← liftM (nodes[i + b.toNat]?)
    if 0 < next then readTreeFrom nodes probs fuel next.toNat else pure (-next).toNat

/-- `BoolDecoder::tree` (src/decoder/tree.cc:35-57). -/
def readTree (nodes : List Int) (probs : List Prob) : Parser Nat :=
  readTreeFrom nodes probs nodes.length 0

/-- `value_to_index` (src/encoder/encode_tree.cc:41-44): the last index holding `v`; `none` for an entry that the C++
leaves uninitialised. -/
def valueToIndex (nodes : List Int) (v : Int) : Option Nat :=
  (List.range nodes.length).reverse.find? (fun i => nodes[i]? == some v)

/-- The climbing loop (src/encoder/encode_tree.cc:48-54); returns (bit, probability index) pairs, deepest first. -/
def climb (nodes : List Int) : Nat → Nat → Option (List (Bool × Nat))
  | 0, _ => none
  | fuel + 1, idx => do
    let here := (decide (idx &&& 1 = 1), idx >>> 1)
    if 1 < idx then
      let up ← valueToIndex nodes ((idx &&& 0xfe : Nat) : Int)
      let rest ← climb nodes fuel up
      pure (here :: rest)
    else pure [here]

/-- The path to a leaf, root first (src/encoder/encode_tree.cc:46-59, with `probs.at` applied afterwards). -/
def treePath (nodes : List Int) (value : Nat) : Option (List (Bool × Nat)) := do
  let idx ← valueToIndex nodes (-(value : Int))
  let bits ← climb nodes nodes.length idx
  pure bits.reverse

/-- `encode( encoder, Tree, probs )` (src/encoder/encode_tree.cc:35-60). -/
def writeTree (nodes : List Int) (value : Nat) (probs : List Prob) : Option Bits := do
  let path ← treePath nodes value
  path.mapM (fun x => do let p ← probs[x.2]?; pure (x.1, p))

/-! ### Mode enumerations (src/decoder/modemv_data.hh:37-49) -/

/-- `enum mbmode` -/
abbrev DC_PRED := 0
abbrev V_PRED := 1
abbrev H_PRED := 2
abbrev TM_PRED := 3
abbrev B_PRED := 4
abbrev NEARESTMV := 5
abbrev NEARMV := 6
abbrev ZEROMV := 7
abbrev NEWMV := 8
abbrev SPLITMV := 9

/-- `enum bmode` -/
abbrev B_DC_PRED := 0
abbrev B_TM_PRED := 1
abbrev B_VE_PRED := 2
abbrev B_HE_PRED := 3
abbrev B_LD_PRED := 4
abbrev B_RD_PRED := 5
abbrev B_VR_PRED := 6
abbrev B_VL_PRED := 7
abbrev B_HD_PRED := 8
abbrev B_HU_PRED := 9
abbrev LEFT4X4 := 10
abbrev ABOVE4X4 := 11
abbrev ZERO4X4 := 12
abbrev NEW4X4 := 13

/-! ### The trees (src/decoder/modemv_data.cc:162-229,281) -/

/-- src/decoder/modemv_data.cc:162-168 -/
def kfYModeTree : List Int := [-4, 2, 4, 6, -0, -1, -2, -3]
/-- src/decoder/modemv_data.cc:170-176 -/
def yModeTree : List Int := [-0, 2, 4, 6, -1, -2, -3, -4]
/-- src/decoder/modemv_data.cc:178-183 -/
def uvModeTree : List Int := [-0, 2, -1, 4, -2, -3]
/-- src/decoder/modemv_data.cc:185-196 -/
def bModeTree : List Int := [-0, 2, -1, 4, -2, 6, 8, 12, -3, 10, -5, -6, -4, 14, -7, 16, -8, -9]
/-- src/decoder/modemv_data.cc:198-207 -/
def smallMvTree : List Int := [2, 8, 4, 6, -0, -1, -2, -3, 10, 12, -4, -5, -6, -7]
/-- src/decoder/modemv_data.cc:209-215 -/
def mvRefTree : List Int := [-7, 2, -5, 4, -6, 6, -8, -9]
/-- src/decoder/modemv_data.cc:217-222 -/
def submvRefTree : List Int := [-10, 2, -11, 4, -12, -13]
/-- src/decoder/modemv_data.cc:224-229 -/
def splitMvTree : List Int := [-3, 2, -2, 4, -0, -1]
/-- src/decoder/modemv_data.cc:281 -/
def segmentIdTree : List Int := [2, 4, -0, -1, -2, -3]

/-! ### Fixed probabilities (src/decoder/modemv_data.cc:33-34,231-248) -/

/-- src/decoder/modemv_data.cc:33 -/
def kfYModeProbs : List Prob := [145, 156, 163, 128]
/-- src/decoder/modemv_data.cc:34 -/
def kfUvModeProbs : List Prob := [142, 114, 183]
/-- src/decoder/modemv_data.cc:231 -/
def invariantBModeProbs : List Prob := [120, 90, 79, 133, 87, 85, 80, 111, 151]
/-- src/decoder/modemv_data.cc:233-239 -/
def mvCountsToProbs : List (List Prob) :=
  [[7, 1, 1, 143], [14, 18, 14, 107], [135, 64, 57, 68], [60, 56, 128, 65], [159, 134, 128, 34], [234, 188, 128, 28]]
/-- src/decoder/modemv_data.cc:241 -/
def splitMvProbs : List Prob := [110, 111, 150]
/-- src/decoder/modemv_data.cc:243-248 -/
def submvRefProbs2 : List (List Prob) :=
  [[147, 136, 18], [106, 145, 1], [179, 121, 1], [223, 1, 34], [208, 1, 1]]

end Alfalfa
