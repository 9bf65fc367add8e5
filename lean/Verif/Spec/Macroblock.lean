import Verif.Model.Macroblock

/-! Which macroblock modes the format can carry. -/

namespace Alfalfa

/-- A motion vector component the bitstream can carry: even and at most 2046 in magnitude. -/
def CodableComponent (n : Int) : Prop := n % 2 = 0 ∧ -2046 ≤ n ∧ n ≤ 2046

/-- `v` is `base` plus a difference the bitstream can carry (in 16-bit arithmetic). -/
def CodableFrom (base v : MotionVector) : Prop :=
  ∃ dx dy, CodableComponent dx ∧ CodableComponent dy ∧ v = { x := toInt16 (dx + base.x), y := toInt16 (dy + base.y) }

/-- The segment id is given exactly when the header updates the map; the skip flag exactly when the header has a
probability for it. -/
structure MBModes.PrefixOk (u : Option UpdateSegmentation) (probSkip : Option Nat) (m : MBModes) : Prop where
  segmentPresent : m.segmentIdUpdate.isSome = true ↔ ∃ s, u = some s ∧ s.updateMbSegmentationMap = true
  segmentRange : ∀ v, m.segmentIdUpdate = some v → v < 4
  skipPresent : m.skip.isSome = probSkip.isSome

/-- Intra modes: a luma mode, a chroma mode and sub-block modes which are free when the luma mode is `B_PRED` and
otherwise follow from it. -/
structure MBModes.IntraOk (m : MBModes) : Prop where
  yMode : m.yMode = DC_PRED ∨ m.yMode = V_PRED ∨ m.yMode = H_PRED ∨ m.yMode = TM_PRED ∨ m.yMode = B_PRED
  uvMode : m.uvMode = DC_PRED ∨ m.uvMode = V_PRED ∨ m.uvMode = H_PRED ∨ m.uvMode = TM_PRED
  free : m.yMode = B_PRED → ∀ i, m.bModes i ≤ B_HU_PRED
  dc : m.yMode = DC_PRED → ∀ i, m.bModes i = B_DC_PRED
  v : m.yMode = V_PRED → ∀ i, m.bModes i = B_VE_PRED
  h : m.yMode = H_PRED → ∀ i, m.bModes i = B_HE_PRED
  tm : m.yMode = TM_PRED → ∀ i, m.bModes i = B_TM_PRED

/-- Nothing that belongs to inter prediction is set. -/
structure MBModes.NoInter (m : MBModes) : Prop where
  isInter : m.isInter = false
  sel1 : m.sel1 = none
  sel2 : m.sel2 = none
  flipped : m.flipped = false
  partitionId : m.partitionId = none
  mvs : ∀ i, m.mvs i = {}
  uMvs : ∀ i, m.uMvs i = {}

/-- A macroblock of a key frame that the format can carry. -/
structure MBModes.KeyOk (h : KeyFrameHeader) (m : MBModes) : Prop where
  pre : m.PrefixOk h.updateSegmentation h.probSkipFalse
  intra : m.IntraOk
  noInter : m.NoInter

/-- The motion vectors of a split macroblock: the blocks of a group share mode and vector; the first block of each group
takes the vector of its left or above neighbour (zero outside the picture), zero, or the base vector plus a codable
difference. -/
structure MBModes.SplitOk (c : MBContext) (best : MotionVector) (groups : List (List (Fin 16))) (m : MBModes) : Prop where
  mode : ∀ i, m.bModes i = LEFT4X4 ∨ m.bModes i = ABOVE4X4 ∨ m.bModes i = ZERO4X4 ∨ m.bModes i = NEW4X4
  shared : ∀ g ∈ groups, ∀ i ∈ g, ∀ j ∈ g, m.bModes i = m.bModes j ∧ m.mvs i = m.mvs j
  left : ∀ g ∈ groups, ∀ i, g.head? = some i → m.bModes i = LEFT4X4 →
    m.mvs i = (leftOf m.mvs (c.left.map (·.mvs)) i).getD {}
  above : ∀ g ∈ groups, ∀ i, g.head? = some i → m.bModes i = ABOVE4X4 →
    m.mvs i = (aboveOf m.mvs (c.above.map (·.mvs)) i).getD {}
  zero : ∀ g ∈ groups, ∀ i, g.head? = some i → m.bModes i = ZERO4X4 → m.mvs i = {}
  new : ∀ g ∈ groups, ∀ i, g.head? = some i → m.bModes i = NEW4X4 → CodableFrom best (m.mvs i)

/-- The modes and vectors of an inter-predicted macroblock.  `s` is the census of its neighbours. -/
structure MBModes.InterOk (h : InterFrameHeader) (c : MBContext) (s : Scorer) (m : MBModes) : Prop where
  isInter : m.isInter = true
  sel1 : m.sel1.isSome = true
  sel2 : m.sel2.isSome = true ↔ m.sel1 = some true
  flipped : m.flipped = true ↔ (m.sel1 = some true ∧ m.sel2 = some false ∧ h.signBiasGolden = true) ∨
    (m.sel1 = some true ∧ m.sel2 = some true ∧ h.signBiasAlternate = true)
  yMode : m.yMode = NEARESTMV ∨ m.yMode = NEARMV ∨ m.yMode = ZEROMV ∨ m.yMode = NEWMV ∨ m.yMode = SPLITMV
  uvMode : m.uvMode = 0
  nearest : m.yMode = NEARESTMV → ∀ i, m.mvs i = clampMv (s.mvs 1) c
  near : m.yMode = NEARMV → ∀ i, m.mvs i = clampMv (s.mvs 2) c
  zero : m.yMode = ZEROMV → ∀ i, m.mvs i = {}
  new : m.yMode = NEWMV → ∃ v, (∀ i, m.mvs i = v) ∧ CodableFrom (clampMv (s.mvs 0) c) v
  noSplit : m.yMode ≠ SPLITMV → m.partitionId = none ∧ ∀ i, m.bModes i = 0
  split : m.yMode = SPLITMV → ∃ k groups, m.partitionId = some k ∧ mvPartitions[k]? = some groups ∧
    m.SplitOk c (clampMv (s.mvs 0) c) groups
  chroma : ∀ i, m.uMvs i = chromaMvs m.mvs i

/-- A macroblock of an inter frame that the format can carry in the context `c`. -/
structure MBModes.InterFrameOk (h : InterFrameHeader) (c : MBContext) (m : MBModes) : Prop where
  pre : m.PrefixOk h.updateSegmentation h.probSkipFalse
  cases : (m.IntraOk ∧ m.NoInter) ∨ (∃ s, census m.flipped c = some s ∧ m.InterOk h c s)

end Alfalfa
