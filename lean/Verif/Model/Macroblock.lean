import Verif.Model.ProbTables
import Verif.Model.MotionVector

/-! Macroblock headers, prediction modes and motion vectors (src/decoder/macroblock.cc:43-465, src/decoder/scorer.hh,
src/encoder/serializer.cc:183-194,247-385).

Error concealment is not modelled: every function here is the code with `error_concealment == false`. -/

namespace Alfalfa

/-- What `Macroblock` and its blocks hold after the first partition has been parsed (src/decoder/macroblock.hh:57-68,
180-195, src/decoder/block.hh:131-146).  One record serves both frame types: for a key frame the fields of
`InterFrameMacroblockHeader` and the motion vectors keep their defaults.  `bModes` and `mvs` are the prediction modes and
motion vectors of the sixteen Y blocks in raster order, `uMvs` those of the four U blocks; `yMode` is the mode kept in
the Y2 block, `uvMode` the one kept in the first U block. -/
@[ext] structure MBModes where
  segmentIdUpdate : Option Nat := none
  skip : Option Bool := none
  isInter : Bool := false
  sel1 : Option Bool := none
  sel2 : Option Bool := none
  flipped : Bool := false
  partitionId : Option Nat := none
  yMode : Nat := 0
  uvMode : Nat := 0
  bModes : Fin 16 → Nat := fun _ => 0
  mvs : Fin 16 → MotionVector := fun _ => {}
  uMvs : Fin 4 → MotionVector := fun _ => {}

/-- `Y2Block::set_if_coded` on a new block (src/decoder/block.hh:183-190). -/
def MBModes.y2Coded (m : MBModes) : Bool := !(m.yMode == B_PRED || m.yMode == SPLITMV)

/-- `TwoD<Macroblock>::Context` (src/util/2d.hh:50-65), the parts that are used. -/
structure MBContext where
  column : Nat
  row : Nat
  width : Nat
  height : Nat
  above : Option MBModes
  left : Option MBModes
  aboveLeft : Option MBModes

/-! ### Blocks inside a macroblock -/

/-- The block above Y block `i` (raster order in its macroblock): inside the macroblock, or in the bottom row of the one
above (src/util/2d.hh:61-64 on the frame's grid of Y blocks). -/
def aboveOf {T : Type} (cells : Fin 16 → T) (above : Option (Fin 16 → T)) (i : Fin 16) : Option T :=
  if h : i.val < 4 then above.map (· ⟨i.val + 12, by omega⟩) else some (cells ⟨i.val - 4, by omega⟩)

/-- The block to the left of Y block `i`. -/
def leftOf {T : Type} (cells : Fin 16 → T) (left : Option (Fin 16 → T)) (i : Fin 16) : Option T :=
  if h : i.val % 4 = 0 then left.map (· ⟨i.val + 3, by omega⟩) else some (cells ⟨i.val - 1, by omega⟩)

/-- A loop that reads one value for the first block of each group and assigns it to all blocks of the group
(src/decoder/macroblock.cc:93-107 with one block per group, src/decoder/macroblock.cc:408-427). -/
def fillGroups {T : Type} (step : (Fin 16 → T) → Fin 16 → Parser T) : List (List (Fin 16)) → (Fin 16 → T) → Parser (Fin 16 → T)
  | [], cells => pure cells
  | [] :: _, _ => failure
  | (i :: g) :: rest, cells => do
    let x ← step cells i
    fillGroups step rest (fun j => if j ∈ i :: g then x else cells j)

/-- The matching loop of the writer, over the first block of each group (src/encoder/serializer.cc:294-302,355-366). -/
def writeGroups (step : Fin 16 → Option Bits) : List (List (Fin 16)) → Option Bits
  | [] => some []
  | [] :: _ => none
  | (i :: _) :: rest => do
    let a ← step i
    let b ← writeGroups step rest
    pure (a ++ b)

/-- `Y_.forall`: every block on its own, in raster order. -/
def singleGroups : List (List (Fin 16)) := (List.finRange 16).map ([·])

/-- `mv_partitions` (src/decoder/modemv_data.cc:250-278), `{column, row}` written as `row * 4 + column`. -/
def mvPartitions : List (List (List (Fin 16))) := [
  [[0, 1, 2, 3, 4, 5, 6, 7], [8, 9, 10, 11, 12, 13, 14, 15]],
  [[0, 1, 4, 5, 8, 9, 12, 13], [2, 3, 6, 7, 10, 11, 14, 15]],
  [[0, 1, 4, 5], [2, 3, 6, 7], [8, 9, 12, 13], [10, 11, 14, 15]],
  [[0], [1], [2], [3], [4], [5], [6], [7], [8], [9], [10], [11], [12], [13], [14], [15]]]

/-- `implied_subblock_mode` (src/decoder/macroblock.hh:142-151). -/
def impliedSubblockMode (yMode : Nat) : Option Nat :=
  if yMode = DC_PRED then some B_DC_PRED
  else if yMode = V_PRED then some B_VE_PRED
  else if yMode = H_PRED then some B_HE_PRED
  else if yMode = TM_PRED then some B_TM_PRED
  else none

/-! ### What every macroblock starts with -/

/-- `Frame::calculate_mb_segment_tree_probs` (src/decoder/frame.cc:78-93); the array is not read when there is no map. -/
def segmentTreeProbs (u : Option UpdateSegmentation) : List Prob :=
  match u.bind (·.mbSegmentationMap) with
  | some m => List.ofFn fun i => UInt8.ofNat ((m i).getD 255)
  | none => [0, 0, 0]

/-- `segment_id_update_( … )` (src/decoder/macroblock.cc:55-58). -/
def parseSegmentId (u : Option UpdateSegmentation) : Parser (Option Nat) :=
  parseOptional (u.any (·.updateMbSegmentationMap)) (readTree segmentIdTree (segmentTreeProbs u))

/-- `mb_skip_coeff_( … )` (src/decoder/macroblock.cc:60-62). -/
def parseSkip (probSkipFalse : Option Nat) : Parser (Option Bool) :=
  parseOptional probSkipFalse.isSome (getBit (UInt8.ofNat (probSkipFalse.getD 0)))

/-- `encode( encoder, segment_id_update_, mb_segment_tree_probs )` (src/encoder/serializer.cc:376). -/
def writeSegmentId (u : Option UpdateSegmentation) : Option Nat → Option Bits
  | none => some []
  | some v => writeTree segmentIdTree v (segmentTreeProbs u)

/-- The skip flag and its check (src/encoder/serializer.cc:378-382). -/
def writeSkip (probSkipFalse : Option Nat) (skip : Option Bool) : Option Bits :=
  if skip.isSome && !probSkipFalse.isSome then none
  else some (encOptional (fun b => [(b, UInt8.ofNat (probSkipFalse.getD 0))]) skip)

/-! ### Key frames -/

/-- Reading the mode of one Y block (src/decoder/macroblock.cc:96-102). -/
def readKeyBMode (above left : Option (Fin 16 → Nat)) (cells : Fin 16 → Nat) (i : Fin 16) : Parser Nat := do
  let probs ← liftM (kfBModeProbs ((aboveOf cells above i).getD B_DC_PRED) ((leftOf cells left i).getD B_DC_PRED))
  readTree bModeTree probs

/-- The sub-block loop of `KeyFrameMacroblock::decode_prediction_modes` (src/decoder/macroblock.cc:93-107). -/
def readKeyBModes (above left : Option (Fin 16 → Nat)) (yMode : Nat) : Parser (Fin 16 → Nat) :=
  if yMode = B_PRED then fillGroups (readKeyBMode above left) singleGroups (fun _ => 0)
  else do
    let m ← liftM (impliedSubblockMode yMode)
    pure (fun _ => m)

/-- The `KeyFrameMacroblock` constructor (src/decoder/macroblock.cc:43-71,84-111). -/
def parseKeyMB (h : KeyFrameHeader) (c : MBContext) : Parser MBModes := do
  let segmentIdUpdate ← parseSegmentId h.updateSegmentation
  let skip ← parseSkip h.probSkipFalse
  let yMode ← readTree kfYModeTree kfYModeProbs
  let bModes ← readKeyBModes (c.above.map (·.bModes)) (c.left.map (·.bModes)) yMode
  let uvMode ← readTree uvModeTree kfUvModeProbs
  pure { segmentIdUpdate, skip, yMode, uvMode, bModes }

/-- Writing the mode of one Y block (src/encoder/serializer.cc:294-301). -/
def writeKeyBMode (above left : Option (Fin 16 → Nat)) (cells : Fin 16 → Nat) (i : Fin 16) : Option Bits := do
  let probs ← kfBModeProbs ((aboveOf cells above i).getD B_DC_PRED) ((leftOf cells left i).getD B_DC_PRED)
  writeTree bModeTree (cells i) probs

/-- The sub-block loop of `KeyFrameMacroblock::encode_prediction_modes` (src/encoder/serializer.cc:292-303). -/
def writeKeyBModes (m : MBModes) (c : MBContext) : Option Bits :=
  if m.yMode = B_PRED then
    writeGroups (writeKeyBMode (c.above.map (·.bModes)) (c.left.map (·.bModes)) m.bModes) singleGroups
  else some []

/-- `KeyFrameMacroblock::encode_prediction_modes` (src/encoder/serializer.cc:285-308). -/
def writeKeyModes (m : MBModes) (c : MBContext) : Option Bits := do
  let y ← writeTree kfYModeTree m.yMode kfYModeProbs
  let b ← writeKeyBModes m c
  let uv ← writeTree uvModeTree m.uvMode kfUvModeProbs
  pure (y ++ (b ++ uv))

/-- `KeyFrameMacroblock::serialize` (src/encoder/serializer.cc:370-385). -/
def writeKeyMB (h : KeyFrameHeader) (c : MBContext) (m : MBModes) : Option Bits := do
  let s ← writeSegmentId h.updateSegmentation m.segmentIdUpdate
  let k ← writeSkip h.probSkipFalse m.skip
  let r ← writeKeyModes m c
  pure (s ++ (k ++ r))

/-! ### The motion vector census -/

/-- `class Scorer` (src/decoder/scorer.hh:35-45).  The scores are `uint8_t`; C50 shows they stay below 6. -/
structure Scorer where
  flipped : Bool
  scores : Fin 4 → Nat := fun _ => 0
  mvs : Fin 4 → MotionVector := fun _ => {}
  splitScore : Nat := 0
  index : Nat := 0

/-- `Scorer::add( score, mv )` (src/decoder/scorer.hh:47-59); `at( index_ )` throws when out of range. -/
def Scorer.addMv (s : Scorer) (score : Nat) (mv : MotionVector) : Option Scorer :=
  if mv.empty then some { s with scores := Function.update s.scores 0 (s.scores 0 + score) }
  else if h : s.index < 4 then
    if mv ≠ s.mvs ⟨s.index, h⟩ then
      if h' : s.index + 1 < 4 then
        some { s with
          index := s.index + 1
          mvs := Function.update s.mvs ⟨s.index + 1, h'⟩ mv
          scores := Function.update s.scores ⟨s.index + 1, h'⟩ (s.scores ⟨s.index + 1, h'⟩ + score) }
      else none
    else some { s with scores := Function.update s.scores ⟨s.index, h⟩ (s.scores ⟨s.index, h⟩ + score) }
  else none

/-- `base_motion_vector` (src/decoder/macroblock.cc:126-129). -/
def MBModes.baseMv (m : MBModes) : MotionVector := m.mvs 15

/-- `Scorer::add( score, mb )` (src/decoder/macroblock.cc:143-155). -/
def Scorer.addMB (s : Scorer) (score : Nat) : Option MBModes → Option Scorer
  | none => some s
  | some mb =>
    if mb.isInter then do
      let mv := if mb.flipped ≠ s.flipped then mb.baseMv.neg else mb.baseMv
      let s ← s.addMv score mv
      pure (if mb.yMode = SPLITMV then { s with splitScore := s.splitScore + score } else s)
    else some s

/-- The first step of `Scorer::calculate` (src/decoder/macroblock.cc:159-162). -/
def Scorer.mergeThird (s : Scorer) : Option Scorer :=
  if s.scores 3 ≠ 0 then
    if h : s.index < 4 then
      if s.mvs ⟨s.index, h⟩ = s.mvs 1 then
        some { s with scores := Function.update s.scores 1 (s.scores 1 + s.scores 3) }
      else some s
    else none
  else some s

/-- `Scorer::calculate` (src/decoder/macroblock.cc:157-174). -/
def Scorer.calculate (s : Scorer) : Option Scorer := do
  let s ← s.mergeThird
  let s := if s.scores 1 < s.scores 2 then
      { s with
        scores := Function.update (Function.update s.scores 1 (s.scores 2)) 2 (s.scores 1)
        mvs := Function.update (Function.update s.mvs 1 (s.mvs 2)) 2 (s.mvs 1) }
    else s
  pure (if s.scores 0 ≤ s.scores 1 then { s with mvs := Function.update s.mvs 0 (s.mvs 1) } else s)

/-- `motion_vector_census` (src/decoder/macroblock.cc:301-312, src/encoder/serializer.cc:332-336). -/
def census (flipped : Bool) (c : MBContext) : Option Scorer := do
  let s : Scorer := { flipped }
  let s ← s.addMB 2 c.above
  let s ← s.addMB 2 c.left
  let s ← s.addMB 1 c.aboveLeft
  s.calculate

/-- `Scorer::clamp` (src/decoder/macroblock.cc:183-195).  The intermediate 32-bit arithmetic cannot overflow for 16-bit
picture dimensions and is done in unbounded integers. -/
def clampMv (v : MotionVector) (c : MBContext) : MotionVector :=
  v.clamp (max (-(c.column * 128) - 128) (-32768)) (min ((c.width - 1 - c.column : Nat) * 128 + 128) 32767)
    (max (-(c.row * 128) - 128) (-32768)) (min ((c.height - 1 - c.row : Nat) * 128 + 128) 32767)

/-- `mv_ref_probs` (src/decoder/macroblock.cc:376-384, src/encoder/serializer.cc:338-344). -/
def mvRefProbs (s : Scorer) : Option (List Prob) := do
  let p0 ← (mvCountsToProbs[s.scores 0]?).bind (·[0]?)
  let p1 ← (mvCountsToProbs[s.scores 1]?).bind (·[1]?)
  let p2 ← (mvCountsToProbs[s.scores 2]?).bind (·[2]?)
  let p3 ← (mvCountsToProbs[s.splitScore]?).bind (·[3]?)
  pure [p0, p1, p2, p3]

/-! ### Inter frames -/

/-- `submv_ref_index` (src/decoder/macroblock.cc:242-256, src/encoder/serializer.cc:258-272). -/
def submvRefIndex (left above : MotionVector) : Nat :=
  if left = above ∧ left.empty then 4
  else if left = above then 3
  else if above.empty then 2
  else if left.empty then 1
  else 0

/-- `YBlock::read_subblock_inter_prediction` (src/decoder/macroblock.cc:231-281).  The block has not been written before,
so for `ZERO4X4` its motion vector is still zero (the assertion at line 269). -/
def readSubMv (above left : Option (Fin 16 → MotionVector)) (best : MotionVector) (p : Fin 2 → Fin 19 → Prob)
    (cells : Fin 16 → Nat × MotionVector) (i : Fin 16) : Parser (Nat × MotionVector) := do
  let leftMv := (leftOf (fun j => (cells j).2) left i).getD {}
  let aboveMv := (aboveOf (fun j => (cells j).2) above i).getD {}
  let probs ← liftM (submvRefProbs2[submvRefIndex leftMv aboveMv]?)
  let mode ← readTree submvRefTree probs
  if mode = LEFT4X4 then pure (mode, leftMv)
  else if mode = ABOVE4X4 then pure (mode, aboveMv)
  else if mode = ZERO4X4 then pure (mode, {})
  else if mode = NEW4X4 then do
    let d ← readMv p
    pure (mode, d.add best)
  else failure

/-- The difference vector that follows the mode `new` (src/encoder/serializer.cc:276-282,347-353). -/
def writeNewMv (mode new : Nat) (d : MotionVector) (p : Fin 2 → Fin 19 → Prob) : Option Bits :=
  if mode = new then encMv d p else some []

/-- `YBlock::write_subblock_inter_prediction` (src/encoder/serializer.cc:247-283). -/
def writeSubMv (above left : Option (Fin 16 → MotionVector)) (best : MotionVector) (p : Fin 2 → Fin 19 → Prob)
    (cells : Fin 16 → Nat × MotionVector) (i : Fin 16) : Option Bits := do
  let leftMv := (leftOf (fun j => (cells j).2) left i).getD {}
  let aboveMv := (aboveOf (fun j => (cells j).2) above i).getD {}
  let probs ← submvRefProbs2[submvRefIndex leftMv aboveMv]?
  let a ← writeTree submvRefTree (cells i).1 probs
  let b ← writeNewMv (cells i).1 NEW4X4 ((cells i).2.sub best) p
  pure (a ++ b)

/-- `InterFrameMacroblockHeader::reference` on the selector bits (src/decoder/macroblock.cc:643-658), and the derived
`motion_vectors_flipped_` (src/decoder/macroblock.cc:463-464). -/
def flippedOf (h : InterFrameHeader) (isInter : Bool) (sel1 sel2 : Option Bool) : Bool :=
  let golden := isInter && sel1.getD false && !sel2.getD false
  let altref := isInter && sel1.getD false && sel2.getD false
  (golden && h.signBiasGolden) || (altref && h.signBiasAlternate)

/-- The switch on the luma mode of an inter-coded macroblock (src/decoder/macroblock.cc:388-433), with the copy of the base
vector to all Y blocks (lines 438-440). -/
def readInterVectors (t : ProbabilityTables) (c : MBContext) (s : Scorer) (yMode : Nat) :
    Parser (Option Nat × (Fin 16 → Nat × MotionVector)) :=
  if yMode = NEARESTMV then pure (none, fun _ => (0, clampMv (s.mvs 1) c))
  else if yMode = NEARMV then pure (none, fun _ => (0, clampMv (s.mvs 2) c))
  else if yMode = ZEROMV then pure (none, fun _ => (0, {}))
  else if yMode = NEWMV then do
    let d ← readMv t.mvProbs
    pure (none, fun _ => (0, d.add (clampMv (s.mvs 0) c)))
  else if yMode = SPLITMV then do
    let k ← readTree splitMvTree splitMvProbs
    let groups ← liftM (mvPartitions[k]?)
    let cells ← fillGroups (readSubMv (c.above.map (·.mvs)) (c.left.map (·.mvs)) (clampMv (s.mvs 0) c) t.mvProbs) groups
      (fun _ => (0, {}))
    pure (some k, cells)
  else failure

/-- Motion vectors of the U blocks (src/decoder/macroblock.cc:444-454). -/
def chromaMvs (mvs : Fin 16 → MotionVector) (i : Fin 4) : MotionVector :=
  let column := i.val % 2
  let row := i.val / 2
  let at' (c r : Nat) : MotionVector := if h : r * 4 + c < 16 then mvs ⟨r * 4 + c, h⟩ else {}
  lumaToChroma (at' (column * 2) (row * 2)) (at' (column * 2 + 1) (row * 2))
    (at' (column * 2) (row * 2 + 1)) (at' (column * 2 + 1) (row * 2 + 1))

/-- The inter-coded branch of `InterFrameMacroblock::decode_prediction_modes` (src/decoder/macroblock.cc:375-455). -/
def readInterModes (t : ProbabilityTables) (c : MBContext) (flipped : Bool) : Parser (Nat × Option Nat × (Fin 16 → Nat × MotionVector)) := do
  let s ← liftM (census flipped c)
  let probs ← liftM (mvRefProbs s)
  let yMode ← readTree mvRefTree probs
  let r ← readInterVectors t c s yMode
  pure (yMode, r)

/-- The sub-block loop for intra macroblocks of inter frames (src/decoder/macroblock.cc:360-369). -/
def readIntraBModes (yMode : Nat) : Parser (Fin 16 → Nat) :=
  if yMode = B_PRED then parseFin 16 (fun _ => readTree bModeTree invariantBModeProbs)
  else do
    let m ← liftM (impliedSubblockMode yMode)
    pure (fun _ => m)

/-- `InterFrameMacroblock::decode_prediction_modes` (src/decoder/macroblock.cc:342-456) completing the record begun by the
header. -/
def readModes (t : ProbabilityTables) (c : MBContext) (m : MBModes) : Parser MBModes :=
  if m.isInter then do
    let r ← readInterModes t c m.flipped
    pure { m with
      yMode := r.1, partitionId := r.2.1, bModes := fun i => (r.2.2 i).1, mvs := fun i => (r.2.2 i).2
      uMvs := chromaMvs fun i => (r.2.2 i).2 }
  else do
    let yMode ← readTree yModeTree (List.ofFn t.yModeProbs)
    let bModes ← readIntraBModes yMode
    let uvMode ← readTree uvModeTree (List.ofFn t.uvModeProbs)
    pure { m with yMode, bModes, uvMode }

/-- The `InterFrameMacroblock` constructor and `InterFrameMacroblockHeader( data, frame_header )`
(src/decoder/macroblock.cc:43-71,458-465). -/
def parseInterMB (h : InterFrameHeader) (t : ProbabilityTables) (c : MBContext) : Parser MBModes := do
  let segmentIdUpdate ← parseSegmentId h.updateSegmentation
  let skip ← parseSkip h.probSkipFalse
  let isInter ← getBit (UInt8.ofNat h.probInter)
  let sel1 ← parseOptional isInter (getBit (UInt8.ofNat h.probReferencesLast))
  let sel2 ← parseOptional (sel1.getD false) (getBit (UInt8.ofNat h.probReferencesGolden))
  readModes t c { segmentIdUpdate, skip, isInter, sel1, sel2, flipped := flippedOf h isInter sel1 sel2 }

/-- The part for `SPLITMV` (src/encoder/serializer.cc:354-366). -/
def writeSplit (t : ProbabilityTables) (c : MBContext) (best : MotionVector) (m : MBModes) : Option Bits :=
  if m.yMode = SPLITMV then do
    let k ← m.partitionId
    let a ← writeTree splitMvTree k splitMvProbs
    let groups ← mvPartitions[k]?
    let b ← writeGroups (writeSubMv (c.above.map (·.mvs)) (c.left.map (·.mvs)) best t.mvProbs
      (fun i => (m.bModes i, m.mvs i))) groups
    pure (a ++ b)
  else some []

/-- The inter-coded branch of `InterFrameMacroblock::encode_prediction_modes` (src/encoder/serializer.cc:330-367). -/
def writeInterModes (t : ProbabilityTables) (c : MBContext) (m : MBModes) : Option Bits := do
  let s ← census m.flipped c
  let probs ← mvRefProbs s
  let y ← writeTree mvRefTree m.yMode probs
  let v ← writeNewMv m.yMode NEWMV (m.baseMv.sub (clampMv (s.mvs 0) c)) t.mvProbs
  let w ← writeSplit t c (clampMv (s.mvs 0) c) m
  pure (y ++ (v ++ w))

/-- The sub-block loop for intra macroblocks (src/encoder/serializer.cc:318-325). -/
def writeIntraBModes (m : MBModes) : Option Bits :=
  if m.yMode = B_PRED then writeGroups (fun i => writeTree bModeTree (m.bModes i) invariantBModeProbs) singleGroups
  else some []

/-- `InterFrameMacroblock::encode_prediction_modes` (src/encoder/serializer.cc:310-368). -/
def writeModes (t : ProbabilityTables) (c : MBContext) (m : MBModes) : Option Bits :=
  if m.isInter then writeInterModes t c m
  else do
    let y ← writeTree yModeTree m.yMode (List.ofFn t.yModeProbs)
    let b ← writeIntraBModes m
    let uv ← writeTree uvModeTree m.uvMode (List.ofFn t.uvModeProbs)
    pure (y ++ (b ++ uv))

/-- `InterFrameMacroblock::serialize` (src/encoder/serializer.cc:187-194,370-385). -/
def writeInterMB (h : InterFrameHeader) (t : ProbabilityTables) (c : MBContext) (m : MBModes) : Option Bits := do
  let s ← writeSegmentId h.updateSegmentation m.segmentIdUpdate
  let k ← writeSkip h.probSkipFalse m.skip
  let r ← writeModes t c m
  pure (s ++ (k ++ ((m.isInter, UInt8.ofNat h.probInter) ::
    (encOptional (fun b => [(b, UInt8.ofNat h.probReferencesLast)]) m.sel1 ++
      (encOptional (fun b => [(b, UInt8.ofNat h.probReferencesGolden)]) m.sel2 ++ r)))))

end Alfalfa
