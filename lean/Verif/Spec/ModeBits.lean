import Verif.Spec.Macroblock

/-! The bits of the modes and motion vectors of a macroblock as the format gives them (RFC 6386, sections 10, 11, 16, 17
and 19.3), written down symbol by symbol: no trees, no cursors, no arrays that are updated.

What is shared with the model of the code is the type of a macroblock, the constant probability tables, 16-bit vector
arithmetic and the clamping of a vector (C50). -/

namespace Alfalfa.ModeSpec

/-- A zero bit, coded with the probability at this place of the list. -/
def o (i : Nat) : Bool × Nat := (false, i)

/-- A one bit, coded with the probability at this place of the list. -/
def l (i : Nat) : Bool × Nat := (true, i)

/-- The bits with their probabilities. -/
def coded (probs : List Prob) (code : List (Bool × Nat)) : Bits := code.map fun x => (x.1, probs.getD x.2 0)

/-! ### The code words -/

/-- Luma mode in a key frame. -/
def keyLuma (mode : Nat) : List (Bool × Nat) :=
  if mode = B_PRED then [o 0]
  else if mode = DC_PRED then [l 0, o 1, o 2]
  else if mode = V_PRED then [l 0, o 1, l 2]
  else if mode = H_PRED then [l 0, l 1, o 3]
  else [l 0, l 1, l 3]

/-- Intra luma mode in an inter frame. -/
def luma (mode : Nat) : List (Bool × Nat) :=
  if mode = DC_PRED then [o 0]
  else if mode = V_PRED then [l 0, o 1, o 2]
  else if mode = H_PRED then [l 0, o 1, l 2]
  else if mode = TM_PRED then [l 0, l 1, o 3]
  else [l 0, l 1, l 3]

/-- Chroma mode. -/
def chroma (mode : Nat) : List (Bool × Nat) :=
  if mode = DC_PRED then [o 0]
  else if mode = V_PRED then [l 0, o 1]
  else if mode = H_PRED then [l 0, l 1, o 2]
  else [l 0, l 1, l 2]

/-- Mode of a four by four block. -/
def block (mode : Nat) : List (Bool × Nat) :=
  if mode = B_DC_PRED then [o 0]
  else if mode = B_TM_PRED then [l 0, o 1]
  else if mode = B_VE_PRED then [l 0, l 1, o 2]
  else if mode = B_HE_PRED then [l 0, l 1, l 2, o 3, o 4]
  else if mode = B_RD_PRED then [l 0, l 1, l 2, o 3, l 4, o 5]
  else if mode = B_VR_PRED then [l 0, l 1, l 2, o 3, l 4, l 5]
  else if mode = B_LD_PRED then [l 0, l 1, l 2, l 3, o 6]
  else if mode = B_VL_PRED then [l 0, l 1, l 2, l 3, l 6, o 7]
  else if mode = B_HD_PRED then [l 0, l 1, l 2, l 3, l 6, l 7, o 8]
  else [l 0, l 1, l 2, l 3, l 6, l 7, l 8]

/-- How the vector of an inter macroblock is given. -/
def vectorMode (mode : Nat) : List (Bool × Nat) :=
  if mode = ZEROMV then [o 0]
  else if mode = NEARESTMV then [l 0, o 1]
  else if mode = NEARMV then [l 0, l 1, o 2]
  else if mode = NEWMV then [l 0, l 1, l 2, o 3]
  else [l 0, l 1, l 2, l 3]

/-- How the macroblock is split: 0 top and bottom, 1 left and right, 2 quarters, 3 sixteen blocks. -/
def splitting (k : Nat) : List (Bool × Nat) :=
  if k = 3 then [o 0] else if k = 2 then [l 0, o 1] else if k = 0 then [l 0, l 1, o 2] else [l 0, l 1, l 2]

/-- How the vector of a part is given. -/
def partMode (mode : Nat) : List (Bool × Nat) :=
  if mode = LEFT4X4 then [o 0]
  else if mode = ABOVE4X4 then [l 0, o 1]
  else if mode = ZERO4X4 then [l 0, l 1, o 2]
  else [l 0, l 1, l 2]

/-- Segment number: two bits, the higher first; the second has a probability for each value of the first. -/
def segment (n : Nat) : List (Bool × Nat) := [(n.testBit 1, 0), (n.testBit 0, if n.testBit 1 then 2 else 1)]

/-- Vector component of magnitude below eight: three bits, the highest first, each with a probability for each value of
the higher ones. -/
def small (n : Nat) : List (Bool × Nat) :=
  [(n.testBit 2, 0), (n.testBit 1, if n.testBit 2 then 4 else 1), (n.testBit 0, if n.testBit 2 then
    (if n.testBit 1 then 6 else 5) else (if n.testBit 1 then 3 else 2))]

/-! ### Motion vectors -/

/-- One component, of even size.  Probability 0 is for the long form, 1 for the sign, 2 to 8 for the short form and 9
onwards for the bits of the long form, which come in the order 0, 1, 2, 9, 8, …, 4, and 3 last.  Without a bit above bit 3,
bit 3 must be set and is not sent. -/
def component (p : Fin 19 → Prob) (d : Int) : Bits :=
  let a := d.natAbs / 2
  (if a < 8 then (false, p 0) :: coded [p 2, p 3, p 4, p 5, p 6, p 7, p 8] (small a)
   else [(true, p 0), (a.testBit 0, p 9), (a.testBit 1, p 10), (a.testBit 2, p 11), (a.testBit 9, p 18),
      (a.testBit 8, p 17), (a.testBit 7, p 16), (a.testBit 6, p 15), (a.testBit 5, p 14), (a.testBit 4, p 13)] ++
     (if 16 ≤ a then [(a.testBit 3, p 12)] else [])) ++
  (if d = 0 then [] else [(decide (d < 0), p 1)])

/-- The vertical component comes first. -/
def vector (p : Fin 2 → Fin 19 → Prob) (d : MotionVector) : Bits := component (p 0) d.y ++ component (p 1) d.x

/-! ### Neighbours -/

/-- The value of the block at this column and row of the macroblock, where column or row -1 is in the macroblock to the
left or above, and `outside` if there is none. -/
def blockAt {T : Type} (own : Fin 16 → T) (above left : Option (Fin 16 → T)) (outside : T) (column row : Int) : T :=
  let pick (f : Fin 16 → T) (column row : Int) : T := f (Fin.ofNat 16 (4 * row + column).toNat)
  if row = -1 then (above.map fun f => pick f column 3).getD outside
  else if column = -1 then (left.map fun f => pick f 3 row).getD outside
  else pick own column row

/-- The value above block `i`. -/
def blockAbove {T : Type} (own : Fin 16 → T) (above left : Option (Fin 16 → T)) (outside : T) (i : Fin 16) : T :=
  blockAt own above left outside (i.val % 4 : Nat) ((i.val / 4 : Nat) - 1)

/-- The value to the left of block `i`. -/
def blockLeft {T : Type} (own : Fin 16 → T) (above left : Option (Fin 16 → T)) (outside : T) (i : Fin 16) : T :=
  blockAt own above left outside ((i.val % 4 : Nat) - 1) (i.val / 4 : Nat)

/-- The vectors of the neighbouring macroblocks: how much zero weighs, and the others with their weights, the latest
first. -/
structure Found where
  zero : Nat := 0
  others : List (MotionVector × Nat) := []

/-- One more vector: zero is counted apart, and a vector equal to the one before adds to its weight. -/
def Found.add (f : Found) (v : MotionVector) (w : Nat) : Found :=
  if v = {} then { f with zero := f.zero + w }
  else match f.others with
    | (u, n) :: rest => if u = v then { f with others := (u, n + w) :: rest } else { f with others := (v, w) :: (u, n) :: rest }
    | [] => { f with others := [(v, w)] }

/-- A neighbouring macroblock counts when it is there and inter-predicted, with the vector of its last block, turned round
when its reference frame and ours have different sign bias. -/
def Found.visit (flipped : Bool) (f : Found) (w : Nat) : Option MBModes → Found
  | some m => if m.isInter then f.add (if m.flipped = flipped then m.mvs 15 else (m.mvs 15).neg) w else f
  | none => f

/-- The macroblocks above, to the left, and above to the left, with weights 2, 2 and 1. -/
def found (flipped : Bool) (c : MBContext) : Found :=
  ((Found.visit flipped {} 2 c.above).visit flipped 2 c.left).visit flipped 1 c.aboveLeft

/-- How much split neighbours weigh. -/
def splitWeight (w : Nat) : Option MBModes → Nat
  | some m => if m.isInter ∧ m.yMode = SPLITMV then w else 0
  | none => 0

/-- What the neighbours give: the nearest and the second nearest vector, the base of new vectors, and four counts. -/
structure Near where
  nearest : MotionVector
  near : MotionVector
  base : MotionVector
  zeroCount : Nat
  nearestCount : Nat
  nearCount : Nat
  splitCount : Nat

/-- The first and the second vector, in order of weight, the first one winning ties; a third one equal to the first adds to
its weight.  The base is the nearest vector unless zero weighs more. -/
def near (flipped : Bool) (c : MBContext) : Near :=
  let f := found flipped c
  let first := f.others.reverse.getD 0 ({}, 0)
  let second := f.others.reverse.getD 1 ({}, 0)
  let third := f.others.reverse.getD 2 ({}, 0)
  let a : MotionVector × Nat := (first.1, if third.1 = first.1 then first.2 + third.2 else first.2)
  let p := if a.2 < second.2 then (second, a) else (a, second)
  { nearest := p.1.1, near := p.2.1, base := if p.1.2 < f.zero then {} else p.1.1
    zeroCount := f.zero, nearestCount := p.1.2, nearCount := p.2.2
    splitCount := splitWeight 2 c.above + splitWeight 2 c.left + splitWeight 1 c.aboveLeft }

/-- The probabilities of the vector modes. -/
def nearProbs (n : Near) : List Prob :=
  [(mvCountsToProbs.getD n.zeroCount []).getD 0 0, (mvCountsToProbs.getD n.nearestCount []).getD 1 0,
   (mvCountsToProbs.getD n.nearCount []).getD 2 0, (mvCountsToProbs.getD n.splitCount []).getD 3 0]

/-- The context of the vector of a part: which of the neighbouring vectors are equal or zero. -/
def partContext (left above : MotionVector) : Nat :=
  if left = above then (if above = {} then 4 else 3) else if above = {} then 2 else if left = {} then 1 else 0

/-! ### A macroblock -/

/-- The segment number, if sent, with the map's probabilities, 255 where the header gives none. -/
def segmentBits (u : Option UpdateSegmentation) (m : MBModes) : Bits :=
  match m.segmentIdUpdate, u.bind (·.mbSegmentationMap) with
  | some n, some p => coded [UInt8.ofNat ((p 0).getD 255), UInt8.ofNat ((p 1).getD 255), UInt8.ofNat ((p 2).getD 255)] (segment n)
  | some n, none => coded [0, 0, 0] (segment n)
  | none, _ => []

/-- The skip flag, if sent. -/
def skipBits (probSkip : Option Nat) (m : MBModes) : Bits :=
  match m.skip, probSkip with
  | some b, some p => [(b, UInt8.ofNat p)]
  | _, _ => []

/-- The mode of each block of a key frame in the context of those above and to the left, `B_DC_PRED` outside. -/
def keyBlockBits (c : MBContext) (m : MBModes) (i : Fin 16) : Bits :=
  let above := blockAbove m.bModes (c.above.map (·.bModes)) (c.left.map (·.bModes)) B_DC_PRED i
  let left := blockLeft m.bModes (c.above.map (·.bModes)) (c.left.map (·.bModes)) B_DC_PRED i
  coded ((kfBModeProbs above left).getD []) (block (m.bModes i))

/-- A macroblock of a key frame. -/
def keyBits (h : KeyFrameHeader) (c : MBContext) (m : MBModes) : Bits :=
  segmentBits h.updateSegmentation m ++ skipBits h.probSkipFalse m ++ coded kfYModeProbs (keyLuma m.yMode) ++
  (if m.yMode = B_PRED then (List.finRange 16).flatMap (keyBlockBits c m) else []) ++ coded kfUvModeProbs (chroma m.uvMode)

/-- An intra macroblock of an inter frame, after the flag that says so. -/
def intraBits (t : ProbabilityTables) (m : MBModes) : Bits :=
  coded (List.ofFn t.yModeProbs) (luma m.yMode) ++
  (if m.yMode = B_PRED then (List.finRange 16).flatMap (fun i => coded invariantBModeProbs (block (m.bModes i))) else []) ++
  coded (List.ofFn t.uvModeProbs) (chroma m.uvMode)

/-- The part of a split macroblock in which block `i` is. -/
def partOf (k : Nat) (i : Fin 16) : Nat :=
  let right := i.val % 4 / 2
  let lower := i.val / 8
  if k = 0 then lower else if k = 1 then right else if k = 2 then 2 * lower + right else i.val

/-- The first block of each part, in order. -/
def firstBlocks (k : Nat) : List (Fin 16) :=
  if k = 0 then [0, 8] else if k = 1 then [0, 2] else if k = 2 then [0, 2, 8, 10] else List.finRange 16

/-- One part of a split macroblock, by its first block. -/
def partBits (t : ProbabilityTables) (c : MBContext) (base : MotionVector) (m : MBModes) (i : Fin 16) : Bits :=
  let above := blockAbove m.mvs (c.above.map (·.mvs)) (c.left.map (·.mvs)) {} i
  let left := blockLeft m.mvs (c.above.map (·.mvs)) (c.left.map (·.mvs)) {} i
  coded (submvRefProbs2.getD (partContext left above) []) (partMode (m.bModes i)) ++
  (if m.bModes i = NEW4X4 then vector t.mvProbs ((m.mvs i).sub base) else [])

/-- The vectors of an inter macroblock. -/
def vectorBits (t : ProbabilityTables) (c : MBContext) (m : MBModes) : Bits :=
  let n := near m.flipped c
  coded (nearProbs n) (vectorMode m.yMode) ++
  (if m.yMode = NEWMV then vector t.mvProbs ((m.mvs 15).sub (clampMv n.base c))
   else if m.yMode = SPLITMV then
     coded splitMvProbs (splitting (m.partitionId.getD 0)) ++
     (firstBlocks (m.partitionId.getD 0)).flatMap (partBits t c (clampMv n.base c) m)
   else [])

/-- A macroblock of an inter frame: is it inter-predicted, if so from the last frame or not, if not from the golden frame
or from the alternate one. -/
def interBits (h : InterFrameHeader) (t : ProbabilityTables) (c : MBContext) (m : MBModes) : Bits :=
  segmentBits h.updateSegmentation m ++ skipBits h.probSkipFalse m ++ [(m.isInter, UInt8.ofNat h.probInter)] ++
  (m.sel1.toList.map fun b => (b, UInt8.ofNat h.probReferencesLast)) ++
  (m.sel2.toList.map fun b => (b, UInt8.ofNat h.probReferencesGolden)) ++
  (if m.isInter then vectorBits t c m else intraBits t m)

end Alfalfa.ModeSpec
