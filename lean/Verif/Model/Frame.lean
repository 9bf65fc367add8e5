import Verif.Model.Macroblock
import Verif.Model.Container

/-! Frames: the grid of macroblocks, the first partition, the coefficient partitions and the serialized frame
(src/decoder/frame.{hh,cc}, src/decoder/macroblock.cc:475-502, src/encoder/serializer.cc:387-443,800-829).

A `TwoD` grid is the list of its cells in raster order, the order in which its constructor and `forall` go through it
(src/util/2d.hh:74-90,126-164). -/

namespace Alfalfa

/-! ### Grids -/

/-- `context.above` (src/util/2d.hh:63): the cell one row up; `row - 1` wraps to a large number in row 0. -/
def gridAbove {α : Type} (w : Nat) (cells : List α) (k : Nat) : Option α := if k / w = 0 then none else cells[k - w]?

/-- `context.left` (src/util/2d.hh:61). -/
def gridLeft {α : Type} (w : Nat) (cells : List α) (k : Nat) : Option α := if k % w = 0 then none else cells[k - 1]?

/-- `context.above_left` (src/util/2d.hh:62). -/
def gridAboveLeft {α : Type} (w : Nat) (cells : List α) (k : Nat) : Option α :=
  if k / w = 0 ∨ k % w = 0 then none else cells[k - w - 1]?

/-- The `Context` of cell `k` (src/util/2d.hh:50-72). -/
def gridContext (w h : Nat) (modes : List MBModes) (k : Nat) : MBContext :=
  { column := k % w, row := k / w, width := w, height := h
    above := gridAbove w modes k, left := gridLeft w modes k, aboveLeft := gridAboveLeft w modes k }

/-- `VP8Raster::macroblock_dimension` (src/decoder/vp8_raster.hh:295). -/
def macroblockDimension (n : Nat) : Nat := (n + 15) / 16

/-! ### Macroblock headers -/

/-- The construction of the grid of macroblocks (src/util/2d.hh:74-90 from src/decoder/frame.cc:103-109): `n` more cells
after `cells`. -/
def parseMBs (p : MBContext → Parser MBModes) (w h : Nat) : Nat → List MBModes → Parser (List MBModes)
  | 0, cells => pure cells
  | n + 1, cells => do
    let m ← p (gridContext w h cells cells.length)
    parseMBs p w h n (cells ++ [m])

/-- The loop over the macroblocks of `Frame::serialize_first_partition` (src/encoder/serializer.cc:397-402). -/
def writeMBs (f : MBContext → MBModes → Option Bits) (w h : Nat) (all : List MBModes) : Nat → List MBModes → Option Bits
  | _, [] => some []
  | k, m :: rest => do
    let a ← f (gridContext w h all k) m
    let b ← writeMBs f w h all (k + 1) rest
    pure (a ++ b)

/-! ### Coefficients of a macroblock -/

/-- The coefficient blocks of a macroblock and its `has_nonzero_` (src/decoder/macroblock.hh:57-68); the sixteen Y blocks
and the four U and V blocks in raster order. -/
@[ext] structure Residue where
  y2 : Block := {}
  y : Fin 16 → Block := fun _ => {}
  u : Fin 4 → Block := fun _ => {}
  v : Fin 4 → Block := fun _ => {}
  nonzero : Bool := false

/-- The type of the Y blocks: without the DC coefficient when that is in the Y2 block (src/decoder/macroblock.cc:101,363,416,428). -/
def MBModes.yType (m : MBModes) : BlockType := if m.y2Coded then .yAfterY2 else .yWithoutY2

/-- The four U (or V) blocks in raster order (src/decoder/macroblock.cc:495-500). -/
def parseChroma (probs : CoeffProbs) (above left : Option (Fin 4 → Block)) : Parser (Fin 4 → Block) := do
  let b0 ← parseTokens probs .uv (above.map fun b => (b 2).hasNonzero) (left.map fun b => (b 1).hasNonzero) {}
  let b1 ← parseTokens probs .uv (above.map fun b => (b 3).hasNonzero) (some b0.hasNonzero) {}
  let b2 ← parseTokens probs .uv (some b0.hasNonzero) (left.map fun b => (b 3).hasNonzero) {}
  let b3 ← parseTokens probs .uv (some b1.hasNonzero) (some b2.hasNonzero) {}
  pure ![b0, b1, b2, b3]

/-- One Y block of the loop below. -/
def parseLuma (probs : CoeffProbs) (type : BlockType) (above left : Option (Fin 16 → Block)) (cells : Fin 16 → Block) (i : Fin 16) :
    Parser Block :=
  parseTokens probs type ((aboveOf cells above i).map (·.hasNonzero)) ((leftOf cells left i).map (·.hasNonzero)) {}

/-- The Y2 block, if present (src/decoder/macroblock.cc:484-487). -/
def parseY2 (probs : CoeffProbs) (coded : Bool) (above left : Option Bool) : Parser Block :=
  if coded then parseTokens probs .y2 above left {} else pure {}

/-- `Macroblock::parse_tokens` (src/decoder/macroblock.cc:475-502).  `y2Above`, `y2Left` are the flags of the blocks to
which the Y2 block was linked. -/
def parseResidue (probs : CoeffProbs) (m : MBModes) (y2Above y2Left : Option Bool) (above left : Option Residue) : Parser Residue :=
  if m.skip.getD false then pure {}
  else do
    let y2 ← parseY2 probs m.y2Coded y2Above y2Left
    let y ← fillGroups (parseLuma probs m.yType (above.map (·.y)) (left.map (·.y))) singleGroups (fun _ => {})
    let u ← parseChroma probs (above.map (·.u)) (left.map (·.u))
    let v ← parseChroma probs (above.map (·.v)) (left.map (·.v))
    pure { y2, y, u, v, nonzero := y2.hasNonzero || (List.ofFn y).any (·.hasNonzero) || (List.ofFn u).any (·.hasNonzero) ||
      (List.ofFn v).any (·.hasNonzero) }

/-- The four U (or V) blocks (src/encoder/serializer.cc:441-442). -/
def writeChroma (probs : CoeffProbs) (above left : Option (Fin 4 → Block)) (b : Fin 4 → Block) : Option Bits := do
  let a0 ← serializeTokens probs .uv (above.map fun b => (b 2).hasNonzero) (left.map fun b => (b 1).hasNonzero) (b 0)
  let a1 ← serializeTokens probs .uv (above.map fun b => (b 3).hasNonzero) (some (b 0).hasNonzero) (b 1)
  let a2 ← serializeTokens probs .uv (some (b 0).hasNonzero) (left.map fun b => (b 3).hasNonzero) (b 2)
  let a3 ← serializeTokens probs .uv (some (b 1).hasNonzero) (some (b 2).hasNonzero) (b 3)
  pure (a0 ++ (a1 ++ (a2 ++ a3)))

/-- One Y block. -/
def writeLuma (probs : CoeffProbs) (type : BlockType) (above left : Option (Fin 16 → Block)) (cells : Fin 16 → Block) (i : Fin 16) :
    Option Bits :=
  serializeTokens probs type ((aboveOf cells above i).map (·.hasNonzero)) ((leftOf cells left i).map (·.hasNonzero)) (cells i)

/-- The Y2 block (src/encoder/serializer.cc:436-438). -/
def writeY2 (probs : CoeffProbs) (coded : Bool) (above left : Option Bool) (b : Block) : Option Bits :=
  if coded then serializeTokens probs .y2 above left b else some []

/-- `Macroblock::serialize_tokens` (src/encoder/serializer.cc:429-443). -/
def writeResidue (probs : CoeffProbs) (m : MBModes) (y2Above y2Left : Option Bool) (above left : Option Residue) (r : Residue) :
    Option Bits :=
  if m.skip.getD false then some []
  else do
    let a ← writeY2 probs m.y2Coded y2Above y2Left r.y2
    let b ← writeGroups (writeLuma probs m.yType (above.map (·.y)) (left.map (·.y)) r.y) singleGroups
    let c ← writeChroma probs (above.map (·.u)) (left.map (·.u)) r.u
    let d ← writeChroma probs (above.map (·.v)) (left.map (·.v)) r.v
    pure (a ++ (b ++ (c ++ d)))

/-! ### Y2 links -/

/-- `Frame::relink_y2_blocks` (src/decoder/frame.cc:252-269): for each macroblock from index `k` on, the indices of the
macroblocks whose Y2 blocks become "above" and "left". -/
def relinkY2 (w : Nat) : Nat → List MBModes → (Nat → Option Nat) → (Nat → Option Nat) → List (Option Nat × Option Nat)
  | _, [], _, _ => []
  | k, m :: rest, aboveCoded, leftCoded =>
    (aboveCoded (k % w), leftCoded (k / w)) ::
      relinkY2 w (k + 1) rest (if m.y2Coded then Function.update aboveCoded (k % w) (some k) else aboveCoded)
        (if m.y2Coded then Function.update leftCoded (k / w) (some k) else leftCoded)

/-- The links of a frame. -/
def y2Links (w : Nat) (modes : List MBModes) : List (Option Nat × Option Nat) := relinkY2 w 0 modes (fun _ => none) (fun _ => none)

/-- The flag read through a link. -/
def linkFlag (residues : List Residue) (link : Option Nat) : Option Bool := (link.bind (residues[·]?)).map (·.y2.hasNonzero)

/-! ### Coefficient partitions -/

/-- `Frame::parse_tokens` (src/decoder/frame.cc:121-137): `cells` are the macroblocks done, `ds` the decoders of the
partitions. -/
def parseResidues (probs : CoeffProbs) (w : Nat) : List (MBModes × Option Nat × Option Nat) → List Residue → List BoolDecoder →
    Option (List Residue)
  | [], cells, _ => some cells
  | (m, la, ll) :: rest, cells, ds => do
    let i := (cells.length / w) % ds.length
    let d ← ds[i]?
    let (r, d') ← parseResidue probs m (linkFlag cells la) (linkFlag cells ll) (gridAbove w cells cells.length)
      (gridLeft w cells cells.length) d
    parseResidues probs w rest (cells ++ [r]) (ds.set i d')

/-- `Frame::serialize_tokens` (src/encoder/serializer.cc:407-427) up to `finish`: `parts` are the bits put so far into each
encoder. -/
def writeResidues (probs : CoeffProbs) (w : Nat) (all : List Residue) : Nat → List (MBModes × Option Nat × Option Nat) → List Residue →
    List Bits → Option (List Bits)
  | _, [], _, parts => some parts
  | _, _ :: _, [], _ => none
  | k, (m, la, ll) :: rest, r :: rs, parts => do
    let b ← writeResidue probs m (linkFlag all la) (linkFlag all ll) (gridAbove w all k) (gridLeft w all k) r
    let i := (k / w) % parts.length
    let p ← parts[i]?
    writeResidues probs w all (k + 1) rest rs (parts.set i (p ++ b))

/-! ### Frames -/

/-- What distinguishes `KeyFrame` and `InterFrame`, the two instances of `template Frame` (src/decoder/frame.hh:47,126-127). -/
structure FrameKind (H : Type) where
  key : Bool
  parseHeader : Parser H
  writeHeader : H → Bits
  parseMB : H → ProbabilityTables → MBContext → Parser MBModes
  writeMB : H → ProbabilityTables → MBContext → MBModes → Option Bits
  log2Partitions : H → Nat
  tables : ProbabilityTables → H → ProbabilityTables

/-- `KeyFrame` (src/decoder/frame.hh:126); its tables are made by `coeff_prob_update` (src/encoder/serializer.cc:805,
src/decoder/decoder_state.hh:94). -/
def keyKind : FrameKind KeyFrameHeader :=
  { key := true, parseHeader := parseKeyFrameHeader, writeHeader := encKeyFrameHeader, parseMB := fun h _ => parseKeyMB h
    writeMB := fun h _ => writeKeyMB h, log2Partitions := (·.log2Partitions)
    tables := fun t h => t.coeffProbUpdate h.tokenProbUpdate }

/-- `InterFrame` (src/decoder/frame.hh:127); its tables are made by `update` (src/encoder/serializer.cc:820,
src/decoder/decoder_state.hh:128). -/
def interKind : FrameKind InterFrameHeader :=
  { key := false, parseHeader := parseInterFrameHeader, writeHeader := encInterFrameHeader, parseMB := parseInterMB
    writeMB := writeInterMB, log2Partitions := (·.log2Partitions), tables := ProbabilityTables.update }

/-- `class Frame` (src/decoder/frame.hh:47-70). -/
structure Frame (H : Type) where
  show' : Bool
  width : Nat
  height : Nat
  header : H
  modes : List MBModes
  residues : List Residue

/-- `dct_partition_count` (src/decoder/frame.hh:107); `1 << 3` at most, as the field has two bits. -/
def FrameKind.partitionCount {H : Type} (K : FrameKind H) (h : H) : Nat := 1 <<< K.log2Partitions h

/-- `Frame::parse_macroblock_headers` (src/decoder/frame.cc:95-113). -/
def FrameKind.parseModes {H : Type} (K : FrameKind H) (h : H) (t : ProbabilityTables) (width height : Nat) : Parser (List MBModes) :=
  let w := macroblockDimension width
  let ht := macroblockDimension height
  parseMBs (K.parseMB h t) w ht (w * ht) []

/-- `Frame::parse_tokens` with the links made by `relink_y2_blocks` (src/decoder/frame.cc:111,121-137). -/
def parseFrameTokens (t : ProbabilityTables) (width : Nat) (modes : List MBModes) (partitions : List (List UInt8)) :
    Option (List Residue) :=
  let w := macroblockDimension width
  parseResidues t.coeffProbs w (modes.zip (y2Links w modes)) [] (partitions.map (BoolDecoder.init ·))

/-- `Frame::serialize_first_partition` (src/encoder/serializer.cc:387-405). -/
def FrameKind.serializeFirst {H : Type} (K : FrameKind H) (t : ProbabilityTables) (f : Frame H) : Option (List UInt8) := do
  let b ← writeMBs (K.writeMB f.header t) (macroblockDimension f.width) (macroblockDimension f.height) f.modes 0 f.modes
  encodeBits (K.writeHeader f.header ++ b)

/-- `Frame::serialize_tokens` (src/encoder/serializer.cc:407-427). -/
def FrameKind.serializeTokens {H : Type} (K : FrameKind H) (t : ProbabilityTables) (f : Frame H) : Option (List (List UInt8)) := do
  let w := macroblockDimension f.width
  let parts ← writeResidues t.coeffProbs w f.residues 0 (f.modes.zip (y2Links w f.modes)) f.residues
    (List.replicate (K.partitionCount f.header) [])
  parts.mapM encodeBits

/-- `KeyFrame::serialize`, `InterFrame::serialize` (src/encoder/serializer.cc:800-829). -/
def FrameKind.serialize {H : Type} (K : FrameKind H) (t : ProbabilityTables) (f : Frame H) : Option (List UInt8) := do
  let t' := K.tables t f.header
  let first ← K.serializeFirst t' f
  let parts ← K.serializeTokens t' f
  (makeFrame K.key f.show' false false f.width f.height first parts).toOption

end Alfalfa
