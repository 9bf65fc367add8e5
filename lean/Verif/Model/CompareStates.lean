import Verif.Model.SaveState
import Verif.Model.StateHash
import Verif.Model.Pixels
import Mathlib.Data.Fintype.Pi

/-! The tools that compare two saved decoders: src/frontend/comp-states.cc and src/frontend/xc-diff.cc.  Files are lists of bytes.  What is printed is a list of
messages, or numbers; a quotient is given by its two operands, since floating-point numbers are not modelled. -/

namespace Alfalfa

/-! ### comp-states -/

/-- `set_bits` (src/frontend/comp-states.cc:39-46). -/
def setBits : List Nat :=
  [0, 1, 1, 2, 1, 2, 2, 3, 1, 2, 2, 3, 2, 3, 3, 4, 1, 2, 2, 3, 2, 3, 3, 4, 2, 3, 3, 4, 3, 4, 4, 5,
   1, 2, 2, 3, 2, 3, 3, 4, 2, 3, 3, 4, 3, 4, 4, 5, 2, 3, 3, 4, 3, 4, 4, 5, 3, 4, 4, 5, 4, 5, 5, 6,
   1, 2, 2, 3, 2, 3, 3, 4, 2, 3, 3, 4, 3, 4, 4, 5, 2, 3, 3, 4, 3, 4, 4, 5, 3, 4, 4, 5, 4, 5, 5, 6,
   2, 3, 3, 4, 3, 4, 4, 5, 3, 4, 4, 5, 4, 5, 5, 6, 3, 4, 4, 5, 4, 5, 5, 6, 4, 5, 5, 6, 5, 6, 6, 7,
   1, 2, 2, 3, 2, 3, 3, 4, 2, 3, 3, 4, 3, 4, 4, 5, 2, 3, 3, 4, 3, 4, 4, 5, 3, 4, 4, 5, 4, 5, 5, 6,
   2, 3, 3, 4, 3, 4, 4, 5, 3, 4, 4, 5, 4, 5, 5, 6, 3, 4, 4, 5, 4, 5, 5, 6, 4, 5, 5, 6, 5, 6, 6, 7,
   2, 3, 3, 4, 3, 4, 4, 5, 3, 4, 4, 5, 4, 5, 5, 6, 3, 4, 4, 5, 4, 5, 5, 6, 4, 5, 5, 6, 5, 6, 6, 7,
   3, 4, 4, 5, 4, 5, 5, 6, 4, 5, 5, 6, 5, 6, 6, 7, 4, 5, 5, 6, 5, 6, 6, 7, 5, 6, 6, 7, 6, 7, 7, 8]

/-- `( int )( a - b )` for numbers of 64 bits. -/
def intDifference (a b : Nat) : Int := ((a : Int) - b).bmod (2 ^ 32)

/-- `diffs` (src/frontend/comp-states.cc:64-72): `8 * abs( ... )` is computed with signed numbers of 32 bits, `none` if it overflows; the limit is a number of 32
bits. -/
def bitDifference (f g : List UInt8) : Option Nat :=
  let d := (intDifference f.length g.length).natAbs
  if 2 ^ 31 ≤ 8 * d then none
  else some ((List.range (min (f.length % 2 ^ 32) (g.length % 2 ^ 32))).foldl
    (fun diffs i => (diffs + setBits.getD ((f.getD i 0).toNat ^^^ (g.getD i 0).toNat) 0) % 2 ^ 32) (8 * d))

/-- The reads of one file (src/frontend/comp-states.cc:84-114), which are done for both files in turn: the tags and the first length are not looked at, and the state
is skipped. -/
def loadOnlyReferences (blank : Raster) : Load References := do
  let _ ← loadTag
  let _ ← loadLE 4
  let _ ← loadTag
  let len ← loadLE 4
  let _ ← loadList loadByte len
  loadReferences blank

/-- The two numbers that are counted over one plane, in the order of the code: how many pixels differ and the sum of the differences (src/frontend/comp-states.cc:127-141,
where the loops for U and V are one loop; `none` is a failed assertion of `at`). -/
def planeDifference (p q : Plane) (width height : Nat) (start : Nat × Nat) : Option (Nat × Nat) :=
  (List.range width).foldlM (fun s col => (List.range height).foldlM (fun (s : Nat × Nat) row => do
    let a ← p.at? col row
    let b ← q.at? col row
    pure (if a ≠ b then (s.1 + 1) % 2 ^ 32 else s.1, (s.2 + ((a.toNat : Int) - b.toNat).natAbs) % 2 ^ 32)) s) start

/-- What comp-states prints after the number of bits: `diff1`, `diff2` and `tot` (src/frontend/comp-states.cc:116-143), of which it prints the quotients `diff1 / tot` and
`diff2 / diff1`. -/
structure PixelDifference where
  count : Nat
  sum : Nat
  total : Nat
deriving Repr, DecidableEq

/-- src/frontend/comp-states.cc:116-143. -/
def pixelDifference (r s : Raster) : Option PixelDifference :=
  if r.y.width ≠ s.y.width ∨ r.y.height ≠ s.y.height then none
  else do
    let d ← planeDifference r.y s.y r.y.width r.y.height (0, 0)
    let d ← planeDifference r.u s.u (r.y.width / 2) (r.y.height / 2) d
    let d ← planeDifference r.v s.v (r.y.width / 2) (r.y.height / 2) d
    pure ⟨d.1, d.2, (r.y.width * r.y.height % 2 ^ 32 + r.y.width * r.y.height % 2 ^ 32 / 2) % 2 ^ 32⟩

/-- How a run ends. -/
inductive Comparison where
  /-- exit status 0 after printing the number 0 -/
  | same
  /-- exit status 1 after printing the numbers -/
  | different (bits : Nat) (pixels : PixelDifference)
  /-- exit status 1 or an abort in the middle -/
  | failed (bits : Option Nat)
deriving Repr, DecidableEq

/-- `main` of comp-states (src/frontend/comp-states.cc:48-152).  A file without bytes cannot be mapped to memory (src/util/file.cc:41-46). -/
def compareStates (blank1 blank2 : Raster) (f g : List UInt8) : Comparison :=
  if f = [] ∨ g = [] then .failed none
  else match bitDifference f g with
    | none => .failed none
    | some bits =>
      if bits = 0 then .same
      else match (loadOnlyReferences blank1 f).bind fun (r, _) => (loadOnlyReferences blank2 g).bind fun (s, _) => pixelDifference r.last s.last with
        | some d => .different bits d
        | none => .failed (some bits)

/-! ### xc-diff -/

/-- `ProbabilityTables::operator==` (src/decoder/probability_tables.cc:118-124). -/
def ProbabilityTables.same (a b : ProbabilityTables) : Bool :=
  decide (a.coeffProbs = b.coeffProbs) && decide (a.yModeProbs = b.yModeProbs) && decide (a.uvModeProbs = b.uvModeProbs) && decide (a.mvProbs = b.mvProbs)

/-- `Segmentation::operator==` (src/decoder/decoder.cc:446-452, src/util/2d.hh:166-185). -/
def Segmentation.same (a b : Segmentation) : Bool :=
  a.absolute == b.absolute && decide (a.quantizer = b.quantizer) && decide (a.filter = b.filter) &&
    (decide (a.mapWidth = b.mapWidth) && decide (a.mapHeight = b.mapHeight) && decide (a.map = b.map))

/-- `FilterAdjustments::operator==` (src/decoder/decoder.cc:440-444). -/
def FilterAdjustments.same (a b : FilterAdjustments) : Bool := decide (a.ref = b.ref) && decide (a.mode = b.mode)

/-- `Optional::operator==` (src/util/optional.hh:119-127). -/
def optionSame {α : Type} (eq : α → α → Bool) : Option α → Option α → Bool
  | some a, some b => eq a b
  | none, none => true
  | _, _ => false

/-- `DecoderState::operator==` (src/decoder/decoder.cc:257-264). -/
def DecoderState.same (a b : DecoderState) : Bool :=
  decide (a.width = b.width) && decide (a.height = b.height) && a.tables.same b.tables && optionSame Segmentation.same a.segmentation b.segmentation &&
    optionSame FilterAdjustments.same a.filterAdjustments b.filterAdjustments

/-- `VP8RasterHandle::operator==` (src/decoder/raster_handle.cc:184-188): the hashes are compared. -/
def Raster.sameHash (mix : Nat → Nat → Nat) (a b : Raster) : Bool := decide (a.hash mix = b.hash mix)

/-- `References::operator==` (src/decoder/decoder.cc:214-218). -/
def References.same (mix : Nat → Nat → Nat) (a b : References) : Bool :=
  a.last.sameHash mix b.last && a.golden.sameHash mix b.golden && a.alternative.sameHash mix b.alternative

/-- `Decoder::operator==` (src/decoder/decoder.cc:156-159). -/
def Decoder.same (mix : Nat → Nat → Nat) (a b : Decoder) : Bool := a.state.same b.state && a.references.same mix b.references

/-- The messages of xc-diff. -/
inductive DiffMessage where
  | decoders | dimensions | states | tables | coefficients | yModes | uvModes | vectors | segmentations | filters | references | last | golden | alternative
deriving Repr, DecidableEq

/-- A message if a comparison fails. -/
def unlessSame (same : Bool) (m : List DiffMessage) : List DiffMessage := if same then [] else m

/-- What xc-diff prints for two decoders that differ (src/frontend/xc-diff.cc:102-176). -/
def diffMessages (mix : Nat → Nat → Nat) (a b : Decoder) : List DiffMessage :=
  [.decoders] ++
  unlessSame (decide (a.state.width = b.state.width ∧ a.state.height = b.state.height)) [.dimensions] ++
  unlessSame (a.state.same b.state)
    ([.states] ++
      unlessSame (a.state.tables.same b.state.tables)
        ([.tables] ++
          unlessSame (decide (a.state.tables.coeffProbs = b.state.tables.coeffProbs)) [.coefficients] ++
          unlessSame (decide (a.state.tables.yModeProbs = b.state.tables.yModeProbs)) [.yModes] ++
          unlessSame (decide (a.state.tables.uvModeProbs = b.state.tables.uvModeProbs)) [.uvModes] ++
          unlessSame (decide (a.state.tables.mvProbs = b.state.tables.mvProbs)) [.vectors]) ++
      unlessSame (optionSame Segmentation.same a.state.segmentation b.state.segmentation) [.segmentations] ++
      unlessSame (optionSame FilterAdjustments.same a.state.filterAdjustments b.state.filterAdjustments) [.filters]) ++
  unlessSame (a.references.same mix b.references)
    ([.references] ++ unlessSame (a.references.last.sameHash mix b.references.last) [.last] ++
      unlessSame (a.references.golden.sameHash mix b.references.golden) [.golden] ++
      unlessSame (a.references.alternative.sameHash mix b.references.alternative) [.alternative])

/-- `main` of xc-diff with two file names (src/frontend/xc-diff.cc:56-184): the exit status and the messages; `none` if a file cannot be loaded. -/
def diffStates (mix : Nat → Nat → Nat) (blank1 blank2 : Raster) (f g : List UInt8) : Option (Nat × List DiffMessage) := do
  let a ← loadDecoder blank1 f
  let b ← loadDecoder blank2 g
  if a.same mix b then pure (0, []) else pure (1, diffMessages mix a b)

end Alfalfa
