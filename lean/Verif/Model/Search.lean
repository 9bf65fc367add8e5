import Verif.Model.Inter
import Verif.Model.Macroblock

/-! The encoder's search for a motion vector (src/encoder/encode_inter.cc:36-47,172-229,287-304).  What a vector costs is any function of
the difference and of the prediction it leads to; the quantizer index and the picture to be coded do not change during the search. -/

namespace Alfalfa

/-- `out_of_bounds` (src/encoder/encode_inter.cc:36-47). -/
def outOfBounds (v : MotionVector) : Bool := v.x > 1023 || v.x < -1023 || v.y > 1023 || v.y < -1023

/-- `inter_predict( mv, safe_reference, prediction )` of the luma of a macroblock (src/decoder/prediction.cc:683-729): as
`safe_inter_predict`, with the padded copy for the reference.  The version with SSE instructions goes through pointers from
`reference.at( source_column, source_row )`; here each pixel is read by its coordinates. -/
def searchPredict (rows : List (List UInt8)) (mv : MotionVector) (column row : Nat) : Option (Square 16) :=
  safeInterPredict 16 (safeAt rows) mv ((column * 16 : Nat) + mv.x >>> 3) ((row * 16 : Nat) + mv.y >>> 3)

/-- What stays the same during the search: the padded copy of the reference, the place and the neighbours of the macroblock, the costs.  `place` is the
place of `original_mb`, from which `reference_mb` is taken (src/encoder/encode_inter.cc:184-185,254-255); it differs from that of the macroblock of the frame
only in an estimate (src/encoder/size_estimation.cc:130-134). -/
structure Search where
  rows : List (List UInt8)
  context : MBContext
  cost : MotionVector → Square 16 → Nat
  place : Nat × Nat := (context.column, context.row)

/-- `check_sites` (src/encoder/encode_inter.cc:191-193). -/
def checkSites : List (Int × Int) := [(-1, 0), (0, -1), (0, 0), (0, 1), (1, 0)]

/-- One turn of the loop over the sites (src/encoder/encode_inter.cc:199-218): `best_pred.cost` and `best_pred.mv`. -/
def siteStep (s : Search) (base origin : MotionVector) (step : Nat) (best : Nat × MotionVector) (site : Int × Int) : Option (Nat × MotionVector) :=
  let mv := ({} : MotionVector).add (origin.add { x := toInt16 (step * site.1), y := toInt16 (step * site.2) })
  if outOfBounds mv then some best
  else do
    let prediction ← searchPredict s.rows (clampMv (mv.add base) s.context) s.place.1 s.place.2
    pure (if s.cost mv prediction < best.1 then (s.cost mv prediction, mv) else best)

/-- The loop of `diamond_search` (src/encoder/encode_inter.cc:195-226): the vector and `first_step`. -/
def diamondLoop (s : Search) (base origin : MotionVector) (firstStep step : Nat) : Option (MotionVector × Nat) :=
  if _h : step > 1 then do
    let best ← checkSites.foldlM (siteStep s base origin step) (2 ^ 32 - 1, {})
    diamondLoop s base best.2 (if best.2 = origin then step / 2 else firstStep) (step / 2)
  else some (origin, firstStep)
termination_by step
decreasing_by omega

/-- `Encoder::diamond_search` (src/encoder/encode_inter.cc:172-229). -/
def diamondSearch (s : Search) (base origin : MotionVector) (step : Nat) : Option (MotionVector × Nat) :=
  diamondLoop s (clampMv base s.context) origin (step / 2) step

/-- The loop for `NEWMV` (src/encoder/encode_inter.cc:287-298).  `none` is also a step that does not get smaller, with which Lean could not
see that the loop ends; `C66_search` shows that there is none. -/
def newVectorLoop (s : Search) (base mv : MotionVector) (step : Nat) : Option MotionVector :=
  if step > 1 then do
    let r ← diamondSearch s base mv step
    if r.1 = mv then pure mv
    else if _h : r.2 < step then newVectorLoop s base r.1 r.2
    else none
  else some mv
termination_by step
decreasing_by omega

/-- The search for `NEWMV` (src/encoder/encode_inter.cc:287-300): the difference from `best_ref`; the vector itself is `mv += best_ref`. -/
def newVector (s : Search) (base : MotionVector) : Option MotionVector := newVectorLoop s base {} 512

/-- `Costs::sad_motion_vector_cost` (src/encoder/costs.cc:231-240) with the table `mv_sad_costs`, 256 entries for each sign; `none` is
an index out of range. -/
def sadVectorCost (costs : Bool → Bool → List Nat) (v : MotionVector) (weight : Nat) : Option Nat := do
  let x := max (min (v.x >>> 2) 255) (-255)
  let y := max (min (v.y >>> 2) 255) (-255)
  let a ← (costs false (decide (y < 0)))[y.natAbs]?
  let b ← (costs true (decide (x < 0)))[x.natAbs]?
  pure (((a + b) * weight + 128) / 256 % 2 ^ 32)

/-- `Costs::motion_vector_cost` (src/encoder/costs.cc:222-226) with the table `mv_component_costs`, 1024 entries for each sign. -/
def vectorCost (costs : Bool → Bool → List Nat) (v : MotionVector) (weight : Nat) : Option Nat := do
  let a ← (costs false (decide (v.y < 0)))[v.y.natAbs]?
  let b ← (costs true (decide (v.x < 0)))[v.x.natAbs]?
  pure ((a + b) % 2 ^ 32 * weight / 128 % 2 ^ 32)

end Alfalfa
