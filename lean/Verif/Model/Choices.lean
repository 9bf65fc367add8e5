import Verif.Model.ProbTables
import Verif.Model.Quantizer
import Verif.Model.Macroblock
import Mathlib.Order.Defs.LinearOrder

/-! What the encoder decides: probabilities (src/encoder/encoder.cc:48-55,418-457, src/encoder/encode_inter.cc:525-575), the quantizer
(src/encoder/encoder.cc:518-629), the loop-filter level (src/encoder/encoder.cc:459-516) and the coefficients (src/encoder/encoder.cc:220-416).
`unsigned int` is 32 bits wide.  The numbers that come out of floating-point arithmetic (SSIM) are elements of any linearly ordered type,
the size estimates and cost tables are any functions. -/

namespace Alfalfa

/-! ### Probabilities -/

/-- `Encoder::calc_prob` (src/encoder/encoder.cc:48-55); `none` is a division by zero. -/
def calcProb (falseCount total : Nat) : Option Nat :=
  if falseCount = 0 then some 0
  else if total = 0 then none
  else some (max 1 (min 255 (256 * falseCount % 2 ^ 32 / total)))

/-- The probability from two counters; their sum is an `unsigned int`. -/
def countedProb (falseCount trueCount : Nat) : Option Nat := calcProb falseCount ((falseCount + trueCount) % 2 ^ 32)

/-- `TokenBranchCounts` (src/decoder/macroblock.hh): for each node of the token tree in each context how often the branches were taken. -/
abbrev BranchCounts := Fin 4 → Fin 8 → Fin 3 → Fin 11 → Nat × Nat

/-- The body of the loops of `optimize_probability_tables` (src/encoder/encoder.cc:425-437): the entry of the header before (it is not
cleared), the entry of the table, the counts. -/
def optimizeEntry (entry : Option Nat) (table : Prob) (counts : Nat × Nat) : Option (Option Nat) := do
  let prob ← countedProb counts.1 counts.2
  if prob > 255 then none
  else if prob > 0 ∧ prob ≠ table.toNat then pure (some prob) else pure entry

/-- `Encoder::optimize_probability_tables` (src/encoder/encoder.cc:418-439) on the updates in the header. -/
def optimizeTables (u : TokenProbUpdate) (t : CoeffProbs) (counts : BranchCounts) : Option TokenProbUpdate :=
  if h : ∀ i j k l, (optimizeEntry (u i j k l) (t i j k l) (counts i j k l)).isSome = true then
    some fun i j k l => (optimizeEntry (u i j k l) (t i j k l) (counts i j k l)).get (h i j k l)
  else none

/-- `Encoder::optimize_prob_skip` (src/encoder/encoder.cc:442-457): the new `prob_skip_false`; `total_count` and `no_skip_count` are
`size_t` converted to `unsigned`. -/
def optimizeSkip (residues : List Residue) : Option Nat :=
  calcProb ((residues.filter (·.nonzero)).length % 2 ^ 32) (residues.length % 2 ^ 32)

/-- `Encoder::optimize_interframe_probs` (src/encoder/encode_inter.cc:525-575): the three probabilities of the header before and the
references of the macroblocks (0 `CURRENT_FRAME`, 1 `LAST_FRAME`, 2 `GOLDEN_FRAME`, 3 `ALTREF_FRAME`). -/
def optimizeReferences (old : Nat × Nat × Nat) (references : List (Fin 4)) : Option (Nat × Nat × Nat) := do
  let n := references.length
  let current := references.count 0
  let last := references.count 1
  let golden := references.count 2
  let alternate := references.count 3
  let inter ← countedProb current (n - current)
  let prefersLast ← countedProb last (golden + alternate)
  let prefersGolden ← countedProb golden alternate
  pure (if inter % 256 > 0 then inter % 256 else old.1, if prefersLast % 256 > 0 then prefersLast % 256 else old.2.1,
        if prefersGolden % 256 > 0 then prefersGolden % 256 else old.2.2)

/-! ### The quantizer for a target size -/

/-- The window of `encode_with_target_size` (src/encoder/encoder.cc:597-608); `last` is `last_y_ac_qi_`. -/
def searchWindow (last : Option Nat) : Int × Int :=
  match last with
  | none => (4, 127)
  | some l => (if (l : Int) - 16 ≥ 4 then (l : Int) - 16 else 4, min 127 ((l : Int) + 16))

/-- The loop of `encode_with_target_size` (src/encoder/encoder.cc:614-626): the index found and the indices that were tried, in order.
`best` starts as 255.  The test `0 ≤ lo` always succeeds for the windows above; it tells Lean that the loop ends. -/
def targetLoop (estimate : Nat → Nat) (target : Nat) (lo hi : Int) (best : Nat) : Nat × List Nat :=
  if _h : lo ≤ hi ∧ 0 ≤ lo then
    let q := ((lo + hi) / 2).toNat
    if estimate q ≤ target ∨ (lo = hi ∧ best = 255) then
      let (r, tried) := targetLoop estimate target lo ((q : Int) - 1) q
      (r, q :: tried)
    else
      let (r, tried) := targetLoop estimate target ((q : Int) + 1) hi best
      (r, q :: tried)
  else (best, [])
termination_by (hi - lo + 1).toNat
decreasing_by all_goals omega

/-- `encode_with_target_size` (src/encoder/encoder.cc:592-629) up to the call of `encode_with_quantizer`. -/
def targetQuantizer (estimate : Nat → Nat) (target : Nat) (last : Option Nat) : Nat × List Nat :=
  let w := searchWindow last
  targetLoop estimate target w.1 w.2 255

/-! ### The quantizer for a minimum quality -/

/-- The loop of `encode_with_quantizer_search` (src/encoder/encoder.cc:530-553); `ssim` is the second component of what `encode_raster`
returns. -/
def qualityLoop {S : Type} [LinearOrder S] (ssim : Nat → S) (minimum : S) (lo hi : Int) (found : Bool) (best : Nat) : Nat :=
  if _h : lo ≤ hi ∧ 0 ≤ lo then
    let q := ((lo + hi) / 2).toNat
    let answer := decide (minimum ≤ ssim q) || (decide (lo = hi) && !found)
    let found := found || answer
    let best := if answer then q else best
    if lo = hi then best
    else if ssim q < minimum then qualityLoop ssim minimum lo ((q : Int) - 1) found best
    else qualityLoop ssim minimum ((q : Int) + 1) hi found best
  else best
termination_by (hi - lo + 1).toNat
decreasing_by all_goals omega

/-- The second component of the result of `encode_raster` (src/encoder/encode_intra.cc:454-455, src/encoder/encode_inter.cc:651-652). -/
def encodeRasterQuality {S : Type} (zero : S) (quality : Nat → S) (computeSsim : Bool) (q : Nat) : S := if computeSsim then quality q else zero

/-- `encode_with_quantizer_search` (src/encoder/encoder.cc:518-557): the index it settles on.  The call
`encode_raster( raster, quant_indices, true )` sets the parameter `update_state`; `compute_ssim` keeps its default `false`
(src/encoder/encoder.hh:333-337). -/
def minimumQualityQuantizer {S : Type} [LinearOrder S] (zero : S) (quality : Nat → S) (minimum : S) : Nat :=
  qualityLoop (encodeRasterQuality zero quality false) minimum 0 127 false 0

/-! ### The loop-filter level -/

/-- The bounds of the search (src/encoder/encoder.cc:475-487). -/
def levelWindow (last : Option Nat) : Nat × Nat :=
  match last with
  | none => (0, 63)
  | some l => (if l > 0 then l - 1 else 0, min 63 (l + 1))

/-- The loop of `apply_best_loopfilter_settings` (src/encoder/encoder.cc:489-508) with `n` levels to go: the best level. -/
def levelLoop {S : Type} [LinearOrder S] (quality : Nat → S) : Nat → Nat → S → Nat → Nat
  | 0, _, _, bestLevel => bestLevel
  | n + 1, level, best, bestLevel => if best < quality level then levelLoop quality n (level + 1) (quality level) level else bestLevel

/-- `apply_best_loopfilter_settings` (src/encoder/encoder.cc:459-516); `minusOne` is -1.0. -/
def bestLevel {S : Type} [LinearOrder S] (minusOne : S) (quality : Nat → S) (last : Option Nat) : Nat :=
  let w := levelWindow last
  levelLoop quality (w.2 + 1 - w.1) w.1 minusOne 0

/-! ### Coefficients -/

/-- `rdcost` (src/encoder/encoder.cc:410-416), on 32-bit numbers. -/
def rdcost (rate distortion rateMultiplier distortionMultiplier : Nat) : Nat :=
  ((128 + rate * rateMultiplier) % 2 ^ 32 / 256 + distortion * distortionMultiplier) % 2 ^ 32

/-- `Costs::token_for_coeff` (src/encoder/costs.cc:242-261). -/
def tokenForCoeff (c : Int) : Fin 12 :=
  let v := c.natAbs
  if v = 0 then 0 else if v = 1 then 1 else if v = 2 then 2 else if v = 3 then 3 else if v = 4 then 4
  else if v ≤ 6 then 5 else if v ≤ 10 then 6 else if v ≤ 18 then 7 else if v ≤ 34 then 8 else if v ≤ 66 then 9 else 10

/-- `DCT_EOB_TOKEN` (src/decoder/tokens.hh:48). -/
def eobToken : Fin 12 := 11

/-- `prev_token_class` (src/encoder/costs.hh:14-15). -/
def prevTokenClass : Fin 12 → Fin 3 := ![0, 1, 2, 2, 2, 2, 2, 2, 2, 2, 2, 0]

/-- The cost tables and multipliers that the search uses: `token_costs.at( type )`, `coeff_base_cost` and `RATE_MULTIPLIER`,
`DISTORTION_MULTIPLIER`. -/
structure TrellisCosts where
  token : Fin 8 → Fin 3 → Fin 12 → Nat
  base : Int → Nat
  rate : Nat
  distortion : Nat

/-- `struct TrellisNode` (src/encoder/encoder.cc:224-233). -/
structure TrellisNode where
  rate : Nat
  distortion : Nat
  cost : Nat
  coeff : Int
  token : Fin 12
  next : Nat

/-- The sentinel (src/encoder/encoder.cc:278-285); its cost is not initialised and not read. -/
def sentinel : TrellisNode := { rate := 0, distortion := 0, cost := 0, coeff := 0, token := eobToken, next := 255 }

/-- `candidate_coeff` for `q_shift` 0 and 1 (src/encoder/encoder.cc:298-311); `none` when the node is a copy. -/
def candidate (q : Int) (shift : Fin 2) : Option Int :=
  if q < 0 then some (min 0 (q + shift.val))
  else if q > 0 ∨ shift = 0 then some (max 0 (q - shift.val))
  else none

/-- `rates[ next ]` (src/encoder/encoder.cc:331-342). -/
def rateThrough (costs : TrellisCosts) (idx : Fin 16) (token : Fin 12) (next : TrellisNode) : Nat :=
  if h : idx.val < 15 then
    (next.rate + costs.token (coefficientToBand ⟨idx.val + 1, by omega⟩) (prevTokenClass token) next.token) % 2 ^ 32
  else next.rate

/-- `rd_costs[ next ]` (src/encoder/encoder.cc:330-345). -/
def costThrough (costs : TrellisCosts) (idx : Fin 16) (token : Fin 12) (sse : Nat) (next : TrellisNode) : Nat :=
  rdcost (rateThrough costs idx token next) ((next.distortion + sse) % 2 ^ 32) costs.rate costs.distortion

/-- The loop over `next` (src/encoder/encoder.cc:324-351): `best_next`, or `none` when no cost is below the initial
`numeric_limits<uint32_t>::max()`, in which case the array access at src/encoder/encoder.cc:353 throws. -/
def chooseNext (c0 c1 : Nat) : Option (Fin 2) :=
  if c0 < 2 ^ 32 - 1 then (if c1 < c0 then some 1 else some 0)
  else if c1 < 2 ^ 32 - 1 then some 1 else none

/-- One node that is not a copy (src/encoder/encoder.cc:313-367); `none` also when the assertion in `coeff_base_cost` fails
(src/encoder/costs.cc:615). -/
def trellisNode (costs : TrellisCosts) (idx : Fin 16) (original : Int) (factor : Nat) (next : Fin 2 → TrellisNode) (coeff : Int) : Option TrellisNode := do
  let diff := toInt16 (original - coeff * factor)
  let sse := (diff * diff).toNat
  let token := tokenForCoeff coeff
  let best ← chooseNext (costThrough costs idx token sse (next 0)) (costThrough costs idx token sse (next 1))
  if coeff ≠ 0 ∨ (next best).token ≠ eobToken then
    if -2048 ≤ coeff ∧ coeff ≤ 2047 then
      pure { rate := (rateThrough costs idx token (next best) + costs.base coeff) % 2 ^ 32
             distortion := ((next best).distortion + sse) % 2 ^ 32
             cost := costThrough costs idx token sse (next best), coeff, token, next := best.val }
    else none
  else pure { rate := 0, distortion := sse, cost := rdcost 0 sse costs.rate costs.distortion, coeff := 0, token := eobToken, next := 255 }

/-- Both nodes of one index (src/encoder/encoder.cc:289-368); `none` is also a division by zero. -/
def trellisNodes (costs : TrellisCosts) (idx : Fin 16) (original : Int) (factor : Nat) (next : Fin 2 → TrellisNode) : Option (Fin 2 → TrellisNode) :=
  if factor = 0 then none
  else do
    let q := toInt16 (original.tdiv factor)
    let n0 ← match candidate q 0 with
      | some c => trellisNode costs idx original factor next c
      | none => none
    let n1 ← match candidate q 1 with
      | some c => trellisNode costs idx original factor next c
      | none => some n0
    pure ![n0, n1]

/-- The trellis from its end to its beginning (src/encoder/encoder.cc:278-369), for the indices below `coded_length`; the last element
is the sentinel. -/
def buildTrellis (costs : TrellisCosts) (c : Fin 16 → Int) (dc ac : Nat) : List (Fin 16) → Option (List (Fin 2 → TrellisNode))
  | [] => some [fun _ => sentinel]
  | idx :: rest => do
    let t ← buildTrellis costs c dc ac rest
    match t with
    | [] => none
    | next :: _ => do
      let n ← trellisNodes costs idx (c (zigzag idx)) (if idx = 0 then dc else ac) next
      pure (n :: t)

/-- The addition of the cost of the first token and the choice of the first node (src/encoder/encoder.cc:371-393); `none` when no cost
is below the maximum, in which case `min_choice` is not initialised. -/
def firstChoice (costs : TrellisCosts) (band : Fin 8) (context : Fin 3) (n : Fin 2 → TrellisNode) : Option (Fin 2) :=
  let cost (i : Fin 2) := rdcost (((n i).rate + costs.token band context (n i).token) % 2 ^ 32) (n i).distortion costs.rate costs.distortion
  chooseNext (cost 0) (cost 1)

/-- `coefficients.at( zigzag.at( i ) ) = 0` for the remaining indices (src/encoder/encoder.cc:405-407). -/
def zeroFrom (c : Fin 16 → Int) (rest : List (Fin 16)) : Fin 16 → Int := rest.foldl (fun c i => Function.update c (zigzag i) 0) c

/-- The walk along the best path (src/encoder/encoder.cc:395-407). -/
def walkTrellis : List (Fin 2 → TrellisNode) → Nat → List (Fin 16) → (Fin 16 → Int) → Option (Fin 16 → Int)
  | _, _, [], c => some c
  | [], _, _ :: _, _ => none
  | n :: t, choice, idx :: rest, c =>
    if h : choice < 2 then
      if (n ⟨choice, h⟩).token = eobToken then some (zeroFrom c (idx :: rest))
      else walkTrellis t (n ⟨choice, h⟩).next rest (Function.update c (zigzag idx) (n ⟨choice, h⟩).coeff)
    else none

/-- `Encoder::trellis_quantize` (src/encoder/encoder.cc:220-408); `context` is `token_context`. -/
def trellisQuantize (costs : TrellisCosts) (type : BlockType) (dc ac : Nat) (context : Fin 3) (c : Fin 16 → Int) : Option (Fin 16 → Int) :=
  let length := codedLength type c
  if length = 0 then some fun _ => 0
  else do
    let trellis ← buildTrellis costs c dc ac ((indicesFrom type.first).filter (fun i => decide (i.val < length)))
    match trellis with
    | [] => none
    | n :: _ => do
      let choice ← firstChoice costs (coefficientToBand ⟨type.first, by cases type <;> decide⟩) context n
      walkTrellis trellis choice.val (indicesFrom type.first) c

/-- The factors chosen by the type of the block (src/encoder/encoder.cc:238-253). -/
def Quantizer.factors (q : Quantizer) : BlockType → Nat × Nat
  | .uv => (q.uvDc, q.uvAc)
  | .y2 => (q.y2Dc, q.y2Ac)
  | _ => (q.yDc, q.yAc)

/-- `Encoder::check_reset_y2` (src/encoder/encoder.cc:195-218): the sum is reached early or late, with the same result. -/
def checkResetY2 (dc ac : Nat) (c : Fin 16 → Int) : Fin 16 → Int :=
  if dc ≥ 35 ∧ ac ≥ 35 then c
  else if (List.finRange 16).foldl (fun s i => s + (c i).natAbs) 0 ≥ 35 then c
  else fun _ => 0

end Alfalfa
