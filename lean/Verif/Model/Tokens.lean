import Verif.Model.Parser
import Mathlib.Data.Fin.VecNotation
import Mathlib.Logic.Function.Basic

/-! Coefficient tokens of one block (src/decoder/tokens.cc, src/decoder/tokens.hh, src/encoder/serializer.cc:445-453,
595-739). -/

namespace Alfalfa

/-- `coefficient_to_band` (src/decoder/tokens.hh:54). -/
def coefficientToBand : Fin 16 → Fin 8 := ![0, 1, 2, 3, 6, 4, 5, 6, 6, 6, 6, 6, 6, 6, 6, 7]

/-- `zigzag` (src/decoder/tokens.hh:55). -/
def zigzag : Fin 16 → Fin 16 := ![0, 1, 4, 8, 5, 2, 3, 6, 9, 12, 13, 10, 7, 11, 14, 15]

/-- `enum BlockType` (src/decoder/block.hh:44); the value indexes the coefficient probabilities. -/
inductive BlockType | yAfterY2 | y2 | uv | yWithoutY2
deriving Repr, DecidableEq

def BlockType.index : BlockType → Fin 4
  | yAfterY2 => 0 | y2 => 1 | uv => 2 | yWithoutY2 => 3

/-- First coefficient index (src/decoder/tokens.cc:61, src/encoder/serializer.cc:603,617). -/
def BlockType.first : BlockType → Nat
  | yAfterY2 => 1 | _ => 0

/-- The parts of `class Block` that tokens touch (src/decoder/block.hh:133,143): coefficients in raster order and
`has_nonzero_`. -/
@[ext] structure Block where
  coeffs : Fin 16 → Int := fun _ => 0
  hasNonzero : Bool := false

/-- `ProbabilityTables::coeff_probs` (src/decoder/decoder_state.hh). -/
abbrev CoeffProbs := Fin 4 → Fin 8 → Fin 3 → Fin 11 → Prob

/-- `token_decoder_1` … `token_decoder_5`: base value and bit probabilities (src/decoder/tokens.hh:74-78). -/
def tokenDecoder1 : Nat × List Prob := (7, [165, 145])
def tokenDecoder2 : Nat × List Prob := (11, [173, 148, 140])
def tokenDecoder3 : Nat × List Prob := (19, [176, 155, 140, 135])
def tokenDecoder4 : Nat × List Prob := (35, [180, 157, 141, 134, 130])
def tokenDecoder5 : Nat × List Prob := (67, [254, 254, 243, 230, 196, 177, 153, 140, 133, 130, 129])

/-- `TokenDecoder::upper_limit` (src/decoder/tokens.hh:71). -/
def upperLimit (t : Nat × List Prob) : Nat := t.1 + 2 ^ t.2.length

/-- The loop of `TokenDecoder::decode` (src/decoder/tokens.cc:40-43). -/
def readExtra : List Prob → Nat → Parser Nat
  | [], inc => pure inc
  | p :: ps, inc => do
    let b ← getBit p
    readExtra ps ((inc <<< 1) + b.toNat)

/-- `TokenDecoder::decode` (src/decoder/tokens.cc:37-45). -/
def tokenDecode (t : Nat × List Prob) : Parser Nat := do
  let inc ← readExtra t.2 0
  pure (t.1 + inc)

/-- The loop of `TokenDecoder::encode` (src/encoder/serializer.cc:450-452), most significant bit first. -/
def writeExtra : List Prob → Nat → Bits
  | [], _ => []
  | p :: ps, inc => (decide (inc &&& (1 <<< ps.length) ≠ 0), p) :: writeExtra ps inc

/-- `TokenDecoder::encode` (src/encoder/serializer.cc:445-453). -/
def tokenEncode (t : Nat × List Prob) (value : Nat) : Option Bits :=
  if value < t.1 then none else some (writeExtra t.2 (value - t.1))

/-- The nested decisions that give the magnitude and the next context (src/decoder/tokens.cc:85-125). -/
def readMagnitude (prob : Fin 11 → Prob) : Parser (Nat × Fin 3) := do
  if !(← getBit (prob 2)) then pure (1, 1) else
  if !(← getBit (prob 3)) then
    if !(← getBit (prob 4)) then pure (2, 2) else
    if !(← getBit (prob 5)) then pure (3, 2) else pure (4, 2)
  else
    if !(← getBit (prob 6)) then
      if !(← getBit (prob 7)) then do
        let b ← getBit 159
        pure (5 + b.toNat, 2)
      else do
        let v ← tokenDecode tokenDecoder1
        pure (v, 2)
    else
      if !(← getBit (prob 8)) then
        if !(← getBit (prob 9)) then do
          let v ← tokenDecode tokenDecoder2
          pure (v, 2)
        else do
          let v ← tokenDecode tokenDecoder3
          pure (v, 2)
      else
        if !(← getBit (prob 10)) then do
          let v ← tokenDecode tokenDecoder4
          pure (v, 2)
        else do
          let v ← tokenDecode tokenDecoder5
          pure (v, 2)

/-- The writer's side of the same decisions, without the sign (src/encoder/serializer.cc:642-727); `none` is the
"value too large" error. -/
def writeMagnitude (prob : Fin 11 → Prob) (v : Nat) : Option (Bits × Fin 3) :=
  if v = 1 then some ([(false, prob 2)], 1)
  else if v = 2 then some ([(true, prob 2), (false, prob 3), (false, prob 4)], 2)
  else if v = 3 then some ([(true, prob 2), (false, prob 3), (true, prob 4), (false, prob 5)], 2)
  else if v = 4 then some ([(true, prob 2), (false, prob 3), (true, prob 4), (true, prob 5)], 2)
  else if v < tokenDecoder1.1 then
    some ([(true, prob 2), (true, prob 3), (false, prob 6), (false, prob 7), (v == 6, 159)], 2)
  else if v < upperLimit tokenDecoder1 then do
    let t ← tokenEncode tokenDecoder1 v
    pure ((true, prob 2) :: (true, prob 3) :: (false, prob 6) :: (true, prob 7) :: t, 2)
  else if v < upperLimit tokenDecoder2 then do
    let t ← tokenEncode tokenDecoder2 v
    pure ((true, prob 2) :: (true, prob 3) :: (true, prob 6) :: (false, prob 8) :: (false, prob 9) :: t, 2)
  else if v < upperLimit tokenDecoder3 then do
    let t ← tokenEncode tokenDecoder3 v
    pure ((true, prob 2) :: (true, prob 3) :: (true, prob 6) :: (false, prob 8) :: (true, prob 9) :: t, 2)
  else if v < upperLimit tokenDecoder4 then do
    let t ← tokenEncode tokenDecoder4 v
    pure ((true, prob 2) :: (true, prob 3) :: (true, prob 6) :: (true, prob 8) :: (false, prob 10) :: t, 2)
  else if v < upperLimit tokenDecoder5 then do
    let t ← tokenEncode tokenDecoder5 v
    pure ((true, prob 2) :: (true, prob 3) :: (true, prob 6) :: (true, prob 8) :: (true, prob 10) :: t, 2)
  else none

/-- The end-of-block check, not made after a zero token (src/decoder/tokens.cc:65-70). -/
def readMore (lastWasZero : Bool) (p : Prob) : Parser Bool := if lastWasZero then pure true else getBit p

/-- The loop of `Block::parse_tokens` (src/decoder/tokens.cc:61-134) over the remaining coefficient indices. -/
def readCoeffs (probs : Fin 8 → Fin 3 → Fin 11 → Prob) : List (Fin 16) → Bool → Fin 3 → Block → Parser Block
  | [], _, _, blk => pure blk
  | idx :: rest, lastWasZero, ctx, blk => do
    let prob := probs (coefficientToBand idx) ctx
    let more ← readMore lastWasZero (prob 0)
    if !more then pure blk
    else
      let nonzero ← getBit (prob 1)
      if !nonzero then readCoeffs probs rest true 0 blk
      else
        let (v, ctx') ← readMagnitude prob
        let s ← getBit
        readCoeffs probs rest false ctx'
          { coeffs := Function.update blk.coeffs (zigzag idx) (if s then -(v : Int) else (v : Int)), hasNonzero := true }

/-- The coefficient indices from `n` on. -/
def indicesFrom (n : Nat) : List (Fin 16) := (List.finRange 16).drop n

/-- The starting context: how many of the neighbouring blocks have a nonzero coefficient
(src/decoder/tokens.cc:58-59, src/encoder/serializer.cc:614-615). -/
def tokenContext (above left : Option Bool) : Fin 3 :=
  match above.getD false, left.getD false with
  | true, true => 2
  | false, false => 0
  | _, _ => 1

/-- `Block::parse_tokens` (src/decoder/tokens.cc:50-135) on a block. -/
def parseTokens (probs : CoeffProbs) (type : BlockType) (above left : Option Bool) (blk : Block) : Parser Block :=
  readCoeffs (probs type.index) (indicesFrom type.first) false (tokenContext above left) blk

/-- `coded_length` (src/encoder/serializer.cc:600-609). -/
def codedLength (type : BlockType) (c : Fin 16 → Int) : Nat :=
  (indicesFrom type.first).foldl (fun acc i => if c (zigzag i) ≠ 0 then i.val + 1 else acc) 0

/-- The loop of `Block::serialize_tokens` (src/encoder/serializer.cc:619-728); returns the bits, the final
`last_was_zero` and the final context. -/
def writeCoeffs (probs : Fin 8 → Fin 3 → Fin 11 → Prob) (c : Fin 16 → Int) :
    List (Fin 16) → Bool → Fin 3 → Option (Bits × Bool × Fin 3)
  | [], lz, ctx => some ([], lz, ctx)
  | idx :: rest, lz, ctx => do
    let coefficient := c (zigzag idx)
    let v := coefficient.natAbs
    let prob := probs (coefficientToBand idx) ctx
    let start : Bits := if lz then [] else [(true, prob 0)]
    if v = 0 then
      let (r, lz', ctx') ← writeCoeffs probs c rest true 0
      pure (start ++ (false, prob 1) :: r, lz', ctx')
    else
      let (m, ctx1) ← writeMagnitude prob v
      let (r, lz', ctx') ← writeCoeffs probs c rest false ctx1
      pure (start ++ (true, prob 1) :: (m ++ (decide (coefficient < 0), 128) :: r), lz', ctx')

/-- `Block::serialize_tokens` (src/encoder/serializer.cc:595-739); `none` when a value is too large or the assertion at
line 730 fails. -/
def serializeTokens (probs : CoeffProbs) (type : BlockType) (above left : Option Bool) (blk : Block) : Option Bits := do
  let len := codedLength type blk.coeffs
  let todo := (indicesFrom type.first).filter (fun i => decide (i.val < len))
  let (bits, lz, ctx) ← writeCoeffs (probs type.index) blk.coeffs todo false (tokenContext above left)
  if lz then none
  else if h : len < 16 then
    let index : Fin 16 := ⟨max type.first len, by cases type <;> simp only [BlockType.first] <;> omega⟩
    pure (bits ++ [(false, probs type.index (coefficientToBand index) ctx 0)])
  else pure bits

end Alfalfa
