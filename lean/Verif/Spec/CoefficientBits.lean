import Verif.Spec.Frame
import Verif.Spec.ModeBits
import Mathlib.Data.List.DropRight

/-! The bits of the coefficients of a macroblock as the format gives them (RFC 6386, section 13): tokens with written-out
code words, the zigzag scan as a walk along diagonals, trailing zeros removed.  It shares with the model of the code only the
types of blocks and macroblocks. -/

namespace Alfalfa.CoefficientSpec

open ModeSpec (o l blockAbove blockLeft)

/-- The places of a four by four block, `4 * row + column`, diagonal by diagonal: down the odd ones and up the even ones. -/
def scan : List (Fin 16) :=
  (List.range 7).flatMap fun d =>
    let places := (List.range 4).filterMap fun row => if row ≤ d ∧ d - row < 4 then some (Fin.ofNat 16 (4 * row + (d - row))) else none
    if d % 2 = 1 then places else places.reverse

/-- The band of the `n`-th place of the scan. -/
def band (n : Nat) : Fin 8 :=
  if n = 0 then 0 else if n = 1 then 1 else if n = 2 then 2 else if n = 3 then 3 else if n = 5 then 4 else if n = 6 then 5
  else if n < 15 then 6 else 7

/-- The code word of a magnitude: 0 to 4 have their own tokens, larger ones are in six categories. -/
def token (v : Nat) : List (Bool × Nat) :=
  if v = 0 then [l 0, o 1]
  else if v = 1 then [l 0, l 1, o 2]
  else if v = 2 then [l 0, l 1, l 2, o 3, o 4]
  else if v = 3 then [l 0, l 1, l 2, o 3, l 4, o 5]
  else if v = 4 then [l 0, l 1, l 2, o 3, l 4, l 5]
  else if v < 7 then [l 0, l 1, l 2, l 3, o 6, o 7]
  else if v < 11 then [l 0, l 1, l 2, l 3, o 6, l 7]
  else if v < 19 then [l 0, l 1, l 2, l 3, l 6, o 8, o 9]
  else if v < 35 then [l 0, l 1, l 2, l 3, l 6, o 8, l 9]
  else if v < 67 then [l 0, l 1, l 2, l 3, l 6, l 8, o 10]
  else [l 0, l 1, l 2, l 3, l 6, l 8, l 10]

/-- The smallest magnitude of its category, and the probabilities of the bits that tell the magnitudes apart. -/
def category (v : Nat) : Nat × List Prob :=
  if v < 7 then (5, [159])
  else if v < 11 then (7, [165, 145])
  else if v < 19 then (11, [173, 148, 140])
  else if v < 35 then (19, [176, 155, 140, 135])
  else if v < 67 then (35, [180, 157, 141, 134, 130])
  else (67, [254, 254, 243, 230, 196, 177, 153, 140, 133, 130, 129])

/-- Those bits, the highest first. -/
def extra (v : Nat) : Bits :=
  if v < 5 then []
  else (List.range (category v).2.length).map fun i =>
    ((v - (category v).1).testBit ((category v).2.length - 1 - i), (category v).2.getD i 0)

/-- The context of the coefficient after this one. -/
def contextAfter (v : Int) : Fin 3 := if v = 0 then 0 else if v.natAbs = 1 then 1 else 2

/-- The coefficients from the `n`-th place on, up to the last one that is not zero, and the end of the block if there are
places left.  After a zero the end cannot come, and the bit that would say so is left out. -/
def tokens (probs : Fin 8 → Fin 3 → Fin 11 → Prob) : Nat → Fin 3 → Bool → List Int → Bits
  | n, ctx, _, [] => if n < 16 then [(false, probs (band n) ctx 0)] else []
  | n, ctx, afterZero, v :: rest =>
    ((token v.natAbs).drop (if afterZero then 1 else 0)).map (fun x => (x.1, probs (band n) ctx (Fin.ofNat 11 x.2))) ++
    extra v.natAbs ++ (if v = 0 then [] else [(decide (v < 0), 128)]) ++
    tokens probs (n + 1) (contextAfter v) (decide (v = 0)) rest

/-- The four sets of probabilities. -/
def plane : BlockType → Fin 4
  | .yAfterY2 => 0 | .y2 => 1 | .uv => 2 | .yWithoutY2 => 3

/-- Blocks whose first coefficient is in the Y2 block begin with the second. -/
def start : BlockType → Nat
  | .yAfterY2 => 1 | .y2 => 0 | .uv => 0 | .yWithoutY2 => 0

/-- One block.  The first context is how many of the blocks above and to the left have coefficients. -/
def blockBits (probs : CoeffProbs) (type : BlockType) (above left : Bool) (c : Fin 16 → Int) : Bits :=
  tokens (probs (plane type)) (start type) (Fin.ofNat 3 (above.toNat + left.toNat)) false
    (((scan.drop (start type)).map c).rdropWhile (· = 0))

/-- The value above or to the left of a chroma block, of which there are four. -/
def chromaAbove (own : Fin 4 → Bool) (above : Option (Fin 4 → Bool)) (i : Fin 4) : Bool :=
  if i.val / 2 = 0 then (above.map fun f => f (Fin.ofNat 4 (2 + i.val % 2))).getD false else own (Fin.ofNat 4 (i.val % 2))

@[inherit_doc chromaAbove]
def chromaLeft (own : Fin 4 → Bool) (left : Option (Fin 4 → Bool)) (i : Fin 4) : Bool :=
  if i.val % 2 = 0 then (left.map fun f => f (Fin.ofNat 4 (2 * (i.val / 2) + 1))).getD false else own (Fin.ofNat 4 (2 * (i.val / 2)))

/-- The blocks of one chroma plane, in raster order. -/
def chromaBits (probs : CoeffProbs) (above left : Option (Fin 4 → Bool)) (b : Fin 4 → Block) : Bits :=
  (List.finRange 4).flatMap fun i =>
    blockBits probs .uv (chromaAbove (fun j => (b j).hasNonzero) above i) (chromaLeft (fun j => (b j).hasNonzero) left i) (b i).coeffs

/-- A macroblock: nothing when it says that it has no coefficients; else the Y2 block, unless the mode has none, then luma
and the two chroma planes, each in raster order.  `y2Above` and `y2Left` are for the nearest Y2 blocks. -/
def residueBits (probs : CoeffProbs) (m : MBModes) (y2Above y2Left : Bool) (above left : Option Residue) (r : Residue) : Bits :=
  if m.skip = some true then []
  else
    let withY2 := m.yMode ≠ B_PRED ∧ m.yMode ≠ SPLITMV
    let flag (f : Fin 16 → Block) (i : Fin 16) : Bool := (f i).hasNonzero
    let a := above.map fun n => flag n.y
    let b := left.map fun n => flag n.y
    (if withY2 then blockBits probs .y2 y2Above y2Left r.y2.coeffs else []) ++
    ((List.finRange 16).flatMap fun i => blockBits probs (if withY2 then .yAfterY2 else .yWithoutY2)
      (blockAbove (flag r.y) a b false i) (blockLeft (flag r.y) a b false i) (r.y i).coeffs) ++
    chromaBits probs (above.map fun n j => (n.u j).hasNonzero) (left.map fun n j => (n.u j).hasNonzero) r.u ++
    chromaBits probs (above.map fun n j => (n.v j).hasNonzero) (left.map fun n j => (n.v j).hasNonzero) r.v

end Alfalfa.CoefficientSpec
