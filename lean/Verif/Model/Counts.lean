import Verif.Model.Frame
import Verif.Model.Choices

/-! How the encoder counts the branches of the token tree, from which it estimates the probabilities that it sends (src/encoder/serializer.cc:455-593).

The counters are natural numbers; that they fit into `uint32_t` is part of C95.  The macroblocks are counted one by one while a picture is coded (src/encoder/encode_intra.cc:434,
src/encoder/encode_inter.cc:634); what is read of the macroblocks above and to the left is final by then, so the model counts them in the finished frame. -/

namespace Alfalfa

/-- `count.at( node ).first++` or `.second++`. -/
def BranchCounts.bump (n : BranchCounts) (type : Fin 4) (band : Fin 8) (context : Fin 3) (node : Fin 11) (bit : Bool) : BranchCounts :=
  Function.update n type (Function.update (n type) band (Function.update (n type band) context (Function.update (n type band context) node
    (let x := n type band context node
     if bit then (x.1, x.2 + 1) else (x.1 + 1, x.2)))))

/-- The branches for a value that is not zero, and the next context (src/encoder/serializer.cc:495-563); `none` is the error "value too large". -/
def magnitudeBranches (v : Nat) : Option (List (Fin 11 × Bool) × Fin 3) :=
  if v = 1 then some ([(2, false)], 1)
  else if v = 2 then some ([(2, true), (3, false), (4, false)], 2)
  else if v = 3 then some ([(2, true), (3, false), (4, true), (5, false)], 2)
  else if v = 4 then some ([(2, true), (3, false), (4, true), (5, true)], 2)
  else if v < tokenDecoder1.1 then some ([(2, true), (3, true), (6, false), (7, false)], 2)
  else if v < upperLimit tokenDecoder1 then some ([(2, true), (3, true), (6, false), (7, true)], 2)
  else if v < upperLimit tokenDecoder2 then some ([(2, true), (3, true), (6, true), (8, false), (9, false)], 2)
  else if v < upperLimit tokenDecoder3 then some ([(2, true), (3, true), (6, true), (8, false), (9, true)], 2)
  else if v < upperLimit tokenDecoder4 then some ([(2, true), (3, true), (6, true), (8, true), (10, false)], 2)
  else if v < upperLimit tokenDecoder5 then some ([(2, true), (3, true), (6, true), (8, true), (10, true)], 2)
  else none

/-- The loop over the coefficients (src/encoder/serializer.cc:478-566): the counters, `last_was_zero` and the context. -/
def countCoeffs (type : Fin 4) (c : Fin 16 → Int) : List (Fin 16) → Bool → Fin 3 → BranchCounts → Option (BranchCounts × Bool × Fin 3)
  | [], lz, ctx, n => some (n, lz, ctx)
  | idx :: rest, lz, ctx, n =>
    let v := (c (zigzag idx)).natAbs
    let band := coefficientToBand idx
    let n := if lz then n else n.bump type band ctx 0 true
    if v = 0 then countCoeffs type c rest true 0 (n.bump type band ctx 1 false)
    else
      match magnitudeBranches v with
      | none => none
      | some (l, ctx1) => countCoeffs type c rest false ctx1 (l.foldl (fun n x => n.bump type band ctx x.1 x.2) (n.bump type band ctx 1 true))

/-- `accumulate_token_branches` of a block (src/encoder/serializer.cc:455-577); `none` if an assertion fails or a value is too large. -/
def countTokens (type : BlockType) (above left : Option Bool) (blk : Block) (n : BranchCounts) : Option BranchCounts := do
  let len := codedLength type blk.coeffs
  let todo := (indicesFrom type.first).filter (fun i => decide (i.val < len))
  let (n, lz, ctx) ← countCoeffs type.index blk.coeffs todo false (tokenContext above left) n
  if lz then none
  else if h : len < 16 then
    let index : Fin 16 := ⟨max type.first len, by cases type <;> simp only [BlockType.first] <;> omega⟩
    pure (n.bump type.index (coefficientToBand index) ctx 0 false)
  else pure n

/-- The four U (or V) blocks (src/encoder/serializer.cc:585-586). -/
def countChroma (above left : Option (Fin 4 → Block)) (b : Fin 4 → Block) (n : BranchCounts) : Option BranchCounts := do
  let n ← countTokens .uv (above.map fun b => (b 2).hasNonzero) (left.map fun b => (b 1).hasNonzero) (b 0) n
  let n ← countTokens .uv (above.map fun b => (b 3).hasNonzero) (some (b 0).hasNonzero) (b 1) n
  let n ← countTokens .uv (some (b 0).hasNonzero) (left.map fun b => (b 3).hasNonzero) (b 2) n
  countTokens .uv (some (b 1).hasNonzero) (some (b 2).hasNonzero) (b 3) n

/-- `Macroblock::accumulate_token_branches` (src/encoder/serializer.cc:581-587): neither is the Y2 block counted nor is it asked whether the macroblock is skipped. -/
def countResidue (m : MBModes) (above left : Option Residue) (r : Residue) (n : BranchCounts) : Option BranchCounts := do
  let n ← (List.finRange 16).foldlM (fun n i =>
    countTokens m.yType ((aboveOf r.y (above.map (·.y)) i).map (·.hasNonzero)) ((leftOf r.y (left.map (·.y)) i).map (·.hasNonzero)) (r.y i) n) n
  let n ← countChroma (above.map (·.u)) (left.map (·.u)) r.u n
  countChroma (above.map (·.v)) (left.map (·.v)) r.v n

/-- The macroblocks of a frame from number `k` on (src/encoder/encode_intra.cc:421-436, src/encoder/encode_inter.cc:600-636). -/
def countResidues (w : Nat) (all : List Residue) : Nat → List MBModes → List Residue → BranchCounts → Option BranchCounts
  | k, m :: ms, r :: rs, n => (countResidue m (gridAbove w all k) (gridLeft w all k) r n).bind (countResidues w all (k + 1) ms rs)
  | _, _, _, n => some n

/-- The counters when a picture is coded; they start with zeros. -/
def frameCounts {H : Type} (f : Frame H) : Option BranchCounts :=
  countResidues (macroblockDimension f.width) f.residues 0 f.modes f.residues fun _ _ _ _ => (0, 0)

end Alfalfa
