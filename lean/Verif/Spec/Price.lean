import Verif.Model.Costs

/-! What bits cost. -/

namespace Alfalfa

/-- The price of a bit that is zero with the probability `p / 256`: the entry of the table for `p` if it is zero, and that for `255 - p` if it is one.
(Which number that is, is the subject of `C82_bits`.) -/
def bitPrice (x : Bool × Prob) : Nat := probCost.getD (if x.1 then 255 - x.2.toNat else x.2.toNat) 0

/-- The price of some bits is the sum of their prices. -/
def price (bits : Bits) : Nat := (bits.map bitPrice).sum

/-- The square of the error at the `i`-th place in the order of the tokens, when the coefficients `chosen` stand for `original`. -/
def loss (dc ac : Nat) (original chosen : Fin 16 → Int) (i : Fin 16) : Nat :=
  (original (zigzag i) - chosen (zigzag i) * ((if i = 0 then dc else ac : Nat) : Int)).natAbs ^ 2

/-- What the search starts with: a value as it is, or one step towards zero. -/
def lowered (p : Int) (i : Fin 2) : Int := if i = 0 then p else p - p.sign

/-- The sum of the squares at some places. -/
def losses (dc ac : Nat) (original chosen : Fin 16 → Int) (places : List (Fin 16)) : Nat := (places.map (loss dc ac original chosen)).sum

/-- The places whose errors the search counts: those up to the place after the last coefficient that is kept, without those after the last coefficient of the original. -/
def countedPlaces (type : BlockType) (original chosen : Fin 16 → Int) : List (Fin 16) :=
  (indicesFrom type.first).filter fun i => decide (i.val < codedLength type original ∧ i.val ≤ max type.first (codedLength type chosen))

/-- The rows of a type of block hold the costs for some probabilities. -/
def RowsOf (probs : CoeffProbs) (type : BlockType) (token : Fin 8 → Fin 3 → List Nat) : Prop :=
  ∀ band ctx, fillTokenCosts probs type.index band ctx (List.replicate 12 0) = some (token band ctx)

end Alfalfa
