import Verif.Model.Tokens

/-! What it means for a block of coefficients to be near another one. -/

namespace Alfalfa

/-- `v` is `p`, or one step from it towards zero. -/
def OneStep (p v : Int) : Prop := v = p ∨ (0 < p ∧ v = p - 1) ∨ (p < 0 ∧ v = p + 1)

/-- The coefficients of the tokens from `first` on, in the order in which they are sent, are at most one step from those of the plain
quantizer: also those that are given up are only ones and zeros. -/
structure NearPlain (first : Nat) (plain chosen : Fin 16 → Int) : Prop where
  tokens : ∀ i : Fin 16, first ≤ i.val → OneStep (plain (zigzag i)) (chosen (zigzag i))

end Alfalfa
