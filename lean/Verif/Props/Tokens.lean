import Verif.Proof.Tokens
import Verif.Proof.Tree

/-! # Coefficient blocks (C07, and the token part of C12) -/

namespace Alfalfa

/-- **C07.** Any block whose coefficients have magnitude at most 2114 (and whose DC is zero when its DC is carried by
the Y2 block) is written, for any type, neighbouring blocks and probabilities, and read back exactly. -/
theorem C07_token_round_trip (probs : CoeffProbs) (type : BlockType) (above left : Option Bool) (blk : Block)
    (h : blk.Representable type) :
    ∃ bits, serializeTokens probs type above left blk = some bits ∧ RoundTrips (parseTokens probs type above left {}) bits blk := by
  obtain ⟨bits, h1, h2⟩ := parses_tokens probs type above left blk h
  exact ⟨bits, h1, h2.roundTrips⟩

/-- **C07**, the bound is exact: a block with a coefficient of magnitude above 2114 is refused by the writer. -/
theorem C07_large_coefficient_is_refused (probs : CoeffProbs) (type : BlockType) (above left : Option Bool) (blk : Block)
    (i : Fin 16) (hi : blk.coeffs i < -2114 ∨ 2114 < blk.coeffs i) (hdc : type = .yAfterY2 → i ≠ 0) :
    serializeTokens probs type above left blk = none :=
  serializeTokens_large probs type above left blk i (by omega) hdc

/-- **C12**, for coefficients: whatever the bits and probabilities, reading a block succeeds and gives a block that
satisfies the bounds. -/
theorem C12_tokens_total (probs : CoeffProbs) (type : BlockType) (above left : Option Bool) (d : BoolDecoder) :
    ∃ blk d', parseTokens probs type above left {} d = some (blk, d') ∧ blk.Representable type :=
  produces_tokens probs type above left d

/-- A block with runs of zeros, both signs, every token category and a trailing zero run. -/
def exampleBlock : Block :=
  { coeffs := ![0, -1, 2, 3, -5, 9, 14, 0, 0, 40, -2114, 0, 0, 0, 70, 0], hasNonzero := true }

example : exampleBlock.Representable .yAfterY2 where
  magnitude := by decide +kernel
  dc := fun _ => by decide +kernel
  flag := by decide +kernel

example : ((serializeTokens (fun _ _ _ _ => 128) .yAfterY2 (some true) none exampleBlock).map List.length) = some 102 := by
  decide +kernel

end Alfalfa
