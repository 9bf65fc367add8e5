import Verif.Model.Parser

/-! What it means that a piece of bitstream round-trips, in terms of bytes and of the coder's public interface only. -/

namespace Alfalfa

/-- Writing `pre`, then `bits`, then `post` with one arithmetic encoder succeeds; a decoder opened on the bytes that
has consumed `pre` then reads `x` with `p`, and what it reads next (with the probabilities of `post`) is `post`:
`p` consumed exactly `bits`. -/
def RoundTrips {α : Type} (p : Parser α) (bits : Bits) (x : α) : Prop :=
  ∀ pre post : Bits, ∃ bytes d', encodeBits (pre ++ bits ++ post) = some bytes ∧
    p ((pre.map Prod.snd).foldl (fun d q => (d.get q).2) (BoolDecoder.init bytes)) = some (x, d') ∧
    d'.getAll (post.map Prod.snd) = post.map Prod.fst

end Alfalfa
