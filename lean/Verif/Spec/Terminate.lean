import Verif.Spec.Frame
import Verif.Model.Decoder

/-! Lengths of the parts of a frame. -/

namespace Alfalfa

/-- The parts of every frame of this kind and size that the format can carry are short enough for the length fields of the container: 19 bits for
the first partition and 24 for the others. -/
def LengthsFit {H : Type} (K : FrameKind H) (ok : Frame H → Prop) (width height : Nat) : Prop :=
  ∀ f t, ok f → f.width = width → f.height = height →
    (∀ b, K.serializeFirst t f = some b → b.length < 2 ^ 19) ∧ (∀ bs, K.serializeTokens t f = some bs → ∀ b ∈ bs, b.length < 2 ^ 24)

/-- The picture of a frame does not depend on where it is to be kept. -/
def Renderer.IgnoresDestination (R : Renderer) : Prop :=
  ∀ seg filter refs (p : ParsedFrame InterFrameHeader) golden alternate last copyGolden copyAlternate,
    R.inter seg filter refs { p with frame := { p.frame with header := { p.frame.header with
      refreshGoldenFrame := golden, refreshAlternateFrame := alternate, refreshLast := last, copyBufferToGolden := copyGolden,
      copyBufferToAlternate := copyAlternate } } } = R.inter seg filter refs p

/-- The three reference pictures are the same. -/
def References.Converged (r : References) : Prop := r.golden = r.last ∧ r.alternative = r.last

end Alfalfa
