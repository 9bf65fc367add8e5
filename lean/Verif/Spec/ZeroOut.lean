import Verif.Model.DecoderState
import Verif.Model.Container

/-! What a decoder reads in a sequence of frames, and what it reads when the coefficients of the inter frames are gone. -/

namespace Alfalfa

/-- A frame of either kind, as it was read. -/
inductive ReadFrame where
  | key (p : ParsedFrame KeyFrameHeader)
  | inter (p : ParsedFrame InterFrameHeader)

/-- What a decoder with the state `st` reads in a compressed frame, and its state then. -/
def readFrame (st : DecoderState) (bytes : List UInt8) : Option (DecoderState × ReadFrame) :=
  match splitFrame bytes st.width st.height false with
  | .error _ => none
  | .ok c =>
    if c.keyFrame then
      match st.applyKey c with
      | (_, .error _) => none
      | (st, .ok p) => some (st, .key p)
    else
      match st.applyInter c with
      | (_, .error _) => none
      | (st, .ok p) => some (st, .inter p)

/-- What it reads in one frame after the other. -/
inductive ReadsFrames : DecoderState → List (List UInt8) → List ReadFrame → DecoderState → Prop where
  | nil (st) : ReadsFrames st [] [] st
  | cons {st st' st'' bytes x rest xs} : readFrame st bytes = some (st', x) → ReadsFrames st' rest xs st'' → ReadsFrames st (bytes :: rest) (x :: xs) st''

/-- The same frame without coefficients, when it is an inter frame: every macroblock is marked as having none, and has none. -/
def ReadFrame.withoutResidue : ReadFrame → ReadFrame
  | .key p => .key p
  | .inter p => .inter { p with frame := { p.frame with
      modes := p.frame.modes.map fun m => { m with skip := some true }
      residues := p.frame.residues.map fun _ => {} } }

/-- Its macroblocks can be marked as having no coefficients. -/
def ReadFrame.Skips : ReadFrame → Prop
  | .key _ => True
  | .inter p => p.frame.header.probSkipFalse ≠ none

end Alfalfa
