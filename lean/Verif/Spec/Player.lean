import Verif.Model.Decoder

/-! What someone watching a stream should see. -/

namespace Alfalfa

/-- From the outcomes of decoding the frames of a stream one after another: the pictures of the frames that are to be shown, in order, up to the
first frame that cannot be decoded, and what goes wrong, if anything.  A stream that ends with a hidden frame is an error too: a
picture was asked for and there is none. -/
def reel : List (Except FrameError (Bool × Raster)) → List Raster × Option FrameError
  | [] => ([], none)
  | [.ok (false, _)] => ([], some .unsupported)
  | .error e :: _ => ([], some e)
  | .ok (true, r) :: rest => (r :: (reel rest).1, (reel rest).2)
  | .ok (false, _) :: rest => reel rest

/-- The frame is a key frame as far as its first byte says. -/
def SaysKey (f : List UInt8) : Prop := ∃ b, f.head? = some b ∧ b.toNat % 2 = 0

end Alfalfa
