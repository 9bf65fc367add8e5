import Verif.Model.Bundle
import Verif.Props.Ivf

/-! What someone who plays the chunks of a video should see. -/

namespace Alfalfa

/-- A chunk: what the header of its file says, and its frames. -/
abbrev Chunk := IvfInfo × List (List UInt8)

/-- The bytes are a file of this chunk. -/
def Chunk.InFile (c : Chunk) (bytes : List UInt8) : Prop := ∃ ivf, IVF.open bytes = .ok ivf ∧ ivf.Holds c.1 c.2

/-- All frames of the chunks, in order. -/
def allFrames (chunks : List Chunk) : List (List UInt8) := (chunks.map (·.2)).flatten

/-- A chunk goes with a decoder if it names no state, or the state of this decoder. -/
def Chunk.GoesWith (mix : Nat → Nat → Nat) (c : Chunk) (d : Decoder) : Prop := c.1.expectedMinihash = 0 ∨ c.1.expectedMinihash = d.minihash mix

/-- Each chunk goes with a decoder that was given all the frames of the chunks before it. -/
def FollowOn (R : Renderer) (mix : Nat → Nat → Nat) (d : Decoder) (chunks : List Chunk) : Prop :=
  ∀ before c after, chunks = before ++ c :: after → c.GoesWith mix (d.run R (allFrames before)).1

/-- From the outcomes of decoding frames one after another: the pictures to be shown, up to the first frame that cannot be decoded, and what is wrong
with it. -/
def projected : List (Except FrameError (Bool × Raster)) → List Raster × Option FrameError
  | [] => ([], none)
  | .error e :: _ => ([], some e)
  | .ok (shown, r) :: rest => ((if shown then [r] else []) ++ (projected rest).1, (projected rest).2)

/-- The decoder with which playback begins: a new one of the size of the first chunk, or the one of the state file, which must be of that size. -/
def BeginsWith (fresh : References) (start : Option (Raster × List UInt8)) (width height : Nat) (d : Decoder) : Prop :=
  match start with
  | none => d = Decoder.new fresh width height
  | some (blank, bytes) => loadDecoder blank bytes = some d ∧ d.state.width = width ∧ d.state.height = height

/-- A raw-video file: a header for pictures of this size, and pictures. -/
def projection (width height : Nat) (pictures : List Raster) : List UInt8 :=
  Y4MHeader.text { width, height, fpsNumerator := 24, fpsDenominator := 1, aspectNumerator := 1, aspectDenominator := 1 } ++ pictures.flatMap y4mFrame

/-- Names, one in each line. -/
def lines (names : List (List UInt8)) : List UInt8 := names.flatMap (· ++ [10])

end Alfalfa
