import Verif.Model.Convert
import Verif.Model.SaveState

/-! Videos that are cut into chunks: the program that plays the chunks one after another (src/frontend/decode-bundle.cc), and the one that saves the state
of the decoder at a frame of a chunk (src/frontend/xc-dump.cc), from which the other can go on. -/

namespace Alfalfa

/-- How the programs end when they do not end well: in a file of frames, in the file of a decoder state, because the two are not for the same size (an
`assert`), because the hash of the state is not the one that the file names, or because there is no frame of this number. -/
inductive BundleError where
  | file (e : FrameError)
  | state
  | size
  | mismatch
  | frameNumber
deriving DecidableEq

/-- The names that the program reads from its standard input (src/frontend/decode-bundle.cc:58-64), with at most `n` rounds.  `getline` sets the end-of-file bit
if the input ends within a line, and `good()` is false then. -/
def bundleNames : (n : Nat) → List UInt8 → List (List UInt8)
  | 0, _ => []
  | n + 1, input => if (splitLine input).2.2 then [] else (splitLine input).1 :: bundleNames n (splitLine input).2.1

/-- The player for the first file (src/frontend/decode-bundle.cc:71-80).  `start` is the file of the starting state, with the picture that the pool gives to
the deserializer; `fresh` is what the pool gives to a new decoder. -/
def bundleStart (fresh : References) (start : Option (Raster × List UInt8)) (ivf : IVF) : Except BundleError Decoder :=
  match start with
  | none => .ok (Decoder.new fresh ivf.width ivf.height)
  | some (blank, bytes) =>
    match loadDecoder blank bytes with
    | none => .error .state
    | some d => if ivf.width ≠ d.state.width ∨ ivf.height ≠ d.state.height then .error .size else .ok d

/-- The loop over the frames of a file (src/frontend/decode-bundle.cc:94-99), with `n` frames from `k` on: the player afterwards, what is written and the exception,
if there is one. -/
def bundleFrames (R : Renderer) (ivf : IVF) : (n k : Nat) → Decoder → Decoder × List UInt8 × Option FrameError
  | 0, _, d => (d, [], none)
  | n + 1, k, d =>
    match ivf.frame k with
    | .error e => (d, [], some e)
    | .ok f =>
      match d.parseAndDecodeFrame R f with
      | (d, .error e) => (d, [], some e)
      | (d, .ok r) =>
        let rest := bundleFrames R ivf n (k + 1) d
        (rest.1, (r.map y4mFrame).getD [] ++ rest.2.1, rest.2.2)

/-- The loop over the files (src/frontend/decode-bundle.cc:66-101): what is written to standard output, and how the program fails, if it does.  What is written
to the standard error is not modelled. -/
def bundleLoop (R : Renderer) (mix : Nat → Nat → Nat) (fresh : References) (start : Option (Raster × List UInt8)) :
    List (Except FrameError (List UInt8)) → Option Decoder → List UInt8 × Option BundleError
  | [], _ => ([], none)
  | .error e :: _, _ => ([], some (.file e))
  | .ok bytes :: rest, player =>
    match IVF.open bytes with
    | .error e => ([], some (.file e))
    | .ok ivf =>
      match (match player with
        | some d => Except.ok (d, [])
        | none => (bundleStart fresh start ivf).map fun d => (d, (Y4MHeader.ofRaster d.references.last).text)) with
      | .error e => ([], some e)
      | .ok (d, header) =>
        if d.minihashMatch mix ivf.expectedMinihash = false then (header, some .mismatch)
        else
          match bundleFrames R ivf ivf.frameCount 0 d with
          | (_, out, some e) => (header ++ out, some (.file e))
          | (d, out, none) =>
            let more := bundleLoop R mix fresh start rest (some d)
            (header ++ out ++ more.1, more.2)

/-- The program (src/frontend/decode-bundle.cc:47-108).  `disk` gives the contents of the file of a name, or the exception of opening it. -/
def decodeBundle (R : Renderer) (mix : Nat → Nat → Nat) (fresh : References) (start : Option (Raster × List UInt8))
    (disk : List UInt8 → Except FrameError (List UInt8)) (input : List UInt8) : List UInt8 × Option BundleError :=
  bundleLoop R mix fresh start ((bundleNames (input.length + 1) input).map disk) none

/-- `parse_frame` and `decode_frame` (src/frontend/xc-dump.cc:119-128); the size that is given to the parser is the file's. -/
def dumpFrame (R : Renderer) (width height : Nat) (d : Decoder) (bytes : List UInt8) : Except FrameError Decoder :=
  match splitFrame bytes width height false with
  | .error e => .error e
  | .ok c =>
    if c.keyFrame then
      match d.state.applyKey c with
      | (_, .error e) => .error e
      | (st, .ok f) => .ok (Decoder.decodeKey R { d with state := st } f).1
    else
      match d.state.applyInter c with
      | (_, .error e) => .error e
      | (st, .ok f) => .ok (Decoder.decodeInter R { d with state := st } f).1

/-- The loop (src/frontend/xc-dump.cc:118-138), with `n` frames from `i` on. -/
def dumpLoop (R : Renderer) (ivf : IVF) (frameNumber : Nat) : (n i : Nat) → Decoder → Except BundleError (List UInt8)
  | 0, _, _ => .error .frameNumber
  | n + 1, i, d =>
    match ivf.frame i with
    | .error e => .error (.file e)
    | .ok f =>
      match dumpFrame R ivf.width ivf.height d f with
      | .error e => .error (.file e)
      | .ok d => if i = frameNumber then .ok (saveDecoder d) else dumpLoop R ivf frameNumber n (i + 1) d

/-- The decoder (src/frontend/xc-dump.cc:106-108). -/
def dumpStart (fresh : References) (start : Option (Raster × List UInt8)) (ivf : IVF) : Option Decoder :=
  match start with
  | none => some (Decoder.new fresh ivf.width ivf.height)
  | some (blank, state) => loadDecoder blank state

/-- The program (src/frontend/xc-dump.cc:104-138): the file it writes.  Without a frame number it is the last frame; `frame_count()` is a `uint32_t`. -/
def xcDump (R : Renderer) (mix : Nat → Nat → Nat) (fresh : References) (start : Option (Raster × List UInt8)) (bytes : List UInt8) (frameNumber : Option Nat) :
    Except BundleError (List UInt8) :=
  match IVF.open bytes with
  | .error e => .error (.file e)
  | .ok ivf =>
    match dumpStart fresh start ivf with
    | none => .error .state
    | some d =>
      if d.minihashMatch mix ivf.expectedMinihash = false then .error .mismatch
      else dumpLoop R ivf (frameNumber.getD ((ivf.frameCount + (2 ^ 32 - 1)) % 2 ^ 32)) ivf.frameCount 0 d

end Alfalfa
