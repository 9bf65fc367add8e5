import Verif.Model.Ivf
import Verif.Model.DecoderState

/-! The small programs that work on IVF files: `ivfcopy`, `ivfcompare`, `extract-key-frames`, `roundtrip` (src/tests/) and `xc-framesize` (src/frontend/).

Not modelled: the command line, opening and creating the files, messages, and how `xc-framesize` pads its numbers.  An exception that nobody catches ends the program;
it is an error like the others. -/

namespace Alfalfa

/-- `ivfcopy` (src/tests/ivfcopy.cc:41-51): the file that it writes. -/
def ivfCopy (file : List UInt8) : Except FrameError (List UInt8) := do
  let old ← IVF.open file
  let w ← IVFWriter.create old.fourcc old.width old.height old.frameRate old.timeScale
  let w ← copyFrames old w old.frameCount 0
  pure w.file

/-- The loop of `ivfcompare` (src/tests/ivfcompare.cc:52-54): `n` frames from `i` on. -/
def compareFrames (a b : IVF) : (n i : Nat) → Except FrameError Bool
  | 0, _ => .ok true
  | n + 1, i => do
    let f ← a.frame i
    let g ← b.frame i
    if f ≠ g then pure false else compareFrames a b n (i + 1)

/-- `ivfcompare` (src/tests/ivfcompare.cc:41-56): whether it reports success. -/
def ivfCompare (original copy : List UInt8) : Except FrameError Bool := do
  let a ← IVF.open original
  let b ← IVF.open copy
  if a.fourcc ≠ b.fourcc then pure false
  else if a.width ≠ b.width then pure false
  else if a.height ≠ b.height then pure false
  else if a.frameRate ≠ b.frameRate then pure false
  else if a.timeScale ≠ b.timeScale then pure false
  else if a.frameCount ≠ b.frameCount then pure false
  else compareFrames a b a.frameCount 0

/-- The header that `extract-key-frames` and `roundtrip` write (src/tests/extract-key-frames.cc:65-77, src/tests/roundtrip.cc:75-87). -/
def bareHeader (width height count : Nat) : List UInt8 :=
  let signature : List UInt8 := [0x44, 0x4b, 0x49, 0x46]
  let version : List UInt8 := [0, 0]
  let headerLength : List UInt8 := [32, 0]
  let fourcc : List UInt8 := [0x56, 0x50, 0x38, 0x30]
  let width : List UInt8 := [UInt8.ofNat (width &&& 0xff), UInt8.ofNat ((width >>> 8) &&& 0xff)]
  let height : List UInt8 := [UInt8.ofNat (height &&& 0xff), UInt8.ofNat ((height >>> 8) &&& 0xff)]
  let frameRate : List UInt8 := [1, 0, 0, 0]
  let timeScale : List UInt8 := [1, 0, 0, 0]
  let fill : List UInt8 := [0, 0, 0, 0]
  signature ++ version ++ headerLength ++ fourcc ++ width ++ height ++ frameRate ++ timeScale ++ leBytes 4 count ++ fill

/-- A frame as they write it (src/tests/extract-key-frames.cc:82-88, src/tests/roundtrip.cc:114-122). -/
def bareFrame (f : List UInt8) : List UInt8 := leBytes 4 f.length ++ [0, 0, 0, 0] ++ [0, 0, 0, 0] ++ f

/-- The first loop of `extract-key-frames` (src/tests/extract-key-frames.cc:54-60): the numbers of the key frames among `n` frames from `i` on. -/
def keyFrameNumbers (ivf : IVF) : (n i : Nat) → Except FrameError (List Nat)
  | 0, _ => .ok []
  | n + 1, i => do
    let chunk ← splitFrame (← ivf.frame i) ivf.width ivf.height false
    let rest ← keyFrameNumbers ivf n (i + 1)
    pure (if chunk.keyFrame then i :: rest else rest)

/-- The second loop (src/tests/extract-key-frames.cc:79-89). -/
def writeNumbered (ivf : IVF) : List Nat → Except FrameError (List UInt8)
  | [] => .ok []
  | i :: rest => do
    let frame ← ivf.frame i
    let more ← writeNumbered ivf rest
    pure (bareFrame frame ++ more)

/-- `extract-key-frames` (src/tests/extract-key-frames.cc:43-89): what it writes. -/
def extractKeyFrames (file : List UInt8) : Except FrameError (List UInt8) := do
  let ivf ← IVF.open file
  if ivf.fourcc ≠ [0x56, 0x50, 0x38, 0x30] then throw .unsupported
  let numbers ← keyFrameNumbers ivf ivf.frameCount 0
  let body ← writeNumbered ivf numbers
  pure (bareHeader ivf.width ivf.height numbers.length ++ body)

/-- Reading a frame and writing it again in `roundtrip` (src/tests/roundtrip.cc:92-100): the tables are those after the frame. -/
def rewriteFrame (width height : Nat) (st : DecoderState) (frame : List UInt8) : Except FrameError (DecoderState × List UInt8) := do
  let whole ← splitFrame frame width height false
  if whole.keyFrame then
    match st.applyKey whole with
    | (_, .error e) => throw e
    | (st, .ok p) =>
      match keyKind.serialize st.tables p.frame with
      | none => throw .internal
      | some out => pure (st, out)
  else
    match st.applyInter whole with
    | (_, .error e) => throw e
    | (st, .ok p) =>
      match interKind.serialize st.tables p.frame with
      | none => throw .internal
      | some out => pure (st, out)

/-- The loop of `roundtrip` (src/tests/roundtrip.cc:89-123): `n` frames from `i` on.  The sizes are compared and then each byte. -/
def roundtripLoop (ivf : IVF) : (n i : Nat) → DecoderState → Except FrameError (List UInt8)
  | 0, _, _ => .ok []
  | n + 1, i, st => do
    let frame ← ivf.frame i
    let (st, out) ← rewriteFrame ivf.width ivf.height st frame
    if frame ≠ out then throw .internal
    else do
      let rest ← roundtripLoop ivf n (i + 1) st
      pure (bareFrame out ++ rest)

/-- `roundtrip` (src/tests/roundtrip.cc:43-123): what it writes; `initial` is the state of the decoder in the second file, if there is one. -/
def roundtrip (initial : Option DecoderState) (file : List UInt8) : Except FrameError (List UInt8) := do
  let ivf ← IVF.open file
  if ivf.fourcc ≠ [0x56, 0x50, 0x38, 0x30] then throw .unsupported
  let body ← roundtripLoop ivf ivf.frameCount 0 (initial.getD { width := ivf.width, height := ivf.height })
  pure (bareHeader ivf.width ivf.height ivf.frameCount ++ body)

/-- The loop of `xc-framesize` (src/frontend/xc-framesize.cc:55-57): `n` frames from `i` on, their numbers and sizes. -/
def frameSizes (ivf : IVF) : (n i : Nat) → Except FrameError (List (Nat × Nat))
  | 0, _ => .ok []
  | n + 1, i => do
    let f ← ivf.frame i
    let rest ← frameSizes ivf n (i + 1)
    pure ((i, f.length) :: rest)

/-- `xc-framesize` (src/frontend/xc-framesize.cc:53-59): the numbers that it prints, those of the frames and the total, which is the size of the file. -/
def xcFramesize (file : List UInt8) : Except FrameError (List (Nat × Nat) × Nat) := do
  let ivf ← IVF.open file
  let sizes ← frameSizes ivf ivf.frameCount 0
  pure (sizes, ivf.file.length)

end Alfalfa
