import Verif.Model.Container

/-! IVF files: `class IVF` (src/util/ivf.cc), `class IVFWriter` (src/util/ivf_writer.cc) and the merger (src/frontend/xc-merge.cc).

A file is the list of its bytes.  Not modelled: opening, mapping (an empty file cannot be mapped: the exception is another one than here), failures of
system calls, and the memory that the index takes.  Offsets are `uint64_t` in the code; they do not wrap for a file of less than 2^63 bytes, since each is
at most the size of the file, which was checked before, plus 2^32 + 12. -/

namespace Alfalfa

/-- `memcpy_le16`, `memcpy_le32` (src/util/ivf_writer.cc:43-53): the `k` bytes of a number, the lowest first; the parameters are `uint16_t` and `uint32_t`. -/
def leBytes : (k n : Nat) → List UInt8
  | 0, _ => []
  | k + 1, n => UInt8.ofNat n :: leBytes k (n / 256)

/-- `class IVF` (src/util/ivf.hh:38-69). -/
structure IVF where
  file : List UInt8
  fourcc : List UInt8
  width : Nat
  height : Nat
  frameRate : Nat
  timeScale : Nat
  frameCount : Nat
  expectedMinihash : Nat
  index : List (Nat × Nat)
deriving Repr, DecidableEq

/-- The loop that builds the index (src/util/ivf.cc:61-71): `n` frames from `position` on. -/
def ivfIndex (file : List UInt8) : (n position : Nat) → Except FrameError (List (Nat × Nat))
  | 0, _ => .ok []
  | n + 1, position => do
    let header ← subChunk file position 12
    let len := leValue (← subChunk header 0 4)
    let rest ← ivfIndex file n (position + 12 + len)
    pure ((position + 12, len) :: rest)

/-- The body of the constructor before its handler (src/util/ivf.cc:37-72).  `le32` of a chunk of twelve bytes reads the first four. -/
def IVF.openUnchecked (file : List UInt8) : Except FrameError IVF := do
  let header ← subChunk file 0 32
  let fourcc ← subChunk header 8 4
  let width := leValue (← subChunk header 12 2)
  let height := leValue (← subChunk header 14 2)
  let frameRate := leValue (← subChunk header 16 4)
  let timeScale := leValue (← subChunk header 20 4)
  let frameCount := leValue (← subChunk header 24 4)
  let expectedMinihash := leValue (← subChunk header 28 4)
  if (← subChunk header 0 4) ≠ [0x44, 0x4b, 0x49, 0x46] then .error .invalid
  else if leValue (← subChunk header 4 2) ≠ 0 then .error .unsupported
  else if leValue (← subChunk header 6 2) ≠ 32 then .error .unsupported
  else do
    let index ← ivfIndex file frameCount 32
    pure { file, fourcc, width, height, frameRate, timeScale, frameCount, expectedMinihash, index }

/-- `IVF::IVF` (src/util/ivf.cc:36-76): `out_of_range` becomes `Invalid`. -/
def IVF.open (file : List UInt8) : Except FrameError IVF :=
  match IVF.openUnchecked file with
  | .error .outOfRange => .error .invalid
  | r => r

/-- `IVF::frame` (src/util/ivf.cc:78-82). -/
def IVF.frame (ivf : IVF) (index : Nat) : Except FrameError (List UInt8) :=
  match ivf.index[index]? with
  | none => .error .outOfRange
  | some (offset, length) => subChunk ivf.file offset length

/-- `class IVFWriter` (src/util/ivf_writer.hh:33-65) and the file that it writes. -/
structure IVFWriter where
  file : List UInt8
  fileSize : Nat
  frameCount : Nat
  width : Nat
  height : Nat
deriving Repr, DecidableEq

/-- `IVFWriter::IVFWriter` (src/util/ivf_writer.cc:55-90) with an empty file. -/
def IVFWriter.create (fourcc : List UInt8) (width height frameRate timeScale : Nat) : Except FrameError IVFWriter :=
  if fourcc.length ≠ 4 then .error .internal
  else
    let header := [0x44, 0x4b, 0x49, 0x46] ++ leBytes 2 0 ++ leBytes 2 32 ++ fourcc ++ leBytes 2 width ++ leBytes 2 height ++ leBytes 4 frameRate ++
      leBytes 4 timeScale ++ leBytes 4 0 ++ leBytes 4 0
    .ok { file := header, fileSize := 32, frameCount := 0, width, height }

/-- Writing to the file through the mapping of its header (src/util/ivf_writer.cc:94-98, 140). -/
def patch (file : List UInt8) (offset : Nat) (bytes : List UInt8) : List UInt8 := file.take offset ++ bytes ++ file.drop (offset + bytes.length)

/-- `IVFWriter::set_expected_decoder_entry_hash` (src/util/ivf_writer.cc:92-99). -/
def IVFWriter.setExpectedMinihash (w : IVFWriter) (minihash : Nat) : IVFWriter := { w with file := patch w.file 28 (leBytes 4 minihash) }

/-- The frame header (src/util/ivf_writer.cc:115-123); the size is cut to 32 bits. -/
def ivfFrameHeader (size : Nat) : List UInt8 := leBytes 4 size ++ List.replicate 8 0

/-- `IVFWriter::append_frame` (src/util/ivf_writer.cc:101-142): the writer afterwards and the offset of the frame.  `frame_count_` is a `uint32_t`. -/
def IVFWriter.append (w : IVFWriter) (frame : List UInt8) : Except FrameError (IVFWriter × Nat) := do
  let count := leValue (← subChunk (← subChunk w.file 0 32) 24 4)
  if w.frameCount ≠ count then .error .internal
  else if w.fileSize ≠ w.file.length then .error .internal
  else
    let file := w.file ++ ivfFrameHeader frame.length
    let offset := w.fileSize + 12
    let file := file ++ frame
    let fileSize := offset + frame.length
    if file.length ≠ fileSize then .error .internal
    else do
      let frameCount := (w.frameCount + 1) % 2 ^ 32
      let file := patch file 24 (leBytes 4 frameCount)
      let count := leValue (← subChunk (← subChunk file 0 32) 24 4)
      if frameCount ≠ count then .error .internal
      else pure ({ w with file, fileSize, frameCount }, offset)

/-- The contents of the file at the moments within `append_frame` before the count is written (src/util/ivf_writer.cc:128-134): `n` bytes of what is to be
appended have been written. -/
def IVFWriter.interrupted (w : IVFWriter) (frame : List UInt8) (n : Nat) : List UInt8 := w.file ++ (ivfFrameHeader frame.length ++ frame).take n

/-- What can be done to a writer. -/
inductive IVFWriterOp
  | append (frame : List UInt8)
  | setExpectedMinihash (minihash : Nat)
deriving Repr, DecidableEq

/-- One operation. -/
def IVFWriter.step (w : IVFWriter) : IVFWriterOp → Except FrameError IVFWriter
  | .append frame => do
    let (w, _) ← w.append frame
    pure w
  | .setExpectedMinihash h => .ok (w.setExpectedMinihash h)

/-- A sequence of operations. -/
def IVFWriter.run (w : IVFWriter) : List IVFWriterOp → Except FrameError IVFWriter
  | [] => .ok w
  | op :: rest => do
    let w ← w.step op
    w.run rest

/-- The loops of the merger (src/frontend/xc-merge.cc:69-75): frames `i` on, `n` of them. -/
def copyFrames (ivf : IVF) (w : IVFWriter) : (n i : Nat) → Except FrameError IVFWriter
  | 0, _ => .ok w
  | n + 1, i => do
    let (w, _) ← w.append (← ivf.frame i)
    copyFrames ivf w n (i + 1)

/-- `main` of the merger (src/frontend/xc-merge.cc:43-78): the file it writes.  The exception for different dimensions is `runtime_error`. -/
def xcMerge (file1 file2 : List UInt8) : Except FrameError (List UInt8) := do
  let ivf1 ← IVF.open file1
  let ivf2 ← IVF.open file2
  if ivf1.width ≠ ivf2.width ∨ ivf1.height ≠ ivf2.height then .error .internal
  else do
    let w ← IVFWriter.create [0x56, 0x50, 0x38, 0x30] ivf1.width ivf1.height 1 1
    let w ← copyFrames ivf1 w ivf1.frameCount 0
    let w ← copyFrames ivf2 w ivf2.frameCount 0
    pure w.file

end Alfalfa
