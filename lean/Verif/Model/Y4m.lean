import Verif.Model.Pixels

/-! Raw video: `YUV4MPEGHeader`, `YUV4MPEGReader`, `YUV4MPEGFrameWriter` (src/input/yuv4mpeg.cc) and `display_rectangle_as_planar` (src/util/raster.cc).

A file is the list of its bytes.  A `read` of the system that returns fewer bytes than asked for is repeated by `read_exactly`
(src/util/file_descriptor.hh:178-190), so that it makes no difference.  Failures of system calls are not modelled. -/

namespace Alfalfa

/-- The bytes of a text. -/
def ascii (s : String) : List UInt8 := s.toList.map fun c => UInt8.ofNat c.toNat

inductive Interlacing | progressive | topFieldFirst | bottomFieldFirst | mixedModes
deriving Repr, DecidableEq

inductive ColorSpace | c420jpeg | c420paldv | c420 | c422 | c444
deriving Repr, DecidableEq

/-- `class YUV4MPEGHeader` (src/input/yuv4mpeg.hh:40-65): numbers are `uint16_t`. -/
@[ext] structure Y4MHeader where
  width : Nat := 0
  height : Nat := 0
  fpsNumerator : Nat := 0
  fpsDenominator : Nat := 0
  aspectNumerator : Nat := 0
  aspectDenominator : Nat := 0
  interlacing : Interlacing := .progressive
  color : ColorSpace := .c420
deriving Repr, DecidableEq

/-- The header for a picture (src/input/yuv4mpeg.cc:44-50). -/
def Y4MHeader.ofRaster (r : Raster) : Y4MHeader :=
  { width := r.displayWidth, height := r.displayHeight, fpsNumerator := 24, fpsDenominator := 1, aspectNumerator := 1, aspectDenominator := 1 }

/-- `stream << number`. -/
def decimal (n : Nat) : List UInt8 := if n < 10 then [UInt8.ofNat (48 + n)] else decimal (n / 10) ++ [UInt8.ofNat (48 + n % 10)]
termination_by n

/-- The switch over the interlacing mode (src/input/yuv4mpeg.cc:97-106). -/
def Interlacing.letter : Interlacing → List UInt8
  | .progressive => ascii "p"
  | .topFieldFirst => ascii "t"
  | .bottomFieldFirst => ascii "b"
  | .mixedModes => ascii "m"

/-- The switch over the colour space (src/input/yuv4mpeg.cc:112-123). -/
def ColorSpace.text : ColorSpace → List UInt8
  | .c420jpeg => ascii "C420jpeg XYSCSS=420JPEG"
  | .c420paldv => ascii "C420paldv XYSCSS=420PALDV"
  | .c420 => ascii "C420 XYSCSS=420"
  | .c422 => ascii "C422 XYSCSS=422"
  | .c444 => ascii "C444 XYSCSS=444"

/-- `YUV4MPEGHeader::to_string` (src/input/yuv4mpeg.cc:85-128). -/
def Y4MHeader.text (h : Y4MHeader) : List UInt8 :=
  ascii "YUV4MPEG2 " ++ ascii "W" ++ decimal h.width ++ ascii " " ++ ascii "H" ++ decimal h.height ++ ascii " " ++
    ascii "F" ++ decimal h.fpsNumerator ++ ascii ":" ++ decimal h.fpsDenominator ++ ascii " " ++ ascii "I" ++ h.interlacing.letter ++ ascii " " ++
    ascii "A" ++ decimal h.aspectNumerator ++ ascii ":" ++ decimal h.aspectDenominator ++ ascii " " ++ h.color.text ++ ascii "\n"

/-- What can be thrown: a malformed file; its end in the wrong place; a picture that cannot be made; a failed assertion or an access outside of a picture. -/
inductive Y4MError | format | ended | invalid | outOfBounds
deriving Repr, DecidableEq

/-- `isspace`. -/
def isSpace (c : UInt8) : Bool := c == 32 || (9 ≤ c && c ≤ 13)

/-- The words that `stream >> token` gives one after the other; `current` is what has been read of the present one. -/
def words (current : List UInt8) : List UInt8 → List (List UInt8)
  | [] => if current = [] then [] else [current]
  | c :: rest =>
    if isSpace c then if current = [] then words [] rest else current :: words [] rest
    else words (current ++ [c]) rest

/-- `stoi` of a text without white space: what follows the digits is ignored; `none` is one of its exceptions. -/
def stoi (s : List UInt8) : Option Int :=
  let (negative, s) := match s with
    | 45 :: rest => (true, rest)
    | 43 :: rest => (false, rest)
    | _ => (false, s)
  let digits := s.takeWhile fun c => 48 ≤ c && c ≤ 57
  let value : Nat := digits.foldl (fun v c => v * 10 + (c.toNat - 48)) 0
  let z : Int := if negative then -value else value
  if digits ≠ [] ∧ -2147483648 ≤ z ∧ z ≤ 2147483647 then some z else none

/-- The conversion of an `int`, also through `size_t`, to `uint16_t`. -/
def toUInt16 (z : Int) : Nat := (z % 65536).toNat

/-- `stoi` into a `uint16_t` field. -/
def parseField (s : List UInt8) : Except Y4MError Nat :=
  match stoi s with
  | none => .error .format
  | some z => .ok (toUInt16 z)

/-- `parse_fraction` (src/input/yuv4mpeg.cc:130-145). -/
def parseFraction (s : List UInt8) : Except Y4MError (Nat × Nat) :=
  let numerator := s.takeWhile (· ≠ 58)
  match s.dropWhile (· ≠ 58) with
  | [] => .error .format
  | _ :: denominator => do pure (← parseField numerator, ← parseField denominator)

/-- The switch in the loop over the words (src/input/yuv4mpeg.cc:173-222). -/
def Y4MHeader.take (h : Y4MHeader) (token : List UInt8) : Except Y4MError Y4MHeader :=
  match token with
  | [] => .error .format
  | c :: rest =>
    if c = 87 then do pure { h with width := ← parseField rest }
    else if c = 72 then do pure { h with height := ← parseField rest }
    else if c = 70 then do
      let f ← parseFraction rest
      pure { h with fpsNumerator := f.1, fpsDenominator := f.2 }
    else if c = 73 then
      match rest with
      | [] => .error .format
      | i :: _ =>
        if i = 112 then pure { h with interlacing := .progressive }
        else if i = 116 then pure { h with interlacing := .topFieldFirst }
        else if i = 98 then pure { h with interlacing := .bottomFieldFirst }
        else if i = 109 then pure { h with interlacing := .mixedModes }
        else .error .format
    else if c = 65 then do
      let f ← parseFraction rest
      pure { h with aspectNumerator := f.1, aspectDenominator := f.2 }
    else if c = 67 then if token.take 4 ≠ ascii "C420" then .error .format else pure { h with color := .c420 }
    else if c = 88 then pure h
    else .error .format

/-- A file that is being read: what is left of it, and `eof_`. -/
structure Y4MInput where
  rest : List UInt8
  ended : Bool := false
deriving Repr, DecidableEq

/-- The line at the beginning of the bytes, what follows, and whether the file ended in the line. -/
def splitLine : List UInt8 → List UInt8 × List UInt8 × Bool
  | [] => ([], [], true)
  | c :: rest => if c = 10 then ([], rest, false) else ((c :: (splitLine rest).1), (splitLine rest).2)

/-- `getline` (src/util/file_descriptor.hh:141-156); `read` throws if the end was seen before (src/util/file_descriptor.hh:162-164). -/
def Y4MInput.getline (i : Y4MInput) : Except Y4MError (List UInt8 × Y4MInput) :=
  if i.ended then .error .ended else .ok ((splitLine i.rest).1, { rest := (splitLine i.rest).2.1, ended := (splitLine i.rest).2.2 })

/-- `read_exactly` (src/util/file_descriptor.hh:178-190). -/
def Y4MInput.readExactly (i : Y4MInput) (n : Nat) : Except Y4MError (List UInt8 × Y4MInput) :=
  if n = 0 then .ok ([], i)
  else if i.ended then .error .ended
  else if i.rest.length < n then .error .ended
  else .ok (i.rest.take n, { i with rest := i.rest.drop n })

/-- A reader: `header_`, `fd_`. -/
structure Y4MReader where
  header : Y4MHeader
  input : Y4MInput

/-- `YUV4MPEGReader::YUV4MPEGReader` (src/input/yuv4mpeg.cc:153-229). -/
def Y4MReader.open (file : List UInt8) : Except Y4MError Y4MReader := do
  let (line, input) ← Y4MInput.getline { rest := file }
  match words [] line with
  | [] => .error .format
  | magic :: tokens =>
    if magic ≠ ascii "YUV4MPEG2" then .error .format
    else do
      let header ← tokens.foldlM Y4MHeader.take ({} : Y4MHeader)
      if header.width = 0 ∨ header.height = 0 then .error .format else pure { header, input }

/-- An assertion or an access that must not fail. -/
def inBounds {A : Type} (x : Option A) : Except Y4MError A :=
  match x with
  | none => .error .outOfBounds
  | some a => .ok a

/-- `memcpy( &plane.at( 0, row ), data )` (src/input/yuv4mpeg.cc:288-301): as many bytes as there are, wherever the rows end. -/
def Plane.copyRow (p : Plane) (row : Nat) (data : List UInt8) : Option Plane :=
  if 0 < p.width ∧ row < p.height ∧ p.slot 0 row + data.length ≤ p.cells.length then
    some { p with cells := p.cells.take (p.slot 0 row) ++ (data ++ p.cells.drop (p.slot 0 row + data.length)) }
  else none

/-- One of the loops over the rows (src/input/yuv4mpeg.cc:288-301): `count` more rows from `row` on, each of `length` bytes. -/
def readRows (length : Nat) : (count row : Nat) → Plane → Y4MInput → Except Y4MError (Plane × Y4MInput)
  | 0, _, p, i => .ok (p, i)
  | count + 1, row, p, i => do
    let (data, i) ← i.readExactly length
    let p ← inBounds (p.copyRow row data)
    readRows length count (row + 1) p i

/-- A loop over rows and columns that copies pixels, each from a place that depends on its own.  (Where the code reads the sample before the inner loop, the inner loop
does not change it.) -/
def Plane.spread (p : Plane) (rows columns : List Nat) (source : Nat → Nat → Nat × Nat) : Option Plane :=
  rows.foldlM (fun p row => columns.foldlM (fun p column => do p.put column row (← p.at? (source column row).1 (source column row).2)) p) p

/-- `edge_extend_component` (src/input/yuv4mpeg.cc:231-264). -/
def Plane.edgeExtend (p : Plane) (displayWidth displayHeight : Nat) : Except Y4MError Plane :=
  if p.width = 0 ∨ p.height = 0 then .error .invalid
  else inBounds do
    let p ← p.spread (List.range displayHeight) (List.range' displayWidth (p.width - displayWidth)) fun _ row => (displayWidth - 1, row)
    let p ← p.spread (List.range' displayHeight (p.height - displayHeight)) (List.range displayWidth) fun column _ => (column, displayHeight - 1)
    p.spread (List.range' displayHeight (p.height - displayHeight)) (List.range' displayWidth (p.width - displayWidth)) fun _ _ => (displayWidth - 1, displayHeight - 1)

/-- `YUV4MPEGReader::get_next_frame` (src/input/yuv4mpeg.cc:273-307) with `edge_extend` (src/input/yuv4mpeg.cc:266-271).  `raster` is the picture that the pool hands out,
with what is left in it of its former use; it is `none` if the constructor throws because the size rounded up to macroblocks does not fit in 16 bits
(src/decoder/prediction.cc:94-97, src/util/raster.cc:38-50). -/
def Y4MReader.nextFrame (r : Y4MReader) (raster : Option Raster) : Except Y4MError (Option Raster × Y4MReader) :=
  match raster with
  | none => .error .invalid
  | some raster => do
    let (line, i) ← r.input.getline
    if i.ended then pure (none, { r with input := i })
    else if line ≠ ascii "FRAME" then .error .format
    else do
      let w := r.header.width
      let h := r.header.height
      let (y, i) ← readRows w h 0 raster.y i
      let (u, i) ← readRows (w / 2) (h / 2) 0 raster.u i
      let (v, i) ← readRows (w / 2) (h / 2) 0 raster.v i
      let y ← y.edgeExtend raster.displayWidth raster.displayHeight
      let u ← u.edgeExtend ((1 + raster.displayWidth) / 2) ((1 + raster.displayHeight) / 2)
      let v ← v.edgeExtend ((1 + raster.displayWidth) / 2) ((1 + raster.displayHeight) / 2)
      pure (some { raster with y := y, u := u, v := v }, { r with input := i })

/-- Reading until the end, as the programs do; `pool` gives the pictures. -/
def Y4MReader.all (r : Y4MReader) : List (Option Raster) → Except Y4MError (List Raster)
  | [] => .ok []
  | raster :: pool => do
    match ← r.nextFrame raster with
    | (none, _) => .ok []
    | (some x, r) => do pure (x :: (← r.all pool))

/-- The rows of a plane within the display rectangle (src/util/raster.cc:89-101). -/
def Plane.displayed (p : Plane) (displayWidth displayHeight : Nat) : List UInt8 :=
  (List.range displayHeight).flatMap fun row => (p.cells.drop (p.slot 0 row)).take displayWidth

/-- `YUV4MPEGFrameWriter::write` (src/input/yuv4mpeg.cc:309-317) with `display_rectangle_as_planar` (src/util/raster.cc:85-105). -/
def y4mFrame (r : Raster) : List UInt8 :=
  ascii "FRAME\n" ++ (r.y.displayed r.displayWidth r.displayHeight ++
    (r.u.displayed ((1 + r.displayWidth) / 2) ((1 + r.displayHeight) / 2) ++ r.v.displayed ((1 + r.displayWidth) / 2) ((1 + r.displayHeight) / 2)))

/-- A file as `vp8decode` writes it (src/frontend/vp8decode.cc:86-92): a header for the first picture, and all pictures. -/
def y4mFile (first : Raster) (others : List Raster) : List UInt8 := (Y4MHeader.ofRaster first).text ++ (first :: others).flatMap y4mFrame

end Alfalfa
