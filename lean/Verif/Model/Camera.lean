import Verif.Model.Decoder

/-! The camera: how the bytes that a driver leaves in its buffers become pictures (src/input/camera.cc, src/input/jpeg.cc), and whose turn a buffer is. -/

namespace Alfalfa

/-! ### From bytes to pictures -/

/-- The formats that bytes may have (src/input/camera.cc:43-45,130-200), with what is read: for three of them the memory of the buffer; for pictures that are compressed
one by one what the library makes of it, with as many rows of colour as of brightness (src/input/jpeg.cc:79-107).  The first of these is ignored (src/input/camera.cc:194-197).  The library itself (jpeg_read_header,
jpeg_read_raw_data) and the checks of its answers (src/input/jpeg.cc:56-96,122-140) are not modelled. -/
inductive CameraImage where
  | yuyv (memory : List UInt8)
  | nv12 (memory : List UInt8)
  | yuv420 (memory : List UInt8)
  | jpeg (y u v : Plane)
  | firstJpeg

/-- `for ( i = 0; i < n; i++ ) dst[ i ] = src( i )`, and `memcpy`, from the first byte of a plane on (src/input/camera.cc:140-142,161,169-172,179-181,
src/input/jpeg.cc:142).  `none` is a read or a write outside of the memory. -/
def pour (src : Nat → Option UInt8) : (n : Nat) → List UInt8 → Option (List UInt8)
  | 0, cells => some cells
  | n + 1, cells => do
    let cells ← pour src n cells
    let b ← src n
    if n < cells.length then some (cells.set n b) else none

/-- The loop over the columns (src/input/camera.cc:149-153): `i` and the two planes of colour. -/
def yuyvColumns (memory : List UInt8) (start : Nat) : (columns : Nat) → (column : Nat) → Nat × List UInt8 × List UInt8 → Option (Nat × List UInt8 × List UInt8)
  | 0, _, x => some x
  | n + 1, column, (i, u, v) => do
    let cb ← memory[start + column * 4 + 1]?
    let cr ← memory[start + column * 4 + 3]?
    if i < u.length ∧ i < v.length then yuyvColumns memory start n (column + 1) (i + 1, u.set i cb, v.set i cr) else none

/-- The loop over the rows, of which every second is left out (src/input/camera.cc:146-154). -/
def yuyvRows (memory : List UInt8) (width : Nat) : (rows : Nat) → (row : Nat) → Nat × List UInt8 × List UInt8 → Option (Nat × List UInt8 × List UInt8)
  | 0, _, x => some x
  | n + 1, row, x =>
    if row % 2 = 1 then yuyvRows memory width n (row + 1) x
    else (yuyvColumns memory (row * width * 2) (width / 2) 0 x).bind (yuyvRows memory width n (row + 1))

/-- The loop over the columns of a row of colour (src/input/jpeg.cc:145-148). -/
def jpegColumns (src : Plane) (row : Nat) : (columns : Nat) → (column : Nat) → Plane → Option Plane
  | 0, _, p => some p
  | n + 1, column, p => do
    let b ← src.at? column (row * 2)
    let p ← p.put column row b
    jpegColumns src row n (column + 1) p

/-- The loop over the rows of colour, of which every second is left out (src/input/jpeg.cc:144-149), for one of the planes. -/
def jpegRows (src : Plane) (columns : Nat) : (rows : Nat) → (row : Nat) → Plane → Option Plane
  | 0, _, p => some p
  | n + 1, row, p => (jpegColumns src row columns 0 p).bind (jpegRows src columns n (row + 1))

/-- The `switch` of `Camera::get_next_frame` (src/input/camera.cc:130-200) and `JPEGDecompresser::decode` (src/input/jpeg.cc:120-150), into a picture from the
pool, `old`.  `width_ * height_` is a product of two numbers of type `int`, and so is `width_ * height_ * 5`: `none` if it overflows.  `width() * height()`
has no sign (src/input/jpeg.cc:142). -/
def cameraPicture (width height : Nat) (image : CameraImage) (old : Raster) : Option Raster :=
  match image with
  | .yuyv memory => do
    if 2 ^ 31 ≤ width * height then none
    let y ← pour (fun i => memory[2 * i]?) (width * height) old.y.cells
    let (_, u, v) ← yuyvRows memory width height 0 (0, old.u.cells, old.v.cells)
    pure { old with y := { old.y with cells := y }, u := { old.u with cells := u }, v := { old.v with cells := v } }
  | .nv12 memory => do
    if 2 ^ 31 ≤ width * height then none
    let y ← pour (fun i => memory[i]?) (width * height) old.y.cells
    let u ← pour (fun i => memory[width * height + 2 * i]?) (width * height / 4) old.u.cells
    let v ← pour (fun i => memory[width * height + (2 * i + 1)]?) (width * height / 4) old.v.cells
    pure { old with y := { old.y with cells := y }, u := { old.u with cells := u }, v := { old.v with cells := v } }
  | .yuv420 memory => do
    if 2 ^ 31 ≤ width * height * 5 then none
    let y ← pour (fun i => memory[i]?) (width * height) old.y.cells
    let u ← pour (fun i => memory[width * height + i]?) (width * height / 4) old.u.cells
    let v ← pour (fun i => memory[width * height * 5 / 4 + i]?) (width * height / 4) old.v.cells
    pure { old with y := { old.y with cells := y }, u := { old.u with cells := u }, v := { old.v with cells := v } }
  | .jpeg y u v => do
    let y ← pour (fun i => y.cells[i]?) (width * height % 2 ^ 32) old.y.cells
    let u ← jpegRows u (width / 2) (height / 2) 0 old.u
    let v ← jpegRows v (width / 2) (height / 2) 0 old.v
    pure { old with y := { old.y with cells := y }, u, v }
  | .firstJpeg => some old

/-! ### Whose turn a buffer is -/

/-- What is shared between the program and the driver: the images in the buffers, the buffers that the driver may fill, in the order in which it got them, those
that it has filled, in the order in which it gives them back, and `next_buffer_index` (src/input/camera.hh:60). -/
structure CameraLine (P : Type) where
  images : List P
  empty : List Nat
  filled : List Nat
  next : Nat

/-- After the constructor (src/input/camera.cc:80-106): all `NUM_BUFFERS` are with the driver (src/input/camera.hh:53). -/
def CameraLine.start {P : Type} (garbage : List P) : CameraLine P := ⟨garbage, [0, 1, 2, 3], [], 0⟩

/-- The driver takes a picture, into the buffer that it got first; without a buffer the picture is lost.  (This is the driver of the system, not code of the
program: it is here what the interface promises.) -/
def CameraLine.capture {P : Type} (c : CameraLine P) (p : P) : CameraLine P :=
  match c.empty with
  | [] => c
  | b :: rest => { c with images := c.images.set b p, empty := rest, filled := c.filled ++ [b] }

/-- `get_next_frame` (src/input/camera.cc:116-207): the driver gives back a buffer, the program reads the buffer `next_buffer_index`, gives the driver's buffer
back and goes on to the next index.  `none` while no buffer is filled: the call waits. -/
def CameraLine.grab {P : Type} (c : CameraLine P) : Option (P × CameraLine P) :=
  match c.filled with
  | [] => none
  | b :: rest => c.images[c.next]?.map fun p => (p, { c with filled := rest, empty := c.empty ++ [b], next := (c.next + 1) % 4 })

/-- What happens at the camera. -/
inductive CameraEvent (P : Type) where
  | capture (p : P)
  | grab

/-- What happens, one after the other, and the pictures that the program got. -/
def CameraLine.run {P : Type} : CameraLine P → List (CameraEvent P) → CameraLine P × List P
  | c, [] => (c, [])
  | c, .capture p :: es => (c.capture p).run es
  | c, .grab :: es =>
    match c.grab with
    | none => c.run es
    | some (p, c) => let (c, ps) := c.run es; (c, p :: ps)

end Alfalfa
