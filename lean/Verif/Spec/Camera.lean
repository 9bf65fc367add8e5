import Verif.Model.Camera
import Verif.Spec.Decoder
import Verif.Spec.Pixels

/-! What is asked of the camera. -/

namespace Alfalfa

/-- Where an image has the brightness of the pixel at `x`, `y`.  YUYV: two pixels take four bytes.  The others: a byte for each pixel, row by row. -/
def CameraImage.luma (width : Nat) : CameraImage → (x y : Nat) → Option UInt8
  | .yuyv m, x, y => m[y * (2 * width) + 2 * x]?
  | .nv12 m, x, y => m[y * width + x]?
  | .yuv420 m, x, y => m[y * width + x]?
  | .jpeg p _ _, x, y => p.at? x y
  | .firstJpeg, _, _ => none

/-- Where an image has the first colour of the square of four pixels whose first one is at `2 * x`, `2 * y`.  YUYV: the second byte of four, in the upper row.  NV12:
after all the brightness, in pairs.  YUV420: after all the brightness, a byte for each square, row by row.  JPEG: the upper row. -/
def CameraImage.cb (width height : Nat) : CameraImage → (x y : Nat) → Option UInt8
  | .yuyv m, x, y => m[2 * y * (2 * width) + 4 * x + 1]?
  | .nv12 m, x, y => m[height * width + y * width + 2 * x]?
  | .yuv420 m, x, y => m[height * width + y * (width / 2) + x]?
  | .jpeg _ p _, x, y => p.at? x (2 * y)
  | .firstJpeg, _, _ => none

/-- The same for the second colour. -/
def CameraImage.cr (width height : Nat) : CameraImage → (x y : Nat) → Option UInt8
  | .yuyv m, x, y => m[2 * y * (2 * width) + 4 * x + 3]?
  | .nv12 m, x, y => m[height * width + y * width + 2 * x + 1]?
  | .yuv420 m, x, y => m[height * width + height / 2 * (width / 2) + y * (width / 2) + x]?
  | .jpeg _ _ p, x, y => p.at? x (2 * y)
  | .firstJpeg, _, _ => none

/-- The picture is the image. -/
structure CameraImage.ShownBy (width height : Nat) (image : CameraImage) (r : Raster) : Prop where
  y : ∀ x y, x < width → y < height → image.luma width x y = some (r.y.px x y)
  u : ∀ x y, x < width / 2 → y < height / 2 → image.cb width height x y = some (r.u.px x y)
  v : ∀ x y, x < width / 2 → y < height / 2 → image.cr width height x y = some (r.v.px x y)

/-- The image has all its bytes. -/
def CameraImage.Whole (width height : Nat) : CameraImage → Prop
  | .yuyv m => 2 * (width * height) ≤ m.length
  | .nv12 m => width * height * 3 / 2 ≤ m.length
  | .yuv420 m => width * height * 3 / 2 ≤ m.length
  | .jpeg y u v => (y.width = width ∧ y.height = height ∧ y.cells.length = width * height) ∧
      (u.width = width / 2 ∧ u.height = height ∧ u.cells.length = width / 2 * height) ∧
      (v.width = width / 2 ∧ v.height = height ∧ v.cells.length = width / 2 * height)
  | .firstJpeg => False

/-- The two sides of a camera with four buffers, without the buffers: the driver has room for four pictures, and a picture that it has no room for is lost; the
program gets them in the order in which they were taken. -/
def fourDeep {P : Type} : (pending : List P) → List (CameraEvent P) → List P
  | _, [] => []
  | pending, .capture p :: es => fourDeep (if pending.length < 4 then pending ++ [p] else pending) es
  | [], .grab :: es => fourDeep [] es
  | p :: pending, .grab :: es => p :: fourDeep pending es

end Alfalfa
