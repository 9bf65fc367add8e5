import Verif.Model.Inter
import Verif.Model.Frame

/-! The memory of the padded copy of a reference picture that the encoder keeps (src/decoder/safe_raster.cc, src/encoder/safe_references.cc).

`safeRaster` of Model/Inter is the copy as its rows; here it is bytes in the heap, because the encoder makes it with the size of the picture that is shown and fills it from the coded picture, which
has whole macroblocks (src/encoder/safe_references.cc:57-62). -/

namespace Alfalfa

/-- The heap from the first byte of the storage on, also past the end of the storage, and the first byte after all that were written. -/
structure Heap where
  bytes : Nat → UInt8
  reach : Nat := 0

/-- `memset` and `memcpy` of the bytes `l` to the byte `start` on.  Writing past the end of the storage is undefined behaviour in C++; here the bytes behind it change, and `reach` shows it. -/
def Heap.write (h : Heap) (start : Nat) (l : List UInt8) : Heap :=
  { bytes := fun i => if start ≤ i then (l[i - start]?).getD (h.bytes i) else h.bytes i
    reach := if l.isEmpty then h.reach else max h.reach (start + l.length) }

/-- `TwoDStorage::at` (src/util/2d.hh:93-97): the place of a cell in the storage, computed in 32 bits; `none`: the failed assertion. -/
def storageAt (width height column row : Nat) : Option Nat := if column < width ∧ row < height then some ((row * width + column) % 2 ^ 32) else none

/-- One turn of the loop of `copy_raster` (src/decoder/safe_raster.cc:64-100) with the row `y` of the picture: the three writes. -/
def copyRow (p : Plane) (width height nrow y : Nat) (h : Heap) : Option Heap := do
  let first ← p.at? 0 y
  let d ← storageAt width height 0 nrow
  let h := h.write d (List.replicate marginWidth first)
  let src ← p.address 0 y
  let middle ← allSome fun i : Fin p.width => p.load (src + i.val)
  let d ← storageAt width height marginWidth nrow
  let h := h.write d (List.ofFn middle)
  let last ← p.at? (p.width - 1) y
  let d ← storageAt width height (marginWidth + p.width) nrow
  pure (h.write d (List.replicate marginWidth last))

/-- The row of the picture that goes to the row `nrow` of the copy (src/decoder/safe_raster.cc:65,78,91). -/
def copiedRow (height nrow : Nat) : Nat :=
  if nrow < marginWidth then 0 else if nrow ≥ marginWidth + height then height - 1 else nrow - marginWidth

/-- `SafeReferences::load` (src/encoder/safe_references.cc:57-62): a copy with room for the shown size (src/decoder/safe_raster.cc:33-36), which may be an old one from the pool, filled by `copy_raster`
(src/decoder/safe_raster.cc:44-101) from the coded picture. -/
def loadSafe (p : Plane) (displayWidth displayHeight : Nat) (h : Heap) : Option Heap :=
  (List.range (displayHeight + marginWidth * 2)).foldlM
    (fun h nrow => copyRow p (displayWidth + marginWidth * 2) (displayHeight + marginWidth * 2) nrow (copiedRow p.height nrow) h) h

/-- The bytes of the storage (src/decoder/safe_raster.cc:34). -/
def safeSize (displayWidth displayHeight : Nat) : Nat := (displayWidth + marginWidth * 2) * (displayHeight + marginWidth * 2)

/-- The storage as its rows. -/
def safeRows (displayWidth displayHeight : Nat) (h : Heap) : List (List UInt8) :=
  (List.range (displayHeight + marginWidth * 2)).map fun r => (List.range (displayWidth + marginWidth * 2)).map fun c => h.bytes (r * (displayWidth + marginWidth * 2) + c)

end Alfalfa
