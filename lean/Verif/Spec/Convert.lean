import Verif.Model.Convert
import Verif.Spec.Faithful

/-! What is asked of encoding a file and decoding the result. -/

namespace Alfalfa
open FidelitySpec QuantizerSpec

/-- A file of raw video: a header, and for each picture a line and its bytes. -/
def rawVideo (header : Y4MHeader) (frames : List (List UInt8)) : List UInt8 := header.text ++ frames.flatMap (ascii "FRAME\n" ++ ·)

/-- The number of bytes of a picture of `w` by `h` pixels, both even: one for each pixel, and two for each square of four. -/
def rawSize (w h : Nat) : Nat := h * w + 2 * (h / 2 * (w / 2))

/-- The bytes of two pictures: no byte of brightness differs by more than `l`, and no byte of colour by more than `c`. -/
structure NearBytes (w h l c : Nat) (f g : List UInt8) : Prop where
  given : f.length = rawSize w h
  shown : g.length = rawSize w h
  luma : ∀ k < h * w, apart (g.getD k 0) (f.getD k 0) ≤ l
  chroma : ∀ k < rawSize w h, h * w ≤ k → apart (g.getD k 0) (f.getD k 0) ≤ c

/-- The index that a mode may use for the `k`-th picture, with that of the picture before: the one it gives; with a minimum quality, the finest or the
coarsest; with target sizes, the best for the `k`-th of them, or for the last one if there are no more. -/
def XcEncMode.MayUse {Q : Type} [LinearOrder Q] (zero : Q) (inside : Nat → Inside) (k : Nat) (last : Option Nat) : XcEncMode Q → Nat → Prop
  | .constantQuantizer qi, i => i = qi
  | .minimumSsim m, i => i = if m ≤ zero then 127 else 0
  | .targetFrameSize sizes, i => ∀ size, sizes[k]? = some size ∨ sizes.length ≤ k ∧ sizes.getLast? = some size → SizeSearch.Best (inside k).estimate size last i

/-- A legal quantizer index. -/
def XcEncMode.Ok {Q : Type} : XcEncMode Q → Prop
  | .constantQuantizer qi => qi ≤ 127
  | _ => True

/-- An input gives these pictures one after the other, and then ends. -/
inductive Gives {σ : Type} (next : σ → Except XcEncError (Option Raster × σ)) : σ → List Raster → Prop
  | done {i i' : σ} : next i = .ok (none, i') → Gives next i []
  | more {i i' : σ} {x : Raster} {xs : List Raster} : next i = .ok (some x, i') → Gives next i' xs → Gives next i (x :: xs)

end Alfalfa
