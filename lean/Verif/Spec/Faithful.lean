import Verif.Model.Session
import Verif.Spec.Fidelity
import Verif.Spec.Quantizer

/-! What is asked of an encoder from its first call to its last: that the pictures shown are near the pictures given. -/

namespace Alfalfa
open FidelitySpec QuantizerSpec

/-- The encoder makes one pass over its key frames (`two_pass` is false, src/encoder/encoder.hh:132, src/encoder/encode_intra.cc:410). -/
def Work.OnePass (w : Work) : Prop := w.key.second = none

/-- The encoder makes two passes over its key frames. -/
def Work.twoPasses (w : Work) : Bool := w.key.second.isSome

/-- What the frame that a call gives is made with. -/
def Call.last {Q : Type} : Call Q → Work
  | .quantizer _ _ w => w
  | .minimum _ _ _ last => last
  | .target _ _ _ w => w

/-- A picture coded in one pass or two with the same index everywhere, and any loop filter. -/
def FidelitySpec.FaithfulIn (twoPasses : Bool) (index : Nat) (o s : Raster) : Prop :=
  NearBy (luma (effective twoPasses (prescribed index (uniformIndices index))) + 54)
    (chroma (effective twoPasses (prescribed index (uniformIndices index))) + 54) o s

/-- A picture coded in one pass with the same index everywhere, and any loop filter. -/
def FidelitySpec.Faithful (index : Nat) (o s : Raster) : Prop :=
  NearBy (luma (prescribed index (uniformIndices index)) + 54) (chroma (prescribed index (uniformIndices index)) + 54) o s

/-- The quantizer indices that a search for a size may end in: at most 16 away from the index of the frame before, if that is known. -/
def SizeSearch.Allowed (last : Option Nat) (q : Nat) : Prop := 4 ≤ q ∧ q ≤ 127 ∧ ∀ l, last = some l → l ≤ q + 16 ∧ q ≤ l + 16

/-- The best index for a size: an allowed one, and, if estimates do not grow with the index, the finest of those whose estimate fits, or the coarsest if
none fits. -/
structure SizeSearch.Best (estimate : Nat → Nat) (size : Nat) (last : Option Nat) (i : Nat) : Prop where
  allowed : Allowed last i
  finest : (∀ a b, a ≤ b → estimate b ≤ estimate a) → ∀ q, Allowed last q → q < i → size < estimate q
  coarsest : (∀ a b, a ≤ b → estimate b ≤ estimate a) → size < estimate i → ∀ q, Allowed last q → q ≤ i

/-- The index of the frame before, which only an encoder for real time remembers. -/
def indexBefore (realtime : Bool) (indices : List Nat) (k : Nat) : Option Nat := if realtime ∧ k ≠ 0 then indices[k - 1]? else none

/-- The index that a call may use, with that of the frame before: the one it gives; with a minimum quality, the finest or the coarsest; with a target size,
the best for it. -/
def Call.MayUse {Q : Type} [LinearOrder Q] (zero : Q) (last : Option Nat) : Call Q → Nat → Prop
  | .quantizer _ qi _, i => i = qi
  | .minimum _ m _ _, i => i = if m ≤ zero then 127 else 0
  | .target _ size estimate _, i => SizeSearch.Best estimate size last i

end Alfalfa
