import Verif.Model.Resume
import Verif.Spec.Convert

/-! What is expected of the encoder program when it goes on from a state. -/

namespace Alfalfa

/-- An input gives these pictures one after the other, and then fails. -/
inductive GivesThen {σ : Type} (next : σ → Except XcEncError (Option Raster × σ)) : σ → List Raster → XcEncError → Prop
  | failed {i : σ} {e : XcEncError} : next i = .error e → GivesThen next i [] e
  | more {i i' : σ} {x : Raster} {xs : List Raster} {e : XcEncError} : next i = .ok (some x, i') → GivesThen next i' xs e → GivesThen next i (x :: xs) e

/-- A decoder that shows what another one shows, as far as frames go that are predicted from the last picture and that set the adjustments of the loop filter: the same last
picture, and the same state but for these adjustments. -/
structure SameLast (d d' : Decoder) : Prop where
  state : ∃ a, d'.state = { d.state with filterAdjustments := a }
  last : d'.references.last = d.references.last

/-- The mode that an option asks for. -/
def XcEncOption.mode {Q : Type} : XcEncOption Q → Option (XcEncMode Q)
  | .ssim x => some (.minimumSsim x)
  | .yAcQi n => some (.constantQuantizer (n % 256))
  | .frameSizes sizes => some (.targetFrameSize sizes)
  | .quality _ => none

/-- The pictures shown for a chunk that goes on from a state: as many as were given, each near the one given, with an index that the mode may use. -/
def NearChunk {Q : Type} [LinearOrder Q] (zero : Q) (mode : XcEncMode Q) (inside : Nat → Inside) (realtime : Bool) (xs ys : List Raster) : Prop :=
  ys.length = xs.length ∧ ∃ indices : List Nat, indices.length = xs.length ∧ ∀ (k : Nat) (x y : Raster), xs[k]? = some x → ys[k]? = some y →
    ∃ q, indices[k]? = some q ∧ q ≤ 127 ∧ mode.MayUse zero inside k (indexBefore realtime indices k) q ∧ FidelitySpec.FaithfulIn false q x y

/-- Chunks made one after another, each from the state after the one before.  `step state input file after`: from this state, the input makes this file, and the state after
it is the last one. -/
inductive InTurn {σ : Type} (step : List UInt8 → σ → List UInt8 → List UInt8 → Prop) : List UInt8 → List σ → List (List UInt8) → Prop
  | done {state : List UInt8} : InTurn step state [] []
  | more {state after file : List UInt8} {i : σ} {is : List σ} {files : List (List UInt8)} : step state i file after → InTurn step after is files →
      InTurn step state (i :: is) (file :: files)

end Alfalfa
