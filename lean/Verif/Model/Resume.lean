import Verif.Model.Bundle
import Verif.Model.StateHash

/-! The encoder program with state files and its options for the encoding mode (src/frontend/xc-enc.cc), without `--reencode`, which is in Model/Reencode. -/

namespace Alfalfa

/-- `Encoder( decoder, two_pass, quality )` (src/encoder/encoder.cc:83-90): as `Session.create`, but with the state and the pictures of the decoder. -/
def Session.resume (d : Decoder) (realtime : Bool) (keyHeader : KeyFrameHeader := emptyKeyHeader) (interHeader : InterFrameHeader := emptyInterHeader) : Option Session :=
  if macroblockDimension (d.state.width / 4) = 0 ∨ macroblockDimension (d.state.height / 4) = 0 then none
  else some { encoder := ⟨d.state, d.references⟩, hasState := true, keyHeader, interHeader, realtime, lastQi := none }

/-- How the program fails: as without state files, because the state cannot be read, or because a state was to be written. -/
inductive XcEncFailure where
  | encoding (e : XcEncError)
  | state
  | outputState
deriving DecidableEq

/-- The loop over the pictures (src/frontend/xc-enc.cc:351-383), with at most `n` rounds, as `xcEncLoop`, but with the file as it is when an exception ends the loop. -/
def xcEncWriting {σ Q : Type} [LinearOrder Q] (next : σ → Except XcEncError (Option Raster × σ)) (R : Renderer) (M : Meter Q) (mode : XcEncMode Q) (inside : Nat → Inside) :
    (n : Nat) → σ → (frameNo : Nat) → Session → IVFWriter → IVFWriter × Option XcEncError
  | 0, _, _, _, w => (w, none)
  | n + 1, i, k, s, w =>
    match next i with
    | .error e => (w, some e)
    | .ok (none, _) => (w, none)
    | .ok (some x, i) =>
      match s.call R M (mode.ask inside k x) with
      | .error e => (w, some (.encode e))
      | .ok (s, bytes, _) =>
        match w.append bytes with
        | .error e => (w, some (.output e))
        | .ok (w, _) => xcEncWriting next R M mode inside n i (k + 1) s w

/-- The encoder (src/frontend/xc-enc.cc:329-333).  `initial` is the file of `--input-state`, with the picture that the pool gives to the deserializer. -/
def xcEncEncoder (initial : Option (Raster × List UInt8)) (realtime : Bool) (references : References) (width height : Nat) : Except XcEncFailure Session :=
  match initial with
  | none =>
    match Session.create width height realtime references with
    | none => .error (.encoding (.encode .undefined))
    | some s => .ok s
  | some (blank, bytes) =>
    match loadDecoder blank bytes with
    | none => .error .state
    | some d =>
      match Session.resume d realtime with
      | none => .error (.encoding (.encode .undefined))
      | some s => .ok s

/-- The primary encoding (src/frontend/xc-enc.cc:260,327-388): the file, if it has been made, and how the program fails, if it does.  `outputState` says whether there is an
option `--output-state`. -/
def xcEncPrimary {σ Q : Type} [LinearOrder Q] (mix : Nat → Nat → Nat) (next : σ → Except XcEncError (Option Raster × σ)) (R : Renderer) (M : Meter Q) (mode : XcEncMode Q)
    (inside : Nat → Inside) (realtime : Bool) (references : References) (initial : Option (Raster × List UInt8)) (outputState : Bool) (rounds : Nat) (width height : Nat) (i : σ) :
    Option (List UInt8) × Option XcEncFailure :=
  match IVFWriter.create vp80 width height 1 1 with
  | .error e => (none, some (.encoding (.output e)))
  | .ok w =>
    match xcEncEncoder initial realtime references width height with
    | .error e => (some w.file, some e)
    | .ok s =>
      let w := if initial.isSome then w.setExpectedMinihash (s.encoder.exportDecoder.minihash mix) else w
      match xcEncWriting next R M mode inside rounds i 0 s w with
      | (w, some e) => (some w.file, some (.encoding e))
      | (w, none) => (some w.file, if outputState then some .outputState else none)

/-- The options that have to do with the mode (src/frontend/xc-enc.cc:146-223). -/
inductive XcEncOption (Q : Type) where
  | ssim (x : Q)
  | yAcQi (n : Nat)
  | frameSizes (sizes : List Nat)
  | quality (name : String)

/-- `encoder_mode` (src/frontend/xc-enc.cc:124). -/
inductive XcEncModeName where
  | minimumSsim
  | constantQuantizer
  | targetFrameSize
deriving DecidableEq

/-- The variables (src/frontend/xc-enc.cc:115-124). -/
structure XcEncSettings (Q : Type) where
  ssim : Q
  yAcQi : Option Nat := none
  sizes : List Nat := []
  realtime : Bool := false
  mode : XcEncModeName := .minimumSsim

/-- The cases of the `switch` (src/frontend/xc-enc.cc:153-223).  The index is an `Optional<uint8_t>`, the number an `unsigned long`. -/
def XcEncSettings.set {Q : Type} (v : XcEncSettings Q) : XcEncOption Q → XcEncSettings Q
  | .ssim x => { v with ssim := x, mode := .minimumSsim }
  | .yAcQi n => { v with yAcQi := some (n % 256), mode := .constantQuantizer }
  | .frameSizes sizes => { v with sizes, mode := .targetFrameSize }
  | .quality name => if name = "rt" then { v with realtime := true } else v

/-- The loop over the options (src/frontend/xc-enc.cc:146-224), then what the mode takes from the variables (src/frontend/xc-enc.cc:358-378); `none`: an `Optional` without a
value. -/
def xcEncMode {Q : Type} (default : Q) (options : List (XcEncOption Q)) : Option (XcEncMode Q × Bool) :=
  let v := options.foldl XcEncSettings.set { ssim := default }
  match v.mode with
  | .minimumSsim => some (.minimumSsim v.ssim, v.realtime)
  | .constantQuantizer => v.yAcQi.map fun qi => (.constantQuantizer qi, v.realtime)
  | .targetFrameSize => some (.targetFrameSize v.sizes, v.realtime)

end Alfalfa
