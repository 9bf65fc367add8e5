import Verif.Model.Encode

/-! The calls that users make on an `Encoder`, one after the other (src/encoder/encoder.cc:70-90,518-629). -/

namespace Alfalfa

/-- How a call ends when it does not give a frame: the exception, or something that the model does not define. -/
inductive EncodeError where
  | scaling
  | undefined
deriving DecidableEq

/-- What one encoding of a picture takes from outside the model: the choices made by measuring, and the recycled picture. -/
structure Work where
  key : KeyChoices
  inter : InterChoices
  scratch : Raster

/-- The data members of `class Encoder` that last from call to call (src/encoder/encoder.hh:121-149).  The headers are those of `key_frame_`
and `inter_frame_`, which are used again for each picture; their macroblocks are overwritten. -/
structure Session where
  encoder : Encoder
  hasState : Bool
  keyHeader : KeyFrameHeader
  interHeader : InterFrameHeader
  realtime : Bool
  lastQi : Option Nat

/-- `Encoder( width, height, two_pass, quality )` (src/encoder/encoder.cc:71-81).  The references are pictures from the pool.  The headers are those of
frames from the pool, which are empty if the frames are new (src/decoder/frame_pool.cc:44-65).  The frames for estimates have a quarter of the size
(src/encoder/encoder.hh:136-142), and a frame without macroblocks fails an assertion (src/util/2d.hh:78-79): `none`. -/
def Session.create (width height : Nat) (realtime : Bool) (references : References) (keyHeader : KeyFrameHeader := emptyKeyHeader)
    (interHeader : InterFrameHeader := emptyInterHeader) : Option Session :=
  if macroblockDimension (width / 4) = 0 ∨ macroblockDimension (height / 4) = 0 then none
  else some { encoder := ⟨{ width, height }, references⟩, hasState := false, keyHeader, interHeader, realtime, lastQi := none }

/-- `encode_raster<KeyFrame>` (src/encoder/encode_intra.cc:388-456) with what it leaves in the encoder. -/
def Session.rasterKey (w : Work) (updateState : Bool) (s : Session) (o : Raster) (i : QuantIndices) : Option (Session × Frame KeyFrameHeader × Raster) := do
  let (width, height) := (s.encoder.state.width, s.encoder.state.height)
  let (f, shown) ← encodeKey w.key s.keyHeader i o width height w.scratch
  let state := if updateState then { width, height, filterAdjustments := some {} } else s.encoder.state
  pure ({ s with keyHeader := f.header, encoder := { s.encoder with state } }, f, shown)

/-- `encode_raster<InterFrame>` (src/encoder/encode_inter.cc:577-653) with what it leaves in the encoder. -/
def Session.rasterInter (w : Work) (updateState : Bool) (s : Session) (o : Raster) (i : QuantIndices) : Option (Session × Frame InterFrameHeader × Raster) := do
  let (f, shown) ← encodeInter w.inter s.encoder s.interHeader i o w.scratch
  let state := if updateState then { s.encoder.state with filterAdjustments := some {} } else s.encoder.state
  pure ({ s with interHeader := f.header, encoder := { s.encoder with state } }, f, shown)

/-- `write_frame<KeyFrame>` (src/encoder/encoder.cc:146-176). -/
def Session.writeKey (R : Renderer) (s : Session) (f : Frame KeyFrameHeader) : Option (Session × List UInt8) := do
  let (encoder, bytes) ← s.encoder.writeKey R f
  pure ({ s with encoder, lastQi := if s.realtime then some f.header.quantIndices.yAcQi else s.lastQi }, bytes)

/-- `write_frame<InterFrame>` (src/encoder/encoder.cc:146-176). -/
def Session.writeInter (R : Renderer) (s : Session) (f : Frame InterFrameHeader) : Option (Session × List UInt8) := do
  let (encoder, bytes) ← s.encoder.writeInter R f
  pure ({ s with encoder, lastQi := if s.realtime then some f.header.quantIndices.yAcQi else s.lastQi }, bytes)

/-- The check at the head of each call (src/encoder/encoder.cc:561-563,579-581,593-595). -/
def Session.fits (s : Session) (o : Raster) : Bool := s.encoder.state.width == o.displayWidth && s.encoder.state.height == o.displayHeight

/-- `write_frame( encode_raster<KeyFrame>( raster, quant_indices ).first )` (src/encoder/encoder.cc:555-556,570,585): the frame, and the picture that
the encoder took its measure of. -/
def Session.finishKey (R : Renderer) (w : Work) (s : Session) (o : Raster) (qi : Nat) : Option (Session × List UInt8 × Raster) := do
  let (s, f, shown) ← s.rasterKey w false o (uniformIndices qi)
  let (s, bytes) ← s.writeKey R f
  pure (s, bytes, shown)

/-- The same for inter frames (src/encoder/encoder.cc:555-556,573,588). -/
def Session.finishInter (R : Renderer) (w : Work) (s : Session) (o : Raster) (qi : Nat) : Option (Session × List UInt8 × Raster) := do
  let (s, f, shown) ← s.rasterInter w false o (uniformIndices qi)
  let (s, bytes) ← s.writeInter R f
  pure (s, bytes, shown)

/-- `encode_with_quantizer` (src/encoder/encoder.cc:559-575). -/
def Session.encodeWithQuantizer (R : Renderer) (w : Work) (s : Session) (o : Raster) (qi : Nat) : Except EncodeError (Session × List UInt8 × Raster) :=
  if !s.fits o then .error .scaling
  else
    match if s.hasState then s.finishInter R w o qi else { s with hasState := true }.finishKey R w o qi with
    | some x => .ok x
    | none => .error .undefined

/-! ### The search for a quality -/

/-- The loop of `encode_with_quantizer_search` (src/encoder/encoder.cc:530-553), as `qualityLoop`, but with trials that change the encoder: the
encoder afterwards, and the index found. -/
def searchLoop {Q : Type} [LinearOrder Q] (trial : Session → Nat → Option (Session × Q)) (minimum : Q) (lo hi : Int) (found : Bool) (best : Nat)
    (s : Session) : Option (Session × Nat) :=
  if _h : lo ≤ hi ∧ 0 ≤ lo then do
    let q := ((lo + hi) / 2).toNat
    let (s, ssim) ← trial s q
    let answer := decide (minimum ≤ ssim) || (decide (lo = hi) && !found)
    let found := found || answer
    let best := if answer then q else best
    if lo = hi then pure (s, best)
    else if ssim < minimum then searchLoop trial minimum lo ((q : Int) - 1) found best s
    else searchLoop trial minimum ((q : Int) + 1) hi found best s
  else pure (s, best)
termination_by (hi - lo + 1).toNat
decreasing_by all_goals omega

/-- What measuring a picture gives: `VP8Raster::quality`, whose values have an order, and the number zero. -/
structure Meter (Q : Type) where
  zero : Q
  quality : Raster → Raster → Q

/-- The trial (src/encoder/encoder.cc:531-535) for key frames: `compute_ssim` has its default value, false (src/encoder/encoder.hh:333-337).
`work` gives what each trial takes. -/
def Session.trialKey {Q : Type} (M : Meter Q) (work : Nat → Work) (o : Raster) (s : Session) (qi : Nat) : Option (Session × Q) := do
  let (s, _, shown) ← s.rasterKey (work qi) true o (uniformIndices qi)
  pure (s, encodeRasterQuality M.zero (fun _ => M.quality shown o) false qi)

/-- The same for inter frames. -/
def Session.trialInter {Q : Type} (M : Meter Q) (work : Nat → Work) (o : Raster) (s : Session) (qi : Nat) : Option (Session × Q) := do
  let (s, _, shown) ← s.rasterInter (work qi) true o (uniformIndices qi)
  pure (s, encodeRasterQuality M.zero (fun _ => M.quality shown o) false qi)

/-- `write_frame( encode_with_quantizer_search<KeyFrame>( raster, minimum_ssim ) )` (src/encoder/encoder.cc:518-557,585).  `work` is for the trials,
`last` for the encoding at the end. -/
def Session.searchKey {Q : Type} [LinearOrder Q] (R : Renderer) (M : Meter Q) (work : Nat → Work) (last : Work) (s : Session) (o : Raster)
    (minimum : Q) : Option (Session × List UInt8 × Raster) :=
  (searchLoop (Session.trialKey M work o) minimum 0 127 false 0 s).bind fun x => x.1.finishKey R last o x.2

/-- The same for inter frames (src/encoder/encoder.cc:518-557,588). -/
def Session.searchInter {Q : Type} [LinearOrder Q] (R : Renderer) (M : Meter Q) (work : Nat → Work) (last : Work) (s : Session) (o : Raster)
    (minimum : Q) : Option (Session × List UInt8 × Raster) :=
  (searchLoop (Session.trialInter M work o) minimum 0 127 false 0 s).bind fun x => x.1.finishInter R last o x.2

/-- `encode_with_minimum_ssim` (src/encoder/encoder.cc:577-590). -/
def Session.encodeWithMinimum {Q : Type} [LinearOrder Q] (R : Renderer) (M : Meter Q) (work : Nat → Work) (last : Work) (s : Session) (o : Raster)
    (minimum : Q) : Except EncodeError (Session × List UInt8 × Raster) :=
  if !s.fits o then .error .scaling
  else
    match if s.hasState then s.searchInter R M work last o minimum else { s with hasState := true }.searchKey R M work last o minimum with
    | some x => .ok x
    | none => .error .undefined

/-! ### The search for a size -/

/-- `encode_with_target_size` (src/encoder/encoder.cc:592-629).  `estimate` is `estimate_frame_size`, which takes copies of what it changes
(src/encoder/size_estimation.cc:35-181). -/
def Session.encodeWithTarget (R : Renderer) (estimate : Nat → Nat) (w : Work) (s : Session) (o : Raster) (target : Nat) :
    Except EncodeError (Session × List UInt8 × Raster) :=
  if !s.fits o then .error .scaling
  else s.encodeWithQuantizer R w o (targetQuantizer estimate target s.lastQi).1

/-! ### Any calls -/

/-- A call that asks for a frame. -/
inductive Call (Q : Type) where
  | quantizer (o : Raster) (qi : Nat) (w : Work)
  | minimum (o : Raster) (m : Q) (work : Nat → Work) (last : Work)
  | target (o : Raster) (size : Nat) (estimate : Nat → Nat) (w : Work)

/-- The call made. -/
def Session.call {Q : Type} [LinearOrder Q] (R : Renderer) (M : Meter Q) (s : Session) : Call Q → Except EncodeError (Session × List UInt8 × Raster)
  | .quantizer o qi w => s.encodeWithQuantizer R w o qi
  | .minimum o m work last => s.encodeWithMinimum R M work last o m
  | .target o size estimate w => s.encodeWithTarget R estimate w o size

/-- Calls made one after the other, up to the first that fails: the frames and the pictures. -/
def Session.calls {Q : Type} [LinearOrder Q] (R : Renderer) (M : Meter Q) (s : Session) : List (Call Q) → Except EncodeError (Session × List (List UInt8 × Raster))
  | [] => .ok (s, [])
  | c :: rest => do
    let (s, x) ← s.call R M c
    let (s, xs) ← s.calls R M rest
    pure (s, x :: xs)

end Alfalfa
