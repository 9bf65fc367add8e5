import Verif.Model.Session
import Verif.Model.Player
import Verif.Model.Y4m

/-! From file to file: the encoder program (src/frontend/xc-enc.cc) without `--reencode` and without state files, and the pictures that the decoder
program (src/frontend/vp8decode.cc) writes out. -/

namespace Alfalfa

/-- How `xc-enc` ends when it does not end well: in its input, in the encoder, in its output. -/
inductive XcEncError where
  | y4m (e : Y4MError)
  | ivf (e : FrameError)
  | encode (e : EncodeError)
  | output (e : FrameError)
deriving DecidableEq

/-- `YUV4MPEGReader::get_next_frame` as a `FrameInput` (src/input/frame_input.hh:35-42).  The state is the reader, and the pictures that the pool is going to
hand out; if there are no more of them the model says that the file has ended, so they must be enough. -/
def y4mInput : Y4MReader × List (Option Raster) → Except XcEncError (Option Raster × (Y4MReader × List (Option Raster)))
  | (r, []) => .ok (none, (r, []))
  | (r, raster :: pool) =>
    match r.nextFrame raster with
    | .error e => .error (.y4m e)
    | .ok (x, r) => .ok (x, (r, pool))

/-- `IVFReader::get_next_frame` (src/input/ivf_reader.cc:35-42). -/
def ivfInput (R : Renderer) (p : FilePlayer) : Except XcEncError (Option Raster × FilePlayer) :=
  if p.eof then .ok (none, p)
  else
    match p.advance R with
    | (_, .error e) => .error (.ivf e)
    | (p, .ok x) => .ok (some x, p)

/-- `read_next_frame_size` (src/frontend/xc-enc.cc:85-94) in its `k`-th call: `sizes` are the numbers in the file.  When there are no more of them the last
size stays.  How the numbers are written is not modelled. -/
def nextFrameSize (sizes : List Nat) (k : Nat) : Nat := sizes[k]?.getD (sizes.getLast?.getD (2 ^ 64 - 1))

/-- `encoder_mode` with its arguments (src/frontend/xc-enc.cc:358-378). -/
inductive XcEncMode (Q : Type) where
  | minimumSsim (ssim : Q)
  | constantQuantizer (qi : Nat)
  | targetFrameSize (sizes : List Nat)

/-- What the encoder takes from outside the model for one picture: the work of the trials and of the encoding that is kept, and the estimates of sizes. -/
structure Inside where
  trials : Nat → Work
  work : Work
  estimate : Nat → Nat

/-- The call for the `k`-th picture (src/frontend/xc-enc.cc:358-378).  The estimate that is printed in one of the modes (src/frontend/xc-enc.cc:364) does not
change what is modelled of the encoder. -/
def XcEncMode.ask {Q : Type} (mode : XcEncMode Q) (inside : Nat → Inside) (k : Nat) (x : Raster) : Call Q :=
  match mode with
  | .minimumSsim ssim => .minimum x ssim (inside k).trials (inside k).work
  | .constantQuantizer qi => .quantizer x qi (inside k).work
  | .targetFrameSize sizes => .target x (nextFrameSize sizes k) (inside k).estimate (inside k).work

/-- The loop over the pictures (src/frontend/xc-enc.cc:350-384), with at most `n` rounds. -/
def xcEncLoop {σ Q : Type} [LinearOrder Q] (next : σ → Except XcEncError (Option Raster × σ)) (R : Renderer) (M : Meter Q) (mode : XcEncMode Q) (inside : Nat → Inside) :
    (n : Nat) → σ → (frameNo : Nat) → Session → IVFWriter → Except XcEncError IVFWriter
  | 0, _, _, _, w => .ok w
  | n + 1, i, k, s, w =>
    match next i with
    | .error e => .error e
    | .ok (none, _) => .ok w
    | .ok (some x, i) =>
      match s.call R M (mode.ask inside k x) with
      | .error e => .error (.encode e)
      | .ok (s, bytes, _) =>
        match w.append bytes with
        | .error e => .error (.output e)
        | .ok (w, _) => xcEncLoop next R M mode inside n i (k + 1) s w

/-- What follows the opening of the input (src/frontend/xc-enc.cc:258,324-383): the file it writes.  The references and the frames of a new encoder come
from the pools. -/
def xcEncFrom {σ Q : Type} [LinearOrder Q] (next : σ → Except XcEncError (Option Raster × σ)) (R : Renderer) (M : Meter Q) (mode : XcEncMode Q) (inside : Nat → Inside)
    (realtime : Bool) (references : References) (rounds : Nat) (width height : Nat) (i : σ) : Except XcEncError (List UInt8) :=
  match IVFWriter.create vp80 width height 1 1 with
  | .error e => .error (.output e)
  | .ok w =>
    match Session.create width height realtime references with
    | none => .error (.encode .undefined)
    | some s =>
      match xcEncLoop next R M mode inside rounds i 0 s w with
      | .error e => .error e
      | .ok w => .ok w.file

/-- `xc-enc -i y4m` (src/frontend/xc-enc.cc:238-245). -/
def xcEncY4m {Q : Type} [LinearOrder Q] (R : Renderer) (M : Meter Q) (mode : XcEncMode Q) (inside : Nat → Inside) (realtime : Bool) (references : References)
    (pool : List (Option Raster)) (file : List UInt8) : Except XcEncError (List UInt8) :=
  match Y4MReader.open file with
  | .error e => .error (.y4m e)
  | .ok r => xcEncFrom y4mInput R M mode inside realtime references (pool.length + 1) r.header.width r.header.height (r, pool)

/-- `xc-enc -i ivf` (src/frontend/xc-enc.cc:230-237).  `fresh` is what the pool gives to the decoder. -/
def xcEncIvf {Q : Type} [LinearOrder Q] (R : Renderer) (M : Meter Q) (mode : XcEncMode Q) (inside : Nat → Inside) (realtime : Bool) (references fresh : References)
    (file : List UInt8) : Except XcEncError (List UInt8) :=
  match FilePlayer.open fresh file with
  | .error e => .error (.ivf e)
  | .ok p => xcEncFrom (ivfInput R) R M mode inside realtime references (p.file.frameCount + 1) p.decoder.state.width p.decoder.state.height p

/-- What `vp8decode -o` has written after these pictures (src/frontend/vp8decode.cc:85-93): the header with the first of them. -/
def y4mOutput : List Raster → List UInt8
  | [] => []
  | first :: others => y4mFile first others

/-- `vp8decode -o` (src/frontend/vp8decode.cc:78-95): the file it writes, and the exception that ended it, if one did. -/
def vp8decodeFile (R : Renderer) (fresh : References) (bytes : List UInt8) : List UInt8 × Option FrameError :=
  (y4mOutput (vp8decode R fresh bytes).1, (vp8decode R fresh bytes).2)

end Alfalfa
