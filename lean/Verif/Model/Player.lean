import Verif.Model.Decoder
import Verif.Model.Ivf
import Verif.Model.StateHash

/-! Playback: `class FramePlayer`, `class FilePlayer` (src/decoder/player.{hh,cc}) and the loop of the programs that use them
(src/frontend/vp8decode.cc:78-95, src/frontend/vp8play.cc:45-57).

A new decoder takes its reference pictures from the picture pool, which does not clear them (src/decoder/decoder.cc:159-167,
src/decoder/raster_handle.cc:63-92): they are the argument `fresh`.  Not modelled: opening the file and writing the pictures out. -/

namespace Alfalfa

/-- `FilePlayer` (src/decoder/player.hh:73-97), without the file name; the size is the decoder's. -/
structure FilePlayer where
  decoder : Decoder
  file : IVF
  frameNo : Nat := 0

/-- `Decoder( width, height )` (src/decoder/decoder.cc:39-42,230-232). -/
def Decoder.new (fresh : References) (width height : Nat) : Decoder := { state := { width, height }, references := fresh }

/-- The loop of the constructor (src/decoder/player.cc:95-101), with `n` frames from `frameNo` on. -/
def FilePlayer.skip (d : Decoder) (file : IVF) : (n frameNo : Nat) → Except FrameError Nat
  | 0, k => .ok k
  | n + 1, k => do
    let f ← file.frame k
    let c ← splitFrame f d.state.width d.state.height false
    if c.keyFrame then .ok k else skip d file n (k + 1)

/-- `"VP80"` (src/decoder/player.cc:90,109). -/
def vp80 : List UInt8 := [0x56, 0x50, 0x38, 0x30]

/-- `FilePlayer( filename )` (src/decoder/player.cc:81-102). -/
def FilePlayer.open (fresh : References) (bytes : List UInt8) : Except FrameError FilePlayer := do
  let file ← IVF.open bytes
  let decoder := Decoder.new fresh file.width file.height
  if file.fourcc ≠ vp80 then throw .unsupported
  let frameNo ← FilePlayer.skip decoder file file.frameCount 0
  pure { decoder, file, frameNo }

/-- `FilePlayer( filename, file, idata )` and `FilePlayer::deserialize` (src/decoder/player.cc:104-124), from the decoder that was
read. -/
def FilePlayer.resume (mix : Nat → Nat → Nat) (decoder : Decoder) (bytes : List UInt8) : Except FrameError FilePlayer := do
  let file ← IVF.open bytes
  if file.fourcc ≠ vp80 then throw .unsupported
  if file.width ≠ decoder.state.width ∨ file.height ≠ decoder.state.height then throw .unsupported
  if decoder.minihashMatch mix file.expectedMinihash = false then throw .invalid
  pure { decoder, file }

/-- `FilePlayer::eof` (src/decoder/player.cc:142-145). -/
def FilePlayer.eof (p : FilePlayer) : Bool := p.frameNo == p.file.frameCount

/-- The loop of `FilePlayer::advance` (src/decoder/player.cc:132-139) with at most `n` frames left.  `frame_no_` is incremented
before the frame is read, so it has moved on also when that throws. -/
def FilePlayer.advanceLoop (R : Renderer) : (n : Nat) → FilePlayer → FilePlayer × Except FrameError Raster
  | 0, p => (p, .error .unsupported)
  | n + 1, p =>
    let k := p.frameNo
    let p := { p with frameNo := k + 1 }
    match p.file.frame k with
    | .error e => (p, .error e)
    | .ok f =>
      match p.decoder.parseAndDecodeFrame R f with
      | (d, .error e) => ({ p with decoder := d }, .error e)
      | (d, .ok (some r)) => ({ p with decoder := d }, .ok r)
      | (d, .ok none) => advanceLoop R n { p with decoder := d }

/-- `FilePlayer::advance` (src/decoder/player.cc:130-140). -/
def FilePlayer.advance (R : Renderer) (p : FilePlayer) : FilePlayer × Except FrameError Raster :=
  p.advanceLoop R (p.file.frameCount - p.frameNo)

/-- `while ( not player.eof() ) { … player.advance() … }` (src/frontend/vp8decode.cc:82-95): the pictures handed out, and the
exception that ended the loop, if one did.  `n` bounds the number of rounds; each round takes at least one frame. -/
def FilePlayer.playLoop (R : Renderer) : (n : Nat) → FilePlayer → List Raster × Option FrameError
  | 0, _ => ([], none)
  | n + 1, p =>
    if p.eof then ([], none)
    else match p.advance R with
      | (_, .error e) => ([], some e)
      | (p, .ok r) => let (rs, e) := p.playLoop R n; (r :: rs, e)

/-- The whole loop. -/
def FilePlayer.play (R : Renderer) (p : FilePlayer) : List Raster × Option FrameError := p.playLoop R (p.file.frameCount - p.frameNo)

/-- `vp8decode` on a file (src/frontend/vp8decode.cc:78-95), without a state file. -/
def vp8decode (R : Renderer) (fresh : References) (bytes : List UInt8) : List Raster × Option FrameError :=
  match FilePlayer.open fresh bytes with
  | .error e => ([], some e)
  | .ok p => p.play R

end Alfalfa
