import Verif.Model.Player
import Verif.Model.SaveState

/-! The chunk terminator (src/frontend/xc-terminate-chunk.cc): it copies a file frame by frame, makes the last frame refresh all three references, and
saves the decoder.

Not modelled: the command line, opening and creating the files. -/

namespace Alfalfa

/-- What is done to the header of the last frame, if that is an inter frame (src/frontend/xc-terminate-chunk.cc:94-98). -/
def InterFrameHeader.terminated (h : InterFrameHeader) : InterFrameHeader :=
  { h with refreshLast := true, refreshGoldenFrame := true, refreshAlternateFrame := true, copyBufferToGolden := none, copyBufferToAlternate := none }

/-- The body of the loop (src/frontend/xc-terminate-chunk.cc:83-104): the decoder afterwards and the frame to be written.  Unlike
`get_frame_output` it does not look whether an inter frame is experimental. -/
def terminateFrame (R : Renderer) (d : Decoder) (last : Bool) (bytes : List UInt8) : Except FrameError (Decoder × List UInt8) := do
  let c ← splitFrame bytes d.state.width d.state.height false
  if c.keyFrame then
    match d.state.applyKey c with
    | (_, .error e) => throw e
    | (st, .ok f) =>
      match keyKind.serialize st.tables f.frame with
      | none => throw .internal
      | some out => pure ((Decoder.decodeKey R { d with state := st } f).1, out)
  else
    match d.state.applyInter c with
    | (_, .error e) => throw e
    | (st, .ok f) =>
      let f := if last then { f with frame := { f.frame with header := f.frame.header.terminated } } else f
      match interKind.serialize st.tables f.frame with
      | none => throw .internal
      | some out => pure ((Decoder.decodeInter R { d with state := st } f).1, out)

/-- The loop over the frames (src/frontend/xc-terminate-chunk.cc:82-105), `n` of them from index `i` on. -/
def terminateLoop (R : Renderer) (ivf : IVF) : (n i : Nat) → Decoder → IVFWriter → Except FrameError (Decoder × IVFWriter)
  | 0, _, d, w => .ok (d, w)
  | n + 1, i, d, w => do
    let f ← ivf.frame i
    let (d, out) ← terminateFrame R d (i == ivf.frameCount - 1) f
    let (w, _) ← w.append out
    terminateLoop R ivf n (i + 1) d w

/-- The program (src/frontend/xc-terminate-chunk.cc:72-111): the file that it writes and the file with the state of the decoder. -/
def xcTerminateChunk (R : Renderer) (mix : Nat → Nat → Nat) (fresh : References) (bytes : List UInt8) : Except FrameError (List UInt8 × List UInt8) := do
  let ivf ← IVF.open bytes
  let w ← IVFWriter.create ivf.fourcc ivf.width ivf.height ivf.frameRate ivf.timeScale
  let d := Decoder.new fresh ivf.width ivf.height
  if d.minihashMatch mix ivf.expectedMinihash = false then throw .invalid
  let (d, w) ← terminateLoop R ivf ivf.frameCount 0 d w
  pure (w.file, saveDecoder d)

end Alfalfa
