import Verif.Model.Player

/-! The program that removes the coefficients of inter frames (src/frontend/xc-zero-out-residues.cc): it copies a file frame by frame, key frames as they
are and inter frames with all their coefficients zero.

Not modelled: the command line, opening and creating the files. -/

namespace Alfalfa

/-- `Block::zero_out` (src/decoder/block.hh:122-125,235-239). -/
def Block.zeroOut (_ : Block) : Block := { coeffs := fun _ => 0, hasNonzero := false }

/-- `Macroblock::zero_out` on the header of a macroblock (src/encoder/encoder.cc:680). -/
def MBModes.zeroOut (m : MBModes) : MBModes := { m with skip := some true }

/-- `Macroblock::zero_out` on its blocks (src/encoder/encoder.cc:661-679): a Y2 block that is not coded and the flag `has_nonzero_` of the macroblock are left. -/
def Residue.zeroOut (m : MBModes) (r : Residue) : Residue :=
  { y2 := if m.y2Coded then r.y2.zeroOut else r.y2
    y := fun i => (r.y i).zeroOut
    u := fun i => (r.u i).zeroOut
    v := fun i => (r.v i).zeroOut
    nonzero := r.nonzero }

/-- The loop over the macroblocks of an inter frame (src/frontend/xc-zero-out-residues.cc:92-97). -/
def Frame.zeroOut (f : Frame InterFrameHeader) : Frame InterFrameHeader :=
  { f with modes := f.modes.map MBModes.zeroOut, residues := List.zipWith Residue.zeroOut f.modes f.residues }

/-- The body of the loop (src/frontend/xc-zero-out-residues.cc:79-100): the decoder afterwards and the frame to be written.  The decoder decodes the
frame that was read.  An inter frame is written with the tables that were there before it is decoded, which are those after it is parsed.
Like `xc-terminate-chunk` it does not look whether an inter frame is experimental. -/
def zeroOutFrame (R : Renderer) (d : Decoder) (bytes : List UInt8) : Except FrameError (Decoder × List UInt8) := do
  let c ← splitFrame bytes d.state.width d.state.height false
  if c.keyFrame then
    match d.state.applyKey c with
    | (_, .error e) => throw e
    | (st, .ok f) =>
      match keyKind.serialize st.tables f.frame with
      | none => throw .internal
      | some out => pure ((Decoder.decodeKey R { d with state := st } f).1, out)
  else
    match d.state.applyInter c with
    | (_, .error e) => throw e
    | (st, .ok f) =>
      let d' := (Decoder.decodeInter R { d with state := st } f).1
      match interKind.serialize st.tables f.frame.zeroOut with
      | none => throw .internal
      | some out => pure (d', out)

/-- The loop over the frames (src/frontend/xc-zero-out-residues.cc:78-101), `n` of them from index `i` on. -/
def zeroOutLoop (R : Renderer) (ivf : IVF) : (n i : Nat) → Decoder → IVFWriter → Except FrameError IVFWriter
  | 0, _, _, w => .ok w
  | n + 1, i, d, w => do
    let f ← ivf.frame i
    let (d, out) ← zeroOutFrame R d f
    let (w, _) ← w.append out
    zeroOutLoop R ivf n (i + 1) d w

/-- The program (src/frontend/xc-zero-out-residues.cc:68-103): the file that it writes. -/
def xcZeroOutResidues (R : Renderer) (mix : Nat → Nat → Nat) (fresh : References) (bytes : List UInt8) : Except FrameError (List UInt8) := do
  let ivf ← IVF.open bytes
  let w ← IVFWriter.create ivf.fourcc ivf.width ivf.height ivf.frameRate ivf.timeScale
  let d := Decoder.new fresh ivf.width ivf.height
  if d.minihashMatch mix ivf.expectedMinihash = false then throw .invalid
  let w ← zeroOutLoop R ivf ivf.frameCount 0 d w
  pure w.file

end Alfalfa
