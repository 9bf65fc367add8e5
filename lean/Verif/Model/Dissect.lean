import Verif.Model.Render
import Verif.Model.Ivf

/-! The program that prints what is in the frames of a file (src/frontend/xc-dissect.cc).  The output is a list of sections with the values that are printed; how they
are laid out on the lines is not modelled. -/

namespace Alfalfa

/-- The names of the modes of a macroblock (src/frontend/xc-dissect.cc:86-88). -/
def mbmodeNames : List String := ["DC_PRED", "V_PRED", "H_PRED", "TM_PRED", "B_PRED", "NEARESTMV", "NEARMV", "ZEROMV", "NEWMV", "SPLITMV"]

/-- The names of the modes of a block (src/frontend/xc-dissect.cc:90-93). -/
def bmodeNames : List String :=
  ["B_DC_PRED", "B_TM_PRED", "B_VE_PRED", "B_HE_PRED", "B_LD_PRED", "B_RD_PRED", "B_VR_PRED", "B_VL_PRED", "B_HD_PRED", "B_HU_PRED", "LEFT4X4", "ABOVE4X4", "ZERO4X4", "NEW4X4"]

/-- The names of the references (src/frontend/xc-dissect.cc:95-96). -/
def referenceNames : List String := ["CURRENT_FRAME", "LAST_FRAME", "GOLDEN_FRAME", "ALTREF_FRAME"]

/-- What is printed of the modes of one macroblock. -/
structure MBText where
  yMode : String
  motion : Option (MotionVector × String)
  blocks : Option (List String)
  uvMode : Option String
deriving DecidableEq

/-- The part of `print_frame_info` for one macroblock (src/frontend/xc-dissect.cc:278-351), without the coefficients; `none`: an index past the end of an array of
names, or a reference that is not there. -/
def dissectMB (m : MBModes) : Option MBText := do
  let yMode ← mbmodeNames[m.yMode]?
  let motion ← if m.isInter then do
      let r ← m.reference
      let name ← referenceNames[r.val]?
      pure (some (m.mvs 15, name))
    else pure none
  let blocks ← if m.yMode = B_PRED ∨ m.yMode = SPLITMV then do
      let names ← (List.finRange 16).mapM fun i => bmodeNames[m.bModes i]?
      pure (some names)
    else pure none
  let uvMode ← if ¬ m.isInter then do
      let name ← mbmodeNames[m.uvMode]?
      pure (some name)
    else pure none
  pure { yMode, motion, blocks, uvMode }

/-- What is printed of the contents of a frame: everything in its header and its coefficients, as read, and the modes of its macroblocks. -/
inductive DissectedFrame where
  | key (p : ParsedFrame KeyFrameHeader) (macroblocks : List MBText)
  | inter (p : ParsedFrame InterFrameHeader) (macroblocks : List MBText)

/-- What is printed for one frame (src/frontend/xc-dissect.cc:447-471): its number, whether it is a key frame, its size; then its contents, if it can be read. -/
structure DissectSection where
  number : Nat
  key : Bool
  size : Nat
  contents : Option DissectedFrame

/-- How the program ends: well, by an exception, or with a read past the end of an array. -/
inductive DissectEnd
  | success
  | exception (e : FrameError)
  | outside
deriving DecidableEq

/-- The loop (src/frontend/xc-dissect.cc:444-472): `n` frames from `i` on.  `target` is `SIZE_MAX` when all frames are to be printed. -/
def dissectLoop (ivf : IVF) (target : Nat) : (n i : Nat) → DecoderState → List DissectSection × DissectEnd
  | 0, _, _ => ([], .success)
  | n + 1, i, st =>
    match ivf.frame i with
    | .error e => ([], .exception e)
    | .ok bytes =>
      match splitFrame bytes ivf.width ivf.height false with
      | .error e => ([], .exception e)
      | .ok c =>
        let printed (x : Option DissectedFrame) : List DissectSection :=
          if target = 2 ^ 64 - 1 ∨ i = target then [{ number := i, key := c.keyFrame, size := bytes.length, contents := x }] else []
        if c.keyFrame then
          match ({ width := ivf.width, height := ivf.height } : DecoderState).applyKey c with
          | (_, .error e) => (printed none, .exception e)
          | (st, .ok p) =>
            match p.frame.modes.mapM dissectMB with
            | none => if target = 2 ^ 64 - 1 ∨ i = target then (printed none, .outside) else dissectLoop ivf target n (i + 1) st
            | some l => (printed (some (.key p l)) ++ (dissectLoop ivf target n (i + 1) st).1, (dissectLoop ivf target n (i + 1) st).2)
        else
          match st.applyInter c with
          | (_, .error e) => (printed none, .exception e)
          | (st, .ok p) =>
            match p.frame.modes.mapM dissectMB with
            | none => if target = 2 ^ 64 - 1 ∨ i = target then (printed none, .outside) else dissectLoop ivf target n (i + 1) st
            | some l => (printed (some (.inter p l)) ++ (dissectLoop ivf target n (i + 1) st).1, (dissectLoop ivf target n (i + 1) st).2)

/-- `main` (src/frontend/xc-dissect.cc:374-475) with `--macroblocks`, `--coefficients` and `--probability-tables`; `target`: the argument of `--frame`; `initial`: the
state in the file of `--initial-state`.  The comparison of hashes only prints a warning. -/
def dissect (initial : Option DecoderState) (target : Option Nat) (file : List UInt8) : Except FrameError (List DissectSection × DissectEnd) := do
  let ivf ← IVF.open file
  pure (dissectLoop ivf (target.getD (2 ^ 64 - 1)) ivf.frameCount 0 (initial.getD { width := ivf.width, height := ivf.height }))

end Alfalfa
