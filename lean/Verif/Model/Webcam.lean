import Verif.Model.Convert

/-! The program that plays a file of raw video as a camera would (src/salsify/fake-webcam.cc).  The waiting between the pictures is not modelled. -/

namespace Alfalfa

/-- The header that is sent (src/salsify/fake-webcam.cc:82-84). -/
def webcamHeader (fps : Nat) (r : Raster) : Y4MHeader := { Y4MHeader.ofRaster r with fpsNumerator := fps, fpsDenominator := 1 }

/-- The loop (src/salsify/fake-webcam.cc:69-91), with at most `n` rounds: what is written, and the exception that ended it, if one did. -/
def fakeWebcamLoop (fps : Nat) : (n : Nat) → Y4MReader × List (Option Raster) → (initialized : Bool) → List UInt8 × Option XcEncError
  | 0, _, _ => ([], none)
  | n + 1, i, initialized =>
    match y4mInput i with
    | .error e => ([], some e)
    | .ok (none, _) => ([], none)
    | .ok (some x, i) =>
      let header := if initialized then [] else (webcamHeader fps x).text
      let rest := fakeWebcamLoop fps n i true
      (header ++ (y4mFrame x ++ rest.1), rest.2)

/-- `main` (src/salsify/fake-webcam.cc:43-92).  `pool` are the pictures that the pool is going to hand out. -/
def fakeWebcam (fps : Nat) (pool : List (Option Raster)) (file : List UInt8) : List UInt8 × Option XcEncError :=
  match Y4MReader.open file with
  | .error e => ([], some (.y4m e))
  | .ok r => fakeWebcamLoop fps (pool.length + 1) (r, pool) false

end Alfalfa
