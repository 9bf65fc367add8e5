import Verif.Model.Convert

/-! The comparison of two videos (src/frontend/xc-ssim.cc, src/util/ssim.cc).  The measure is a function of libx264, which is not in the repository: here it is a
parameter, a function of the pixels that it is pointed at. -/

namespace Alfalfa

/-- The pixels that `x264_8_pixel_ssim_wxh` reads at a pointer to the first pixel of a plane, row by row (src/util/ssim.cc:65-68); `none`: it reads outside of the
storage.  Simplified: libx264 looks only at whole squares of four by four pixels; the planes of a raster have nothing else. -/
def Plane.fetch (p : Plane) (stride width height : Nat) : Option (List (List UInt8)) :=
  (List.range height).mapM fun row => (List.range width).mapM fun column => p.load ((row * stride + column : Nat) : Int)

/-- `ssim` (src/util/ssim.cc:57-71): the size is that of the first image, the distance of the rows that of each.  The quotient by the count is a part of `measure`,
because the count depends on the size alone; the buffer for intermediate sums is libx264's. -/
def ssim {Q : Type} (measure : List (List UInt8) → List (List UInt8) → Q) (image other : Plane) : Option Q := do
  let a ← image.fetch image.width image.width image.height
  let b ← other.fetch other.width image.width image.height
  pure (measure a b)

/-- The numbers in one line of the output (src/frontend/xc-ssim.cc:97-104). -/
def ssimLine {Q : Type} (measure : List (List UInt8) → List (List UInt8) → Q) (allPlanes : Bool) (a b : Raster) : Option (List Q) := do
  let y ← ssim measure a.y b.y
  if allPlanes then do
    let u ← ssim measure a.u b.u
    let v ← ssim measure a.v b.v
    pure [y, u, v]
  else pure [y]

/-- How the program ends: well, by an exception of a reader, because of a format that it does not know, or with a read outside of a plane.  `running`: it has not
ended within the given number of rounds. -/
inductive SsimEnd where
  | success
  | exception (e : XcEncError)
  | unsupported
  | outside
  | running
deriving DecidableEq

/-- The loop (src/frontend/xc-ssim.cc:96-111): the lines that it prints and how it ends. -/
def ssimLoop {σ Q : Type} (next : σ → Except XcEncError (Option Raster × σ)) (measure : List (List UInt8) → List (List UInt8) → Q) (allPlanes : Bool) :
    Nat → Option Raster × σ → Option Raster × σ → List (List Q) × SsimEnd
  | 0, _, _ => ([], .running)
  | rounds + 1, (some a, i), (some b, j) =>
    match ssimLine measure allPlanes a b with
    | none => ([], .outside)
    | some line =>
      match next i with
      | .error e => ([line], .exception e)
      | .ok x =>
        match next j with
        | .error e => ([line], .exception e)
        | .ok y => (line :: (ssimLoop next measure allPlanes rounds x y).1, (ssimLoop next measure allPlanes rounds x y).2)
  | _ + 1, _, _ => ([], .success)

/-- The two formats (src/frontend/xc-ssim.cc:80-90). -/
inductive VideoFormat | ivf | y4m
deriving DecidableEq

/-- The comparison of the argument with the names of the formats (src/frontend/xc-ssim.cc:80-89). -/
def videoFormat (s : String) : Option VideoFormat := if s = "ivf" then some .ivf else if s = "y4m" then some .y4m else none

/-- `main` (src/frontend/xc-ssim.cc:27-114), given the arguments of `-1` and `-2` if there are any, and two files.  Opening and reading a file are parameters; the
strings are empty at the start (src/frontend/xc-ssim.cc:38).  The readers have one pool of rasters, which throws when the size changes: such an exception is one of
`next`. -/
def xcSsim {σ Q F : Type} (openFile : VideoFormat → F → Except XcEncError σ) (next : σ → Except XcEncError (Option Raster × σ))
    (measure : List (List UInt8) → List (List UInt8) → Q) (allPlanes : Bool) (format1 format2 : Option String) (file1 file2 : F) (rounds : Nat) : List (List Q) × SsimEnd :=
  match videoFormat (format1.getD "") with
  | none => ([], .unsupported)
  | some f1 =>
    match openFile f1 file1 with
    | .error e => ([], .exception e)
    | .ok i =>
      match videoFormat (format2.getD "") with
      | none => ([], .unsupported)
      | some f2 =>
        match openFile f2 file2 with
        | .error e => ([], .exception e)
        | .ok j =>
          match next i with
          | .error e => ([], .exception e)
          | .ok x =>
            match next j with
            | .error e => ([], .exception e)
            | .ok y => ssimLoop next measure allPlanes rounds x y

end Alfalfa
