import Verif.Model.Bundle

/-! Writing a saved state to a file (src/decoder/enc_state_serializer.hh:107-115). -/

namespace Alfalfa

/-- What the system does for a program that writes a file: whether it can be opened, and how many bytes each of the calls that store bytes takes, up to the
moment in question; 0 is a call that fails.  The pieces are those in which `std::ofstream` stores its buffer.  Simplified: once a call has failed, the calls that
the destructor of the stream makes fail too. -/
structure OutputRun where
  opens : Bool
  calls : List Nat

/-- How many of `n` bytes are stored by these calls: the stream makes no call when there is nothing left, and none after one that has failed. -/
def storedCount : Nat → List Nat → Nat
  | _, [] => 0
  | n, c :: calls => if c = 0 ∨ n = 0 then 0 else min c n + storedCount (n - min c n) calls

/-- `EncoderStateSerializer::write( const char * )` (src/decoder/enc_state_serializer.hh:107-111): the content of the file afterwards, `none` if there is no file.
Opening it removes what it held; if it cannot be opened the stream takes no bytes.  The function does not look at the state of the stream. -/
def writeStateFile (run : OutputRun) (old : Option (List UInt8)) (bytes : List UInt8) : Option (List UInt8) :=
  if run.opens then some (bytes.take (storedCount bytes.length run.calls)) else old

/-- `xc-dump` with its output file (src/frontend/xc-dump.cc:104-149): the file afterwards, and the error that it reports, if any.  The file is opened after the last
frame has been decoded. -/
def xcDumpFile (R : Renderer) (mix : Nat → Nat → Nat) (fresh : References) (start : Option (Raster × List UInt8)) (video : List UInt8) (frameNumber : Option Nat)
    (run : OutputRun) (old : Option (List UInt8)) : Option (List UInt8) × Option BundleError :=
  match xcDump R mix fresh start video frameNumber with
  | .ok state => (writeStateFile run old state, none)
  | .error e => (old, some e)

end Alfalfa
