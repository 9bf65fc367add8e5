import Verif.Model.SaveState
import Verif.Model.StateHash
import Verif.Model.Tree

/-! The project's own randomised tests (src/tests/serdes-test.cc, src/tests/encode-loopback.cc) as functions of the numbers the
random engine gives. -/

namespace Alfalfa

/-- What the random engine is going to give. -/
abbrev Draws := Nat → Nat

abbrev Gen := StateM Draws

/-- `rng()`. -/
def rng : Gen Nat := fun s => (s 0, fun n => s (n + 1))

/-- `f = rng()` for a `uint8_t`. -/
def rngByte : Gen UInt8 := do pure (UInt8.ofNat (← rng))

/-- `f = rng()` for an `int8_t`. -/
def rngInt8 : Gen Int := do pure ((((← rng) + 128) % 256 : Nat) - 128)

/-- `rng()` as a condition or assigned to a `bool`. -/
def rngBool : Gen Bool := do pure ((← rng) ≠ 0)

/-- `hwdist` (src/tests/serdes-test.cc:41-43): some number from 1 to 512; how the library makes it from `rng()` does not
matter, and neither does the order in which two are drawn (src/tests/serdes-test.cc:186,220,239). -/
def hwdist : Gen Nat := do pure (1 + (← rng) % 512)

/-- A loop filling an array. -/
def genFn {α : Type} (g : Gen α) : (n : Nat) → Gen (Fin n → α)
  | 0 => pure fun i => i.elim0
  | n + 1 => do
    let a ← g
    let f ← genFn g n
    pure (Fin.cons a f)

/-- `forall` on a grid, or `emplace_back` in a loop. -/
def genList {α : Type} (g : Gen α) : Nat → Gen (List α)
  | 0 => pure []
  | n + 1 => do
    let a ← g
    let l ← genList g n
    pure (a :: l)

/-! ### serdes-test -/

/-- `random_probability_tables` (src/tests/serdes-test.cc:158-183). -/
def randomTables : Gen ProbabilityTables := do
  let coeffProbs ← genFn (genFn (genFn (genFn rngByte 11) 3) 8) 4
  let yModeProbs ← genFn rngByte 4
  let uvModeProbs ← genFn rngByte 3
  let mvProbs ← genFn (genFn rngByte 19) 2
  pure { coeffProbs, yModeProbs, uvModeProbs, mvProbs }

/-- `random_segmentation( rng, width, height )` (src/tests/serdes-test.cc:189-202). -/
def randomSegmentation (width height : Nat) : Gen Segmentation := do
  let absolute ← rngBool
  let adjustments ← genFn (do let q ← rngInt8; let f ← rngInt8; pure (q, f)) 4
  let map ← genList (do pure (← rngByte).toNat) (width * height)
  pure { absolute, quantizer := fun i => (adjustments i).1, filter := fun i => (adjustments i).2, mapWidth := width, mapHeight := height, map }

/-- `random_filter_adjustments` (src/tests/serdes-test.cc:204-216). -/
def randomFilter : Gen FilterAdjustments := do
  let ref ← genFn rngInt8 4
  let mode ← genFn rngInt8 4
  pure { ref, mode }

/-- `if (rng()) { … }` (src/tests/serdes-test.cc:226-232). -/
def genOptional {α : Type} (g : Gen α) : Gen (Option α) := do
  let b ← rngBool
  if b then some <$> g else pure none

/-- `random_decoder_state( rng, width, height )` (src/tests/serdes-test.cc:222-235). -/
def randomState (width height : Nat) : Gen DecoderState := do
  let segmentation ← genOptional (randomSegmentation width height)
  let filterAdjustments ← genOptional randomFilter
  let tables ← randomTables
  pure { width, height, tables, segmentation, filterAdjustments }

/-- `random_mutable_raster_handle` (src/tests/serdes-test.cc:251-259). -/
def randomRaster (width height : Nat) : Gen Raster := do
  let w := 16 * macroblockDimension width
  let h := 16 * macroblockDimension height
  let y ← genList rngByte (w * h)
  let u ← genList rngByte (w / 2 * (h / 2))
  let v ← genList rngByte (w / 2 * (h / 2))
  pure { displayWidth := width, displayHeight := height, y := ⟨w, h, y⟩, u := ⟨w / 2, h / 2, u⟩, v := ⟨w / 2, h / 2, v⟩ }

/-- `random_references( rng, width, height )` (src/tests/serdes-test.cc:241-249): one picture, three times. -/
def randomReferences (width height : Nat) : Gen References := do
  let last ← randomRaster width height
  pure ⟨last, last, last⟩

/-- `random_decoder` (src/tests/serdes-test.cc:261-265). -/
def randomDecoder : Gen Decoder := do
  let width ← hwdist
  let height ← hwdist
  let state ← randomState width height
  let references ← randomReferences width height
  pure { state, references }

/-- `References::operator==` (src/decoder/decoder.cc:214-218): pictures are compared by their hashes
(src/decoder/raster_handle.cc:185-188). -/
def References.sameAs (mix : Nat → Nat → Nat) (r s : References) : Bool :=
  r.last.hash mix = s.last.hash mix ∧ r.golden.hash mix = s.golden.hash mix ∧ r.alternative.hash mix = s.alternative.hash mix

open Classical in
/-- `run_one_test` (src/tests/serdes-test.cc:137-149), for any of the six types: draw a value, save it, load what was saved, and
compare.  `none` is an assertion that fails or an exception while loading, `false` the exception of the test.  The temporary file is
taken to hold what is written to it; `fseek` writes out what is buffered (src/util/file_descriptor.hh:57-59). -/
noncomputable def runOneTest {α : Type} (gen : Gen α) (save : α → List UInt8) (load : List UInt8 → Option α) (same : α → α → Prop) : Gen (Option Bool) := do
  let x ← gen
  pure ((load (save x)).map fun y => decide (same x y))

/-- A loop of tests (src/tests/serdes-test.cc:81-120).  The first one that does not succeed ends the program.  The dots printed
on the way are left out. -/
def repeatTest (test : Gen (Option Bool)) : Nat → Gen (Option Bool)
  | 0 => pure (some true)
  | n + 1 => do
    match ← test with
    | some true => repeatTest test n
    | other => pure other

/-- One loop of tests after the other. -/
def testsInTurn : List (Gen (Option Bool)) → Gen (Option Bool)
  | [] => pure (some true)
  | t :: ts => do
    match ← t with
    | some true => testsInTurn ts
    | other => pure other

/-- `main` of serdes-test (src/tests/serdes-test.cc:69-129) with `n` tests of each kind.  The size of the temporary file is that of
what was written; only a decoder must fill it (src/decoder/decoder.cc:51,76). -/
noncomputable def serdesTest (mix : Nat → Nat → Nat) (blank : Raster) (n : Nat) : Gen (Option Bool) :=
  testsInTurn [
    repeatTest (runOneTest randomTables saveTables (fun b => (loadTables b).map (·.1)) (· = ·)) n,
    repeatTest (runOneTest (do randomSegmentation (← hwdist) (← hwdist)) saveSegmentation (fun b => (loadSegmentation b).map (·.1)) (· = ·)) n,
    repeatTest (runOneTest randomFilter saveFilter (fun b => (loadFilter b).map (·.1)) (· = ·)) n,
    repeatTest (runOneTest (do randomState (← hwdist) (← hwdist)) saveState (fun b => (loadState b).map (·.1)) (· = ·)) n,
    repeatTest (runOneTest (do randomReferences (← hwdist) (← hwdist)) saveReferences (fun b => (loadReferences blank b).map (·.1))
      (fun r s => r.sameAs mix s = true)) n,
    repeatTest (runOneTest randomDecoder saveDecoder (loadDecoder blank)
      (fun d e => d.state = e.state ∧ d.references.sameAs mix e.references = true)) n]

/-! ### encode-loopback -/

/-- Reading the bits back one by one (src/tests/encode-loopback.cc:81-87). -/
def compareBits : List (Prob × Bool) → BoolDecoder → Bool
  | [], _ => true
  | x :: xs, d => if (d.get x.1).1 ≠ x.2 then false else compareBits xs (d.get x.1).2

/-- `encode` (src/tests/encode-loopback.cc:40-50); `none` is a carry that runs off the front of the output. -/
def encodeBitlist (bitlist : List (Prob × Bool)) : Option (List UInt8) := encodeBits (bitlist.map fun x => (x.2, x.1))

/-- `&encoded_string.front()` of an empty vector is undefined: `none`. -/
def loopbackDecoder (bytes : List UInt8) : Option BoolDecoder := if bytes = [] then none else some (BoolDecoder.init bytes)

/-- A trial with bits (src/tests/encode-loopback.cc:70-88). -/
def bitTrial (count : Nat) : Gen (Option Bool) := do
  let bitlist ← genList (do let p ← rngByte; let b ← rng; pure (p, decide (b % 2 = 1))) count
  pure do
    let bytes ← encodeBitlist bitlist
    let d ← loopbackDecoder bytes
    pure (compareBits bitlist d)

/-- A trial with the mode `i` of the tree of luma modes (src/tests/encode-loopback.cc:93-115). -/
def treeTrial (i : Nat) : Gen (Option Bool) := do
  let probabilities ← genList rngByte 4
  pure do
    let bits ← writeTree kfYModeTree i probabilities
    let bytes ← encodeBits bits
    let d ← loopbackDecoder bytes
    let (decoded, _) ← readTree kfYModeTree probabilities d
    pure (decoded = i)

/-- `main` of encode-loopback (src/tests/encode-loopback.cc:52-124). -/
def encodeLoopback : Gen (Option Bool) :=
  testsInTurn [repeatTest (bitTrial 10000) 200, repeatTest (testsInTurn ((List.range 5).map treeTrial)) 200]

end Alfalfa
