import Verif.Model.Decoder

/-! Saving and restoring a decoder (src/decoder/enc_state_serializer.hh, src/decoder/decoder.cc:48-81,161-212,242-255,283-471,
src/decoder/probability_tables.cc:126-196).

Saving gives the bytes of the file.  Loading is a function of the bytes not yet read; `none` is an assertion that fails or
the exception of a read past the end. -/

namespace Alfalfa

/-- `put( T )` for an unsigned `T` of `n` bytes (src/decoder/enc_state_serializer.hh:75-82). -/
def putLE : Nat → Nat → List UInt8
  | 0, _ => []
  | n + 1, v => UInt8.ofNat (v &&& 0xff) :: putLE n (v >>> 8)

/-- `put( int8_t )`. -/
def putInt8 (v : Int) : List UInt8 := [UInt8.ofNat (v % 256).toNat]

abbrev Load := StateT (List UInt8) Option

/-- One byte (src/decoder/enc_state_serializer.hh:160). -/
def loadByte : Load UInt8 := fun
  | [] => none
  | b :: rest => some (b, rest)

/-- `get<T>` for an unsigned `T` of `n` bytes (src/decoder/enc_state_serializer.hh:156-164). -/
def loadLE : Nat → Load Nat
  | 0 => pure 0
  | n + 1 => do
    let b ← loadByte
    let r ← loadLE n
    pure (r <<< 8 ||| b.toNat)

/-- `get<int8_t>`. -/
def loadInt8 : Load Int := do
  let b ← loadByte
  pure (if b.toNat < 128 then (b.toNat : Int) else b.toNat - 256)

/-- A loop filling the `n` cells of an array. -/
def loadFn {α : Type} (p : Load α) : (n : Nat) → Load (Fin n → α)
  | 0 => pure (fun i => i.elim0)
  | n + 1 => do
    let a ← p
    let f ← loadFn p n
    pure (Fin.cons a f)

/-- A loop filling `n` cells of a grid. -/
def loadList {α : Type} (p : Load α) : Nat → Load (List α)
  | 0 => pure []
  | n + 1 => do
    let a ← p
    let f ← loadList p n
    pure (a :: f)

/-- `assert`. -/
def loadAssert (b : Bool) : Load Unit := if b then pure () else failure

/-- `remaining()` (src/decoder/enc_state_serializer.hh:145). -/
def loadRemaining : Load Nat := fun s => some (s.length, s)

/-- `peek_tag()` (src/decoder/enc_state_serializer.hh:148-150). -/
def loadPeek : Load Nat := fun
  | [] => none
  | b :: rest => some (b.toNat, b :: rest)

/-- `get_tag()` (src/decoder/enc_state_serializer.hh:152-154). -/
def loadTag : Load Nat := do pure (← loadByte).toNat

/-! `enum EncoderSerDesTag` (src/decoder/enc_state_serializer.hh:43-56). -/

abbrev TAG_PROB_TABLE : Nat := 0
abbrev TAG_FILT_ADJ : Nat := 1
abbrev TAG_SEGM_ABS : Nat := 2
abbrev TAG_SEGM_REL : Nat := 3
abbrev TAG_DECODER_STATE : Nat := 4
abbrev TAG_OPT_EMPTY : Nat := 5
abbrev TAG_OPT_FULL : Nat := 6
abbrev TAG_REFERENCES : Nat := 7
abbrev TAG_REF_LAST : Nat := 8
abbrev TAG_DECODER : Nat := 11

/-- A tag, a length and what follows, the form of every part of the file.  The code writes a placeholder for the length and
patches it later (src/decoder/decoder.cc:59-69,287-311); here it is the final value. -/
def saveSection (tag len : Nat) (payload : List UInt8) : List UInt8 := UInt8.ofNat tag :: (putLE 4 len ++ payload)

/-! ### Probability tables -/

/-- `len` (src/decoder/probability_tables.cc:127-128). -/
def tablesLen : Nat := 4 * 8 * 3 * 11 + 4 + 3 + 2 * 19

/-- `ProbabilityTables::serialize` (src/decoder/probability_tables.cc:126-158). -/
def saveTables (t : ProbabilityTables) : List UInt8 :=
  saveSection TAG_PROB_TABLE tablesLen <|
    (List.ofFn fun i => (List.ofFn fun j => (List.ofFn fun k => List.ofFn (t.coeffProbs i j k)).flatten).flatten).flatten ++
    (List.ofFn t.yModeProbs ++ (List.ofFn t.uvModeProbs ++ (List.ofFn fun i => List.ofFn (t.mvProbs i)).flatten))

/-- `ProbabilityTables( EncoderStateDeserializer & )` (src/decoder/probability_tables.cc:160-196). -/
def loadTables : Load ProbabilityTables := do
  let tag ← loadTag
  loadAssert (tag = TAG_PROB_TABLE)
  let len ← loadLE 4
  loadAssert (tablesLen = len)
  let coeffProbs ← loadFn (loadFn (loadFn (loadFn loadByte 11) 3) 8) 4
  let yModeProbs ← loadFn loadByte 4
  let uvModeProbs ← loadFn loadByte 3
  let mvProbs ← loadFn (loadFn loadByte 19) 2
  pure { coeffProbs, yModeProbs, uvModeProbs, mvProbs }

/-! ### Loop-filter adjustments -/

/-- `FilterAdjustments::serialize` (src/decoder/decoder.cc:342-357). -/
def saveFilter (a : FilterAdjustments) : List UInt8 :=
  saveSection TAG_FILT_ADJ (4 + 4) ((List.ofFn fun i => putInt8 (a.ref i)).flatten ++ (List.ofFn fun i => putInt8 (a.mode i)).flatten)

/-- `FilterAdjustments( EncoderStateDeserializer & )` (src/decoder/decoder.cc:359-377). -/
def loadFilter : Load FilterAdjustments := do
  let tag ← loadTag
  loadAssert (tag = TAG_FILT_ADJ)
  let len ← loadLE 4
  loadAssert (4 + 4 = len)
  let ref ← loadFn loadInt8 4
  let mode ← loadFn loadInt8 4
  pure { ref, mode }

/-! ### Segmentation -/

/-- `len` (src/decoder/decoder.cc:397). -/
def segmentationLen (s : Segmentation) : Nat := 4 + 4 + 4 + s.mapWidth * s.mapHeight

/-- `Segmentation::serialize` (src/decoder/decoder.cc:396-422). -/
def saveSegmentation (s : Segmentation) : List UInt8 :=
  saveSection (if s.absolute then TAG_SEGM_ABS else TAG_SEGM_REL) (segmentationLen s) <|
    putLE 2 s.mapWidth ++ (putLE 2 s.mapHeight ++ ((List.ofFn fun i => putInt8 (s.quantizer i)).flatten ++
      ((List.ofFn fun i => putInt8 (s.filter i)).flatten ++ s.map.map UInt8.ofNat)))

/-- `Segmentation::deserialize` (src/decoder/decoder.cc:424-438,457-471). -/
def loadSegmentation : Load Segmentation := do
  let tag ← loadTag
  loadAssert (tag = TAG_SEGM_ABS ∨ tag = TAG_SEGM_REL)
  let len ← loadLE 4
  let mapWidth ← loadLE 2
  let mapHeight ← loadLE 2
  loadAssert ((4 + 4 + 4 + mapWidth * mapHeight) % 2 ^ 32 = len)
  let quantizer ← loadFn loadInt8 4
  let filter ← loadFn loadInt8 4
  let map ← loadList (do pure (← loadByte).toNat) (mapWidth * mapHeight)
  pure { absolute := tag = TAG_SEGM_ABS, quantizer, filter, mapWidth, mapHeight, map }

/-! ### Decoder state -/

/-- `OPT_FULL` and the value, or `OPT_EMPTY` (src/decoder/decoder.cc:295-308). -/
def saveOption {α : Type} (f : α → List UInt8) : Option α → List UInt8
  | some a => UInt8.ofNat TAG_OPT_FULL :: f a
  | none => [UInt8.ofNat TAG_OPT_EMPTY]

/-- Anything but `OPT_FULL` counts as empty (src/decoder/decoder.cc:246-254). -/
def loadOption {α : Type} (p : Load α) : Load (Option α) := do
  let tag ← loadTag
  if tag = TAG_OPT_FULL then do pure (some (← p)) else pure none

/-- `len` of `DecoderState::serialize` (src/decoder/decoder.cc:287-308). -/
def stateLen (st : DecoderState) : Nat :=
  4 + (tablesLen + 5) + (st.segmentation.map (segmentationLen · + 5)).getD 0 + 1 +
    (st.filterAdjustments.map fun _ => 4 + 4 + 5).getD 0 + 1

/-- `DecoderState::serialize` (src/decoder/decoder.cc:283-314). -/
def saveState (st : DecoderState) : List UInt8 :=
  saveSection TAG_DECODER_STATE (stateLen st) <|
    putLE 2 st.width ++ (putLE 2 st.height ++ (saveTables st.tables ++ (saveOption saveSegmentation st.segmentation ++
      saveOption saveFilter st.filterAdjustments)))

/-- `DecoderState::deserialize` (src/decoder/decoder.cc:242-255,316-329). -/
def loadState : Load DecoderState := do
  let tag ← loadTag
  loadAssert (tag = TAG_DECODER_STATE)
  let len ← loadLE 4
  loadAssert (len ≤ (← loadRemaining))
  let width ← loadLE 2
  let height ← loadLE 2
  let tables ← loadTables
  let segmentation ← loadOption loadSegmentation
  let filterAdjustments ← loadOption loadFilter
  pure { width, height, tables, segmentation, filterAdjustments }

/-! ### Reference pictures -/

/-- `len` of a raster with the given luma size (src/decoder/enc_state_serializer.hh:95). -/
def rasterLen (width height : Nat) : Nat := width * height + 2 * (width / 2) * (height / 2)

/-- `put( const VP8Raster &, tag )` (src/decoder/enc_state_serializer.hh:92-105). -/
def saveRaster (r : Raster) (tag : Nat) : List UInt8 :=
  saveSection tag (rasterLen r.y.width r.y.height) (r.y.cells ++ (r.u.cells ++ r.v.cells))

/-- `References::serialize` (src/decoder/decoder.cc:177-197): of the three pictures only the last one. -/
def saveReferences (r : References) : List UInt8 :=
  saveSection TAG_REFERENCES (4 + (rasterLen r.last.y.width r.last.y.height + 5)) <|
    putLE 2 r.last.displayWidth ++ (putLE 2 r.last.displayHeight ++ saveRaster r.last TAG_REF_LAST)

/-- The pixels of a raster whose luma plane is `w` by `h` (src/decoder/enc_state_serializer.hh:183-185). -/
def loadPixels (displayWidth displayHeight w h : Nat) : Load Raster := do
  let y ← loadList loadByte (w * h)
  let u ← loadList loadByte (w / 2 * (h / 2))
  let v ← loadList loadByte (w / 2 * (h / 2))
  pure { displayWidth, displayHeight, y := ⟨w, h, y⟩, u := ⟨w / 2, h / 2, u⟩, v := ⟨w / 2, h / 2, v⟩ }

/-- `get_ref` (src/decoder/enc_state_serializer.hh:166-189).  `blank` is the raster obtained from the pool; the code leaves its
content alone if another tag follows. -/
def loadRaster (blank : Raster) (tag displayWidth displayHeight : Nat) : Load Raster := do
  if (← loadPeek) = tag then do
    let _ ← loadTag
    let w := 16 * macroblockDimension displayWidth
    let h := 16 * macroblockDimension displayHeight
    let len ← loadLE 4
    loadAssert (len = rasterLen w h % 2 ^ 32)
    loadPixels displayWidth displayHeight w h
  else pure blank

/-- `References::deserialize` (src/decoder/decoder.cc:171-175,199-212): golden and alternate become the last picture. -/
def loadReferences (blank : Raster) : Load References := do
  let tag ← loadTag
  loadAssert (tag = TAG_REFERENCES)
  let len ← loadLE 4
  loadAssert (len ≤ (← loadRemaining))
  let width ← loadLE 2
  let height ← loadLE 2
  let last ← loadRaster blank TAG_REF_LAST width height
  pure ⟨last, last, last⟩

/-! ### The decoder -/

/-- `Decoder::serialize` (src/decoder/decoder.cc:54-69). -/
def saveDecoder (d : Decoder) : List UInt8 :=
  saveSection TAG_DECODER ((stateLen d.state + 5) + (4 + (rasterLen d.references.last.y.width d.references.last.y.height + 5) + 5)) <|
    saveState d.state ++ saveReferences d.references

/-- `Decoder( EncoderStateDeserializer & )` (src/decoder/decoder.cc:48-52). -/
def loadDecoderBody (blank : Raster) : Load Decoder := do
  let state ← loadState
  let references ← loadReferences blank
  loadAssert ((← loadRemaining) = 0)
  pure { state, references }

/-- `Decoder::deserialize` (src/decoder/decoder.cc:71-81) of a whole file. -/
def loadDecoder (blank : Raster) (file : List UInt8) : Option Decoder :=
  (loadTag file).bind fun (tag, file) =>
    if tag ≠ TAG_DECODER then none
    else (loadLE 4 file).bind fun (len, file) =>
      if len ≠ file.length then none
      else (loadDecoderBody blank file).map (·.1)

end Alfalfa
