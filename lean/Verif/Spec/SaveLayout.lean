import Verif.Model.Decoder

/-! The file a decoder is saved to, byte by byte, and which values can be written to it. -/

namespace Alfalfa

/-- A number below 2^16, low byte first. -/
def le16 (v : Nat) : List UInt8 := [UInt8.ofNat (v % 256), UInt8.ofNat (v / 256 % 256)]

/-- A number below 2^32, low byte first. -/
def le32 (v : Nat) : List UInt8 :=
  [UInt8.ofNat (v % 256), UInt8.ofNat (v / 256 % 256), UInt8.ofNat (v / 65536 % 256), UInt8.ofNat (v / 16777216 % 256)]

/-- A signed byte in two's complement. -/
def signedByte (v : Int) : UInt8 := UInt8.ofNat (if v < 0 then v + 256 else v).toNat

/-- Every part of the file is a tag, the number of bytes that follow, and those bytes. -/
def savedPart (tag : UInt8) (body : List UInt8) : List UInt8 := tag :: le32 body.length ++ body

/-- The 1101 probabilities, the last index running fastest. -/
def savedTables (t : ProbabilityTables) : List UInt8 :=
  savedPart 0 <|
    ((List.finRange 4).flatMap fun i => (List.finRange 8).flatMap fun j => (List.finRange 3).flatMap fun k => (List.finRange 11).map (t.coeffProbs i j k)) ++
    (List.finRange 4).map t.yModeProbs ++ (List.finRange 3).map t.uvModeProbs ++
    ((List.finRange 2).flatMap fun i => (List.finRange 19).map (t.mvProbs i))

def savedFilter (a : FilterAdjustments) : List UInt8 :=
  savedPart 1 ((List.finRange 4).map (fun i => signedByte (a.ref i)) ++ (List.finRange 4).map (fun i => signedByte (a.mode i)))

def savedSegmentation (s : Segmentation) : List UInt8 :=
  savedPart (if s.absolute then 2 else 3) <|
    le16 s.mapWidth ++ le16 s.mapHeight ++ (List.finRange 4).map (fun i => signedByte (s.quantizer i)) ++
      (List.finRange 4).map (fun i => signedByte (s.filter i)) ++ s.map.map UInt8.ofNat

/-- Present is 6 and the value, absent is 5. -/
def savedOptional {α : Type} (f : α → List UInt8) : Option α → List UInt8
  | some a => 6 :: f a
  | none => [5]

def savedState (st : DecoderState) : List UInt8 :=
  savedPart 4 <|
    le16 st.width ++ le16 st.height ++ savedTables st.tables ++ savedOptional savedSegmentation st.segmentation ++
      savedOptional savedFilter st.filterAdjustments

/-- Of the three pictures only the last. -/
def savedReferences (r : References) : List UInt8 :=
  savedPart 7 (le16 r.last.displayWidth ++ le16 r.last.displayHeight ++ savedPart 8 (r.last.y.cells ++ r.last.u.cells ++ r.last.v.cells))

/-- The whole file. -/
def savedFile (d : Decoder) : List UInt8 := savedPart 11 (savedState d.state ++ savedReferences d.references)

/-- A segmentation each of whose values fits the bytes it has in the file, whether or not a frame could have made it. -/
structure Segmentation.Fits (width height : Nat) (s : Segmentation) : Prop where
  mapWidth : s.mapWidth = width
  mapHeight : s.mapHeight = height
  size : s.map.length = width * height
  cells : ∀ v ∈ s.map, v < 256
  quantizer : ∀ i, -128 ≤ s.quantizer i ∧ s.quantizer i ≤ 127
  filter : ∀ i, -128 ≤ s.filter i ∧ s.filter i ≤ 127

structure FilterAdjustments.Fits (a : FilterAdjustments) : Prop where
  ref : ∀ i, -128 ≤ a.ref i ∧ a.ref i ≤ 127
  mode : ∀ i, -128 ≤ a.mode i ∧ a.mode i ≤ 127

structure DecoderState.Fits (st : DecoderState) : Prop where
  width : st.width < 2 ^ 14
  height : st.height < 2 ^ 14
  segmentation : ∀ s, st.segmentation = some s → s.Fits st.width st.height
  filterAdjustments : ∀ a, st.filterAdjustments = some a → a.Fits

end Alfalfa
