import Verif.Model.Decoder
import Verif.Spec.DecoderState

/-! Which decoders can arise, and what a header prescribes for the reference pictures. -/

namespace Alfalfa

/-- A picture of the given display size: the luma plane is padded to whole macroblocks of 16x16, the chroma planes have half its
size, and each plane has all its pixels. -/
structure Raster.Ok (width height : Nat) (r : Raster) : Prop where
  displayWidth : r.displayWidth = width
  displayHeight : r.displayHeight = height
  yWidth : r.y.width = (width + 15) / 16 * 16
  yHeight : r.y.height = (height + 15) / 16 * 16
  uWidth : r.u.width = (width + 15) / 16 * 8
  uHeight : r.u.height = (height + 15) / 16 * 8
  vWidth : r.v.width = (width + 15) / 16 * 8
  vHeight : r.v.height = (height + 15) / 16 * 8
  y : r.y.cells.length = r.y.width * r.y.height
  u : r.u.cells.length = r.u.width * r.u.height
  v : r.v.cells.length = r.v.width * r.v.height

/-- Three pictures of the same display size. -/
structure References.Ok (width height : Nat) (r : References) : Prop where
  last : r.last.Ok width height
  golden : r.golden.Ok width height
  alternative : r.alternative.Ok width height

/-- A decoder of pictures of one size. -/
structure Decoder.Ok (d : Decoder) : Prop where
  state : d.state.Ok
  references : d.references.Ok d.state.width d.state.height

/-- A renderer makes pictures of the size of the frame. -/
structure Renderer.Ok (R : Renderer) : Prop where
  key : ∀ s a f, (R.key s a f).Ok f.frame.width f.frame.height
  inter : ∀ s a r f, (R.inter s a r f).Ok f.frame.width f.frame.height

/-- What the header of an inter frame prescribes for the alternate picture: the new picture, else a copy of the picture it
names, else what it was. -/
def AlternatePrescribed (h : InterFrameHeader) (old : References) (new : Raster) (r : Raster) : Prop :=
  (h.refreshAlternateFrame = true → r = new) ∧
  (h.refreshAlternateFrame = false →
    (h.copyBufferToAlternate = some 1 → r = old.last) ∧
    (h.copyBufferToAlternate = some 2 → r = old.golden) ∧
    (h.copyBufferToAlternate ≠ some 1 → h.copyBufferToAlternate ≠ some 2 → r = old.alternative))

/-- The same for the golden picture. -/
def GoldenPrescribed (h : InterFrameHeader) (old : References) (new : Raster) (r : Raster) : Prop :=
  (h.refreshGoldenFrame = true → r = new) ∧
  (h.refreshGoldenFrame = false →
    (h.copyBufferToGolden = some 1 → r = old.last) ∧
    (h.copyBufferToGolden = some 2 → r = old.alternative) ∧
    (h.copyBufferToGolden ≠ some 1 → h.copyBufferToGolden ≠ some 2 → r = old.golden))

/-- `new` is `old` with the coefficient probabilities that `u` gives replaced. -/
def CoeffsReplaced (u : TokenProbUpdate) (old new : ProbabilityTables) : Prop :=
  ∀ i j k l, (∀ p, u i j k l = some p → new.coeffProbs i j k l = UInt8.ofNat p) ∧
    (u i j k l = none → new.coeffProbs i j k l = old.coeffProbs i j k l)

/-- The tables of a key frame: the defaults with the coefficient probabilities of the header. -/
def KeyTables (h : KeyFrameHeader) (t : ProbabilityTables) : Prop :=
  CoeffsReplaced h.tokenProbUpdate {} t ∧ t.yModeProbs = yModeDefaultProbs ∧ t.uvModeProbs = uvModeDefaultProbs ∧ t.mvProbs = mvDefaultProbs

/-- The tables of an inter frame: the old ones with what the header gives.  A motion-vector probability is sent as seven bits
and stands for twice its value, or 1 if that is zero. -/
def InterTables (h : InterFrameHeader) (old t : ProbabilityTables) : Prop :=
  CoeffsReplaced h.tokenProbUpdate old t ∧
  (∀ v, h.intra16x16Prob = some v → ∀ i, t.yModeProbs i = UInt8.ofNat (v i)) ∧
  (h.intra16x16Prob = none → t.yModeProbs = old.yModeProbs) ∧
  (∀ v, h.intraChromaProb = some v → ∀ i, t.uvModeProbs i = UInt8.ofNat (v i)) ∧
  (h.intraChromaProb = none → t.uvModeProbs = old.uvModeProbs) ∧
  ∀ i j, (∀ p, h.mvProbUpdate i j = some p → (t.mvProbs i j).toNat = if p = 0 then 1 else 2 * p) ∧
    (h.mvProbUpdate i j = none → t.mvProbs i j = old.mvProbs i j)

/-- The modes and coefficients of `f` are those read, with the tables `t`, from the partitions `c`. -/
def ReadWith {H : Type} (K : FrameKind H) (t : ProbabilityTables) (c : FrameParts) (f : Frame H) : Prop :=
  ∃ d d' parts, K.parseHeader (BoolDecoder.init c.firstPartition false) = some (f.header, d) ∧
    K.parseModes f.header t f.width f.height d = some (f.modes, d') ∧
    dctPartitions c.rest (2 ^ K.log2Partitions f.header) = .ok parts ∧ parseFrameTokens t f.width f.modes parts = some f.residues

/-- A mixing function without collisions. -/
structure IdealMix (mix : Nat → Nat → Nat) : Prop where
  injective : ∀ a b c d, mix a b = mix c d → a = c ∧ b = d
  nonzero : ∀ a b, mix a b ≠ 0

/-- A key frame that the encoder can emit: one the format can carry, of the encoder's size, without segmentation (the encoder never
turns it on), short enough for the length fields of the container. -/
structure KeyEmittable (e : Encoder) (f : Frame KeyFrameHeader) : Prop where
  ok : KeyFrameOk f
  width : f.width = e.state.width
  height : f.height = e.state.height
  segmentation : f.header.updateSegmentation = none
  first : ∀ b, keyKind.serializeFirst (keyKind.tables {} f.header) f = some b → b.length < 2 ^ 19
  tokens : ∀ bs, keyKind.serializeTokens (keyKind.tables {} f.header) f = some bs → ∀ b ∈ bs.dropLast, b.length < 2 ^ 24

/-- The same for an inter frame. -/
structure InterEmittable (e : Encoder) (f : Frame InterFrameHeader) : Prop where
  ok : InterFrameOk f
  width : f.width = e.state.width
  height : f.height = e.state.height
  segmentation : f.header.updateSegmentation = none
  first : ∀ b, interKind.serializeFirst (interKind.tables e.state.tables f.header) f = some b → b.length < 2 ^ 19
  tokens : ∀ bs, interKind.serializeTokens (interKind.tables e.state.tables f.header) f = some bs → ∀ b ∈ bs.dropLast, b.length < 2 ^ 24

/-- The encoder, starting as `e`, emits the given byte strings one after the other and ends as the last argument. -/
inductive Emits (R : Renderer) : Encoder → List (List UInt8) → Encoder → Prop
  | nil (e : Encoder) : Emits R e [] e
  | key {e e' e'' : Encoder} {f : Frame KeyFrameHeader} {bytes : List UInt8} {rest : List (List UInt8)} :
      KeyEmittable e f → e.writeKey R f = some (e', bytes) → Emits R e' rest e'' → Emits R e (bytes :: rest) e''
  | inter {e e' e'' : Encoder} {f : Frame InterFrameHeader} {bytes : List UInt8} {rest : List (List UInt8)} :
      InterEmittable e f → e.writeInter R f = some (e', bytes) → Emits R e' rest e'' → Emits R e (bytes :: rest) e''

/-- The same state but for the loop-filter adjustments by prediction mode. -/
def SameButModeAdjustments (a b : DecoderState) : Prop :=
  a.width = b.width ∧ a.height = b.height ∧ a.tables = b.tables ∧ a.segmentation = b.segmentation ∧
    a.filterAdjustments.map (·.ref) = b.filterAdjustments.map (·.ref)

end Alfalfa
