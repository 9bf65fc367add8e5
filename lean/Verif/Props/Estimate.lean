import Verif.Proof.Estimate
import Verif.Props.Beginning

/-! C87: how large a frame would be. -/

namespace Alfalfa

open RenderSpec QuantizerSpec

/-- The headers of the frames for estimates are new, or were used for estimates before. -/
structure Samples.Ok (a : Samples) : Prop where
  key : ReusableKey a.keyHeader
  inter : ReusableInter a.interHeader

/-- Pictures of which an encoder can be made: see `C69_create`. -/
structure Estimable (width height : Nat) : Prop extends Fits width height where
  quarter : 4 ≤ width ∧ 4 ≤ height

/-- An encoder between calls, before its first frame or later. -/
def Session.Waiting (width height : Nat) (s : Session) : Prop := s.Ready width height ∧ (s.hasState = true → s.Underway width height)

/-- The frame of a quarter of the size has no more macroblocks than the picture, and at least one. -/
theorem quarter_fits {width height : Nat} (hf : Estimable width height) : Fits (width / 4) (height / 4) := by
  obtain ⟨⟨⟨_, _⟩, ⟨_, _⟩, h⟩, _, _⟩ := hf
  refine ⟨by omega, by omega, Nat.le_trans (Nat.mul_le_mul ?_ ?_) h⟩ <;> omega

theorem sampleKey_ok {width height : Nat} (hf : Estimable width height) {e : EstimateWork} (he : e.Ok width height) {h : KeyFrameHeader} (hr : ReusableKey h)
    {qi : Nat} (hq : qi ≤ 127) {o : Raster} (ho : o.Ok width height) :
    ∃ f, sampleKey e h qi o width height = some f ∧ KeyFrameOk f ∧ ReusableKey f.header ∧ f.width = width / 4 ∧ f.height = height / 4 ∧ f.show' = true ∧
      f.header.quantIndices = uniformIndices qi ∧ f.header.tokenProbUpdate = h.tokenProbUpdate := by
  have hi := uniformIndices_range hq
  have hquant := C43_quantizer (by have := hi.yAcQi; omega) hi.differences
  have hqr := C43_range (by have := hi.yAcQi; omega) hi.differences hquant
  have hs := quarter_fits hf
  obtain ⟨m1, m2⟩ := mbs_bound hs.wide hs.high
  have loop (hd : KeyFrameHeader) (h1 : hd.updateSegmentation = none) (h2 : hd.probSkipFalse.isSome = true) :=
    coded_loop (n := (width / 4 + 15) / 16 * ((height / 4 + 15) / 16))
      (Inv := SampledUpTo width height ((width + 15) / 16) ((height + 15) / 16) (fun _ _ m => m.KeyOk hd))
      (fun k s hk hs => sampleKeyStep_ok hf.wide hf.high he hqr ho h1 h2 hk hs) (empty_sampled _ (he.scratch.sized hf.wide hf.high))
  obtain ⟨c, e1, e2⟩ := loop { h with probSkipFalse := some 0 } hr.segmentation rfl
  obtain ⟨p, p1, p2, -⟩ := C44_skip (r := c.residues) (fun e => by have := e2.residues; rw [e, List.length_nil] at this; omega) (by rw [e2.residues]; exact m2)
  let header : KeyFrameHeader := { h with quantIndices := uniformIndices qi, refreshEntropyProbs := true, probSkipFalse := some p }
  obtain ⟨c', e1', e3⟩ := loop header hr.segmentation rfl
  rw [e1] at e1'
  cases e1'
  let f : Frame KeyFrameHeader := { show' := true, width := width / 4, height := height / 4, header, modes := c.modes, residues := c.residues }
  have hrange : header.InRange :=
    ⟨hr.range.colorSpace, hr.range.clampingType, hr.range.filterType, hr.range.updateSegmentation, hr.range.loopFilterLevel, hr.range.sharpnessLevel,
      hr.range.modeLfAdjustments, hr.range.log2Partitions, hi, hr.range.tokenProbUpdate, fun y hy => by cases hy; omega⟩
  refine ⟨f, ?_, ⟨hrange, hs.wide, hs.high, e3.modes, e3.residues.trans e3.modes.symm, fun k m hm => e3.good k m hm, e3.residueOk⟩,
    ⟨hrange, hr.segmentation, hr.partitions⟩, rfl, rfl, rfl, rfl, rfl⟩
  unfold sampleKey
  rw [hquant, Option.bind_eq_bind, Option.bind_some]
  show (((List.range ((width / 4 + 15) / 16 * ((height / 4 + 15) / 16))).foldlM (sampleKeyStep e _ o ((width / 4 + 15) / 16)) _).bind _) = _
  rw [e1, Option.bind_some, p1]
  rfl

theorem sampleInterFrame_ok {width height : Nat} (hf : Estimable width height) {e : EstimateWork} (he : e.Ok width height) {h : InterFrameHeader}
    (hr : ReusableInter h) {encoder : Encoder} (hw : encoder.state.width = width) (hh : encoder.state.height = height)
    (hrefs : encoder.references.Ok width height) {qi : Nat} (hq : qi ≤ 127) {o : Raster} (ho : o.Ok width height) :
    ∃ f, sampleInterFrame e encoder h qi o = some f ∧ InterFrameOk f ∧ ReusableInter f.header ∧ f.width = width / 4 ∧ f.height = height / 4 ∧ f.show' = true ∧
      f.header.quantIndices = uniformIndices qi ∧ (∀ m ∈ f.modes, m.yMode ≠ SPLITMV) := by
  have hi := uniformIndices_range hq
  have hquant := C43_quantizer (by have := hi.yAcQi; omega) hi.differences
  have hqr := C43_range (by have := hi.yAcQi; omega) hi.differences hquant
  have hs := quarter_fits hf
  obtain ⟨m1, m2⟩ := mbs_bound hs.wide hs.high
  obtain ⟨rows, hrows, -⟩ := C35_padded (hrefs.last.sized hf.wide hf.high).y.full
  have loop (hd : InterFrameHeader) (h1 : hd.updateSegmentation = none) (h2 : hd.probSkipFalse.isSome = true) :=
    coded_loop (n := (width / 4 + 15) / 16 * ((height / 4 + 15) / 16))
      (Inv := SampledUpTo width height ((width + 15) / 16) ((height + 15) / 16) (fun l j m =>
        m.InterFrameOk hd (gridContext ((width / 4 + 15) / 16) ((height / 4 + 15) / 16) l j) ∧ m.yMode ≠ SPLITMV))
      (fun k s hk hs => sampleInterStep_ok hf.wide hf.high he hqr ho hrefs.last hrows h1 h2 hk hs) (empty_sampled _ (he.scratch.sized hf.wide hf.high))
  obtain ⟨c, e1, e2⟩ := loop { h with probSkipFalse := some 0 } hr.segmentation rfl
  obtain ⟨p, p1, p2, -⟩ := C44_skip (r := c.residues) (fun e => by have := e2.residues; rw [e, List.length_nil] at this; omega) (by rw [e2.residues]; exact m2)
  obtain ⟨r, r1, r2, r3, r4⟩ := C44_references (old := (h.probInter, h.probReferencesLast, h.probReferencesGolden))
    ⟨hr.range.probInter, hr.range.probReferencesLast, hr.range.probReferencesGolden⟩ (l := codedReferences c.modes)
    (by unfold codedReferences; rw [List.length_map, e2.modes]; omega)
  let header : InterFrameHeader := { h with quantIndices := uniformIndices qi, refreshEntropyProbs := true, refreshLast := true, probSkipFalse := some p,
                                            probInter := r.1, probReferencesLast := r.2.1, probReferencesGolden := r.2.2 }
  obtain ⟨c', e1', e3⟩ := loop header hr.segmentation rfl
  rw [e1] at e1'
  cases e1'
  let f : Frame InterFrameHeader := { show' := true, width := width / 4, height := height / 4, header, modes := c.modes, residues := c.residues }
  have hg := hr.range
  have hrange : header.InRange :=
    ⟨hg.filterType, hg.updateSegmentation, hg.loopFilterLevel, hg.sharpnessLevel, hg.modeLfAdjustments, hg.log2Partitions, hi, hg.copyGolden, hg.copyGoldenRange,
      hg.copyAlternate, hg.copyAlternateRange, hg.tokenProbUpdate, fun y hy => by cases hy; omega, r2, r3, r4, hg.intra16x16Prob, hg.intraChromaProb,
      hg.mvProbUpdate⟩
  refine ⟨f, ?_, ⟨hrange, hs.wide, hs.high, e3.modes, e3.residues.trans e3.modes.symm, fun k m hm => (e3.good k m hm).1, e3.residueOk⟩,
    ⟨hrange, hr.segmentation, hr.partitions⟩, rfl, rfl, rfl, rfl, fun m hm => ?_⟩
  · unfold sampleInterFrame
    rw [hquant, Option.bind_eq_bind, Option.bind_some, hrows, Option.bind_eq_bind, Option.bind_some, hw, hh]
    show (((List.range ((width / 4 + 15) / 16 * ((height / 4 + 15) / 16))).foldlM
      (sampleInterStep e _ rows encoder.references o ((width / 4 + 15) / 16) ((height / 4 + 15) / 16)) _).bind _) = _
    rw [e1, Option.bind_some, p1]
    show ((optimizeReferences _ _).bind _) = _
    rw [r1]
    rfl
  · obtain ⟨k, hk⟩ := List.mem_iff_getElem?.1 hm
    exact (e3.good k m hk).2

/-- The bound on an estimate: sixteen times the longest frame of a quarter of the width and height. -/
def estimateBound (width height : Nat) : Nat := 2 * (4194408 + 50975 * macroblockCount (width / 4) (height / 4))

/-- **C87** (before the first frame): an estimate, with every index, picture, content of the recycled picture, headers left by earlier estimates and choices,
succeeds, leaves the encoder as it was, and is sixteen times the size of a key frame of a quarter of the width and height that the format can carry: a decoder
reads the frame back from these bytes. -/
theorem C87_key {width height : Nat} (hf : Estimable width height) {s : Session} (hs : s.Ready width height) {a : Samples} (ha : a.Ok) {e : EstimateWork}
    (he : e.Ok width height) {o : Raster} (ho : o.Ok width height) {qi : Nat} (hq : qi ≤ 127) :
    ∃ f bytes parts, s.estimateKey e a o qi = some (s, { a with keyHeader := f.header }, 16 * bytes.length) ∧ ReusableKey f.header ∧
      f.width = width / 4 ∧ f.height = height / 4 ∧ f.header.quantIndices = uniformIndices qi ∧ f.modes.length = macroblockCount (width / 4) (height / 4) ∧
      splitFrame bytes (width / 4) (height / 4) false = .ok parts ∧ parts.keyFrame = true ∧
      (∀ st : DecoderState, st.width = width / 4 → st.height = height / 4 → ∃ st' parsed, st.applyKey parts = (st', .ok parsed) ∧ parsed.frame = f) ∧
      0 < bytes.length ∧ 16 * bytes.length ≤ estimateBound width height := by
  obtain ⟨f, f1, f2, f3, f4, f5, -, f7, -⟩ := sampleKey_ok hf he ha.key hq ho
  have hsmall := quarter_fits hf
  have hfirst (t : ProbabilityTables) (b : List UInt8) (hb : keyKind.serializeFirst t f = some b) : b.length < 2 ^ 19 :=
    C68_fits.1 f t b f2 f3.segmentation (by rw [f4, f5]; exact hsmall.macroblocks) hb
  obtain ⟨bytes, parts, b1, b2, b3, b4⟩ := C09_key_frame_round_trip f f2 (hfirst _) (fun bs hb b hm => by
    rw [one_partition (K := keyKind) f3.partitions hb] at hm; exact nomatch hm)
  obtain ⟨l1, l2⟩ := serializeFrame_length (K := keyKind) f2 f3.partitions (hfirst _) b1
  rw [f4, f5] at b2 l2
  refine ⟨f, bytes, parts, ?_, f3, f4, f5, f7, ?_, b2, b3, fun st h1 h2 => b4 st (h1.trans f4.symm) (h2.trans f5.symm), l1, ?_⟩
  · unfold Session.estimateKey
    dsimp only
    rw [hs.wide, hs.high, f1, Option.bind_eq_bind, Option.bind_some]
    have b1' : keyKind.serialize ({ width, height } : DecoderState).tables f = some bytes := b1
    rw [b1']
    show some (s, _, bytes.length * 4 * 4) = _
    rw [show bytes.length * 4 * 4 = 16 * bytes.length by omega]
  · rw [f2.count, f4, f5]; rfl
  · unfold estimateBound; omega

/-- **C87** (after the first frame): the same for an inter frame of a quarter of the width and height, with the tables of the encoder. -/
theorem C87_inter {width height : Nat} (hf : Estimable width height) {s : Session} (hs : s.Underway width height) {a : Samples} (ha : a.Ok) {e : EstimateWork}
    (he : e.Ok width height) {o : Raster} (ho : o.Ok width height) {qi : Nat} (hq : qi ≤ 127) :
    ∃ f bytes parts, s.estimateInter e a o qi = some (s, { a with interHeader := f.header }, 16 * bytes.length) ∧ ReusableInter f.header ∧
      f.width = width / 4 ∧ f.height = height / 4 ∧ f.header.quantIndices = uniformIndices qi ∧ f.modes.length = macroblockCount (width / 4) (height / 4) ∧
      splitFrame bytes (width / 4) (height / 4) false = .ok parts ∧ parts.keyFrame = false ∧
      (∀ st : DecoderState, st.Ok → st.width = width / 4 → st.height = height / 4 → st.tables = s.encoder.state.tables →
        ∃ st' parsed, st.applyInter parts = (st', .ok parsed) ∧ parsed.frame = f) ∧
      0 < bytes.length ∧ 16 * bytes.length ≤ estimateBound width height := by
  obtain ⟨f, f1, f2, f3, f4, f5, -, f7, f8⟩ := sampleInterFrame_ok hf he ha.inter hs.wide hs.high hs.references hq ho
  have hsmall := quarter_fits hf
  have hfirst (t : ProbabilityTables) (b : List UInt8) (hb : interKind.serializeFirst t f = some b) : b.length < 2 ^ 19 :=
    C68_fits.2 f t b f2 f3.segmentation f8 (by rw [f4, f5]; exact hsmall.macroblocks) hb
  obtain ⟨bytes, parts, b1, b2, b3, b4⟩ := C09_inter_frame_round_trip f f2 s.encoder.state.tables (hfirst _) (fun bs hb b hm => by
    rw [one_partition (K := interKind) f3.partitions hb] at hm; exact nomatch hm)
  obtain ⟨l1, l2⟩ := serializeFrame_length (K := interKind) f2 f3.partitions (hfirst _) b1
  rw [f4, f5] at b2 l2
  refine ⟨f, bytes, parts, ?_, f3, f4, f5, f7, ?_, b2, b3, fun st h h1 h2 => b4 st h (h1.trans f4.symm) (h2.trans f5.symm), l1, ?_⟩
  · unfold Session.estimateInter
    dsimp only
    rw [f1, Option.bind_eq_bind, Option.bind_some, b1]
    show some (s, _, bytes.length * 4 * 4) = _
    rw [show bytes.length * 4 * 4 = 16 * bytes.length by omega]
  · rw [f2.count, f4, f5]; rfl
  · unfold estimateBound; omega

/-- **C87**: an estimate always succeeds, does not disturb the encoder, and is bounded. -/
theorem C87_estimate {width height : Nat} (hf : Estimable width height) {s : Session} (hs : s.Waiting width height) {a : Samples} (ha : a.Ok) {e : EstimateWork}
    (he : e.Ok width height) {o : Raster} (ho : o.Ok width height) {qi : Nat} (hq : qi ≤ 127) :
    ∃ a' size, s.estimateSize e a o qi = some (s, a', size) ∧ a'.Ok ∧ 0 < size ∧ size ≤ estimateBound width height := by
  unfold Session.estimateSize
  cases hst : s.hasState with
  | false =>
    obtain ⟨f, bytes, parts, h1, h2, -, -, -, -, -, -, -, h3, h4⟩ := C87_key hf hs.1 ha he ho hq
    exact ⟨_, _, h1, ⟨h2, ha.inter⟩, by omega, h4⟩
  | true =>
    obtain ⟨f, bytes, parts, h1, h2, -, -, -, -, -, -, -, h3, h4⟩ := C87_inter hf (hs.2 hst) ha he ho hq
    exact ⟨_, _, h1, ⟨ha.key, h2⟩, by omega, h4⟩

/-! ### What an estimate looks at -/

theorem foldlM_congr_range {α β : Type} {f g : β → α → Option β} : ∀ (l : List α), (∀ a ∈ l, ∀ b, f b a = g b a) → ∀ b, l.foldlM f b = l.foldlM g b
  | [], _, _ => rfl
  | a :: l, h, b => by
    rw [List.foldlM_cons, List.foldlM_cons, h a (List.mem_cons_self ..) b]
    exact congrArg _ (funext fun x => foldlM_congr_range l (fun y hy => h y (List.mem_cons_of_mem _ hy)) x)

/-- The macroblocks whose column and row are multiples of four are the same in both pictures. -/
def SameSamples (p q : Raster) : Prop := ∀ c r, SameMacroblock (4 * c, 4 * r) p q

theorem mapped_eq (c r : Nat) : mapped c r = (4 * c, 4 * r) := by unfold mapped sampleFactor; rw [Nat.mul_comm c, Nat.mul_comm r]

/-- **C87**: an estimate depends on no other macroblocks of the picture than those whose column and row are multiples of four. -/
theorem C87_samples {width height : Nat} (hf : Estimable width height) {s : Session} (hs : s.Waiting width height) (a : Samples) (e : EstimateWork) {p q : Raster}
    (hp : p.Ok width height) (hq : q.Ok width height) (h : SameSamples p q) (qi : Nat) : s.estimateSize e a p qi = s.estimateSize e a q qi := by
  have same (k : Nat) (hk : k < (width / 4 + 15) / 16 * ((height / 4 + 15) / 16)) :
      originalAt p (mapped (k % ((width / 4 + 15) / 16)) (k / ((width / 4 + 15) / 16))) (k % ((width / 4 + 15) / 16)) (k / ((width / 4 + 15) / 16)) =
      originalAt q (mapped (k % ((width / 4 + 15) / 16)) (k / ((width / 4 + 15) / 16))) (k % ((width / 4 + 15) / 16)) (k / ((width / 4 + 15) / 16)) := by
    have hc := (mapped_bounds (Nat.mod_lt k (pos_of_lt_mul hk))).1
    have hr := (mapped_bounds (div_lt_of hk)).1
    rw [mapped_eq]
    exact originalAt_same hf.wide hf.high hp hq hc hr (h _ _)
  unfold Session.estimateSize
  split
  · have : sampleKey e a.keyHeader qi p width height = sampleKey e a.keyHeader qi q width height := by
      unfold sampleKey
      congr 1
      funext Q
      have : ∀ (c : Coded), (List.range (macroblockDimension (width / sampleFactor) * macroblockDimension (height / sampleFactor))).foldlM
          (sampleKeyStep e Q p (macroblockDimension (width / sampleFactor))) c =
          (List.range (macroblockDimension (width / sampleFactor) * macroblockDimension (height / sampleFactor))).foldlM
          (sampleKeyStep e Q q (macroblockDimension (width / sampleFactor))) c :=
        foldlM_congr_range _ fun k hk c => by
          have e := same k (List.mem_range.1 hk)
          unfold sampleKeyStep
          exact congrArg (fun x => Option.bind x _) e
      dsimp only
      rw [this]
    unfold Session.estimateKey
    dsimp only
    rw [hs.1.wide, hs.1.high, this]
  · have : sampleInterFrame e s.encoder a.interHeader qi p = sampleInterFrame e s.encoder a.interHeader qi q := by
      unfold sampleInterFrame
      refine congrArg (Option.bind _) (funext fun Q => congrArg (Option.bind _) (funext fun rows => ?_))
      dsimp only
      rw [hs.1.wide, hs.1.high]
      have : ∀ (c : Coded), (List.range (macroblockDimension (width / sampleFactor) * macroblockDimension (height / sampleFactor))).foldlM
          (sampleInterStep e Q rows s.encoder.references p (macroblockDimension (width / sampleFactor)) (macroblockDimension (height / sampleFactor))) c =
          (List.range (macroblockDimension (width / sampleFactor) * macroblockDimension (height / sampleFactor))).foldlM
          (sampleInterStep e Q rows s.encoder.references q (macroblockDimension (width / sampleFactor)) (macroblockDimension (height / sampleFactor))) c :=
        foldlM_congr_range _ fun k hk c => by
          have e := same k (List.mem_range.1 hk)
          unfold sampleInterStep
          exact congrArg (fun x => Option.bind x _) e
      rw [this]
    unfold Session.estimateInter
    dsimp only
    rw [this]

/-! ### A frame of a given size -/

theorem targetLoop_congr {f g : Nat → Nat} {target : Nat} : ∀ (n : Nat) {lo hi : Int} {best : Nat}, (hi - lo + 1).toNat = n →
    (∀ q : Nat, lo ≤ q → (q : Int) ≤ hi → f q = g q) → targetLoop f target lo hi best = targetLoop g target lo hi best := by
  intro n
  induction n using Nat.strong_induction_on with
  | _ n ih =>
    intro lo hi best hn h
    rw [targetLoop, targetLoop]
    split
    · next hlo =>
      have hq1 : lo ≤ (((lo + hi) / 2).toNat : Int) := by omega
      have hq2 : (((lo + hi) / 2).toNat : Int) ≤ hi := by omega
      dsimp only
      rw [h _ hq1 hq2]
      generalize ((lo + hi) / 2).toNat = q at *
      split
      · rw [ih ((q : Int) - 1 - lo + 1).toNat (by omega) rfl fun i h1 h2 => h i h1 (by omega)]
      · rw [ih (hi - ((q : Int) + 1) + 1).toNat (by omega) rfl fun i h1 h2 => h i (by omega) h2]
    · rfl

theorem targetLoop_range {f : Nat → Nat} {target : Nat} : ∀ (n : Nat) {lo hi : Int} {best : Nat}, (hi - lo + 1).toNat = n →
    ∀ q ∈ (targetLoop f target lo hi best).2, lo ≤ q ∧ (q : Int) ≤ hi := by
  intro n
  induction n using Nat.strong_induction_on with
  | _ n ih =>
    intro lo hi best hn i hi'
    rw [targetLoop] at hi'
    split at hi'
    · next hlo =>
      have hq1 : lo ≤ (((lo + hi) / 2).toNat : Int) := by omega
      have hq2 : (((lo + hi) / 2).toNat : Int) ≤ hi := by omega
      dsimp only at hi'
      generalize ((lo + hi) / 2).toNat = q at *
      split at hi'
      · rcases List.mem_cons.1 hi' with rfl | hm
        · omega
        · have := ih ((q : Int) - 1 - lo + 1).toNat (by omega) rfl i hm
          omega
      · rcases List.mem_cons.1 hi' with rfl | hm
        · omega
        · have := ih (hi - ((q : Int) + 1) + 1).toNat (by omega) rfl i hm
          omega
    · exact nomatch hi'

/-- The estimate of index `q` is one that the encoder makes. -/
def Estimated (s : Session) (work : Nat → EstimateWork) (o : Raster) (q size : Nat) : Prop :=
  ∃ a a' : Samples, a.Ok ∧ s.estimateSize (work q) a o q = some (s, a', size)

theorem sizeLoop_ok {width height : Nat} (hf : Estimable width height) {s : Session} (hs : s.Waiting width height) {work : Nat → EstimateWork}
    (hwork : ∀ q, (work q).Ok width height) {o : Raster} (ho : o.Ok width height) (target : Nat) : ∀ (n : Nat) {lo hi : Int} {best : Nat} {a : Samples},
    (hi - lo + 1).toNat = n → hi ≤ 127 → a.Ok → ∃ (estimate : Nat → Nat) (a' : Samples), a'.Ok ∧
      sizeLoop work o target lo hi best s a = some ((targetLoop estimate target lo hi best).1, s, a') ∧
      ∀ q ∈ (targetLoop estimate target lo hi best).2, Estimated s work o q (estimate q) := by
  intro n
  induction n using Nat.strong_induction_on with
  | _ n ih =>
    intro lo hi best a hn h127 ha
    rw [sizeLoop]
    by_cases hlo : lo ≤ hi ∧ 0 ≤ lo
    · rw [dif_pos hlo]
      have hq1 : lo ≤ (((lo + hi) / 2).toNat : Int) := by omega
      have hq2 : (((lo + hi) / 2).toNat : Int) ≤ hi := by omega
      dsimp only
      generalize hq : ((lo + hi) / 2).toNat = q at *
      obtain ⟨a1, size, e1, e2, -⟩ := C87_estimate hf hs ha (hwork q) ho (qi := q) (by omega)
      rw [e1, Option.bind_eq_bind, Option.bind_some]
      dsimp only
      split
      · next hc =>
        obtain ⟨est, a', r1, r2, r3⟩ := ih ((q : Int) - 1 - lo + 1).toNat (by omega) (lo := lo) (hi := (q : Int) - 1) (best := q) rfl (by omega) e2
        have hcong : targetLoop (Function.update est q size) target lo ((q : Int) - 1) q = targetLoop est target lo ((q : Int) - 1) q :=
          targetLoop_congr _ rfl fun i h1 h2 => Function.update_of_ne (by omega) ..
        have hl : targetLoop (Function.update est q size) target lo hi best =
            ((targetLoop est target lo ((q : Int) - 1) q).1, q :: (targetLoop est target lo ((q : Int) - 1) q).2) := by
          rw [targetLoop, dif_pos hlo]
          dsimp only
          rw [hq, Function.update_self, if_pos hc, hcong]
        refine ⟨Function.update est q size, a', r1, by rw [r2, hl], fun i hi' => ?_⟩
        rw [hl] at hi'
        rcases List.mem_cons.1 hi' with rfl | hm
        · rw [Function.update_self]; exact ⟨a, a1, ha, e1⟩
        · have := targetLoop_range _ rfl i hm
          rw [Function.update_of_ne (by omega)]; exact r3 i hm
      · next hc =>
        obtain ⟨est, a', r1, r2, r3⟩ := ih (hi - ((q : Int) + 1) + 1).toNat (by omega) (lo := (q : Int) + 1) (hi := hi) (best := best) rfl (by omega) e2
        have hcong : targetLoop (Function.update est q size) target ((q : Int) + 1) hi best = targetLoop est target ((q : Int) + 1) hi best :=
          targetLoop_congr _ rfl fun i h1 h2 => Function.update_of_ne (by omega) ..
        have hl : targetLoop (Function.update est q size) target lo hi best =
            ((targetLoop est target ((q : Int) + 1) hi best).1, q :: (targetLoop est target ((q : Int) + 1) hi best).2) := by
          rw [targetLoop, dif_pos hlo]
          dsimp only
          rw [hq, Function.update_self, if_neg hc, hcong]
        refine ⟨Function.update est q size, a', r1, by rw [r2, hl], fun i hi' => ?_⟩
        rw [hl] at hi'
        rcases List.mem_cons.1 hi' with rfl | hm
        · rw [Function.update_self]; exact ⟨a, a1, ha, e1⟩
        · have := targetLoop_range _ rfl i hm
          rw [Function.update_of_ne (by omega)]; exact r3 i hm
    · rw [dif_neg hlo]
      have hl : targetLoop (fun _ => 0) target lo hi best = (best, []) := by rw [targetLoop, dif_neg hlo]
      exact ⟨fun _ => 0, a, ha, by rw [hl], fun q hm => by rw [hl] at hm; exact nomatch hm⟩

/-- **C87** (a frame of a given size): a call that asks for a size, with the estimates that the encoder makes on the way, is one of the calls of C69, C77 and C78
that are told the estimates: every index that is tried is tried with the estimate that the encoder makes for it.  All that is proved of those calls holds for it. -/
theorem C87_size {width height : Nat} (hf : Estimable width height) {s : Session} (hs : s.Waiting width height) {a : Samples} (ha : a.Ok)
    {work : Nat → EstimateWork} (hwork : ∀ q, (work q).Ok width height) (R : Renderer) (w : Work) {o : Raster} (ho : o.Ok width height) (target : Nat) :
    ∃ (estimate : Nat → Nat) (a' : Samples), a'.Ok ∧ (∀ q ∈ (targetQuantizer estimate target s.lastQi).2, Estimated s work o q (estimate q)) ∧
      s.encodeToSize R work w a o target = (s.encodeWithTarget R estimate w o target).map fun x => (a', x) := by
  have hwin : (searchWindow s.lastQi).2 ≤ 127 := by
    unfold searchWindow
    cases s.lastQi with
    | none => decide
    | some l => exact Int.min_le_left ..
  obtain ⟨est, a', r1, r2, r3⟩ := sizeLoop_ok hf hs hwork ho target _ (lo := (searchWindow s.lastQi).1) (hi := (searchWindow s.lastQi).2) (best := 255) rfl hwin ha
  refine ⟨est, a', r1, r3, ?_⟩
  unfold Session.encodeToSize Session.encodeWithTarget
  rw [hs.1.fits ho]
  dsimp only [Bool.not_true]
  rw [if_neg (by decide), if_neg (by decide), r2]
  rfl

/-! ### Any calls -/

/-- A call with a picture of the right size, a legal quantizer index and choices for pictures of that size. -/
def OwnCall.Ok {Q : Type} (width height : Nat) : OwnCall Q → Prop
  | .quantizer o qi w => o.Ok width height ∧ qi ≤ 127 ∧ w.Ok width height
  | .minimum o _ work last => o.Ok width height ∧ (∀ q, (work q).Ok width height) ∧ last.Ok width height
  | .size o _ work w => o.Ok width height ∧ (∀ q, (work q).Ok width height) ∧ w.Ok width height

/-- The same request, with some estimates. -/
inductive OwnCall.Told {Q : Type} : OwnCall Q → Call Q → Prop
  | quantizer (o : Raster) (qi : Nat) (w : Work) : OwnCall.Told (.quantizer o qi w) (.quantizer o qi w)
  | minimum (o : Raster) (m : Q) (work : Nat → Work) (last : Work) : OwnCall.Told (.minimum o m work last) (.minimum o m work last)
  | size (o : Raster) (target : Nat) (work : Nat → EstimateWork) (w : Work) (estimate : Nat → Nat) :
      OwnCall.Told (.size o target work w) (.target o target estimate w)

theorem ownCall_told {Q : Type} [LinearOrder Q] (M : Meter Q) {width height : Nat} (hf : Estimable width height) {s : Session} (hs : s.Waiting width height)
    {a : Samples} (ha : a.Ok) {c : OwnCall Q} (hc : c.Ok width height) (R : Renderer) :
    ∃ (c' : Call Q) (a' : Samples), c.Told c' ∧ c'.Ok width height ∧ a'.Ok ∧ s.ownCall R M a c = (s.call R M c').map fun x => (a', x) := by
  cases c with
  | quantizer o qi w => exact ⟨.quantizer o qi w, a, .quantizer .., hc, ha, rfl⟩
  | minimum o m work last => exact ⟨.minimum o m work last, a, .minimum .., hc, ha, rfl⟩
  | size o target work w =>
    obtain ⟨estimate, a', h1, -, h2⟩ := C87_size hf hs ha hc.2.1 R w hc.1 target
    exact ⟨.target o target estimate w, a', .size .., ⟨hc.1, hc.2.2⟩, h1, h2⟩

theorem ownCalls_told {Q : Type} [LinearOrder Q] (M : Meter Q) {width height : Nat} (hf : Estimable width height) : ∀ {calls : List (OwnCall Q)} {s : Session}
    {a : Samples}, s.Waiting width height → a.Ok → (∀ c ∈ calls, c.Ok width height) →
    ∃ told : List (Call Q), List.Forall₂ OwnCall.Told calls told ∧ (∀ c ∈ told, c.Ok width height) ∧
      s.ownCalls codeRenderer M a calls = s.calls codeRenderer M told
  | [], s, a, _, _, _ => ⟨[], .nil, (fun _ h => nomatch h), rfl⟩
  | c :: rest, s, a, hs, ha, hc => by
    obtain ⟨c', a', t1, t2, t3, t4⟩ := ownCall_told M hf hs ha (hc c (List.mem_cons_self ..)) codeRenderer
    obtain ⟨s', bytes, shown, k1, k2, k3⟩ : ∃ s' bytes shown, s.call codeRenderer M c' = .ok (s', bytes, shown) ∧ s'.hasState = true ∧ s'.Underway width height := by
      cases hst : s.hasState with
      | false =>
        obtain ⟨s', bytes, shown, k1, k2, k3, -⟩ := firstCall M hf.toFits hs.1 hst t2
        exact ⟨s', bytes, shown, k1, k2, k3⟩
      | true =>
        obtain ⟨s', bytes, shown, k1, k2, k3, -⟩ := laterCall M hf.toFits (hs.2 hst) hst t2
        exact ⟨s', bytes, shown, k1, k2, k3⟩
    obtain ⟨told, r1, r2, r3⟩ := ownCalls_told M hf (s := s') (a := a') ⟨k3.toReady, fun _ => k3⟩ t3 fun c h => hc c (List.mem_cons_of_mem _ h)
    refine ⟨c' :: told, .cons t1 r1, fun x hx => ?_, ?_⟩
    · rcases List.mem_cons.1 hx with rfl | hx
      · exact t2
      · exact r2 x hx
    · unfold Session.ownCalls Session.calls
      rw [t4, k1]
      show (Session.ownCalls codeRenderer M s' a' rest).bind _ = (Session.calls codeRenderer M s' told).bind _
      rw [r3]

/-- **C87** (any calls): whatever calls are made on a new encoder, with the estimates that the encoder makes by itself, they give the same frames as the same
calls with some estimates told. -/
theorem C87_calls {Q : Type} [LinearOrder Q] (M : Meter Q) {width height : Nat} (hf : Fits width height) {realtime : Bool} {references : References}
    {keyHeader : KeyFrameHeader} (hk : ReusableKey keyHeader) {interHeader : InterFrameHeader} (hi : ReusableInter interHeader) {s : Session}
    (hs : Session.create width height realtime references keyHeader interHeader = some s) {a : Samples} (ha : a.Ok) {calls : List (OwnCall Q)}
    (hc : ∀ c ∈ calls, c.Ok width height) :
    ∃ told : List (Call Q), List.Forall₂ OwnCall.Told calls told ∧ (∀ c ∈ told, c.Ok width height) ∧
      s.ownCalls codeRenderer M a calls = s.calls codeRenderer M told := by
  unfold Session.create macroblockDimension at hs
  split at hs
  · exact nomatch hs
  · next h4 =>
    cases hs
    exact ownCalls_told M ⟨hf, by omega⟩ ⟨⟨rfl, rfl, hk, hi, fun _ h => nomatch h⟩, fun h => nomatch h⟩ ha hc

/-- **C87** (in step): and so C69 holds with the estimates that the encoder makes: each call gives a frame, and a decoder of the same size shows for each of them the
picture that the encoder judged it by. -/
theorem C87_in_step {Q : Type} [LinearOrder Q] (M : Meter Q) {width height : Nat} (hf : Fits width height) {realtime : Bool} {references : References}
    {keyHeader : KeyFrameHeader} (hk : ReusableKey keyHeader) {interHeader : InterFrameHeader} (hi : ReusableInter interHeader) {s : Session}
    (hs : Session.create width height realtime references keyHeader interHeader = some s) {a : Samples} (ha : a.Ok) {calls : List (OwnCall Q)}
    (hc : ∀ c ∈ calls, c.Ok width height) {d : Decoder} (hw : d.state.width = width) (hh : d.state.height = height) :
    ∃ s' frames, s.ownCalls codeRenderer M a calls = .ok (s', frames) ∧ frames.length = calls.length ∧
      (d.run codeRenderer (frames.map (·.1))).2 = frames.map (fun x => .ok (true, x.2)) ∧
      (calls ≠ [] → (d.run codeRenderer (frames.map (·.1))).1 = s'.encoder.exportDecoder) := by
  obtain ⟨told, t1, t2, t3⟩ := C87_calls M hf hk hi hs ha hc
  obtain ⟨s', frames, h1, h2, h3, h4⟩ := C69_in_step M hf hk hi hs t2 hw hh
  refine ⟨s', frames, t3.trans h1, h2.trans t1.length_eq.symm, h3, fun hne => h4 fun e => hne ?_⟩
  rw [e] at t1
  cases t1
  rfl

/-! ### Examples -/

/-- Choices for estimates, with a search for a new vector. -/
def exampleEstimate : EstimateWork := ⟨untidyTrials, exampleKeyChoices.modes, fun k => if k = 1 then .nearest else .new fun mv _ => mv.x.natAbs, grayRaster 128 96 3⟩

theorem exampleEstimate_ok : exampleEstimate.Ok 128 96 :=
  ⟨fun k s h => ((untidyTrials_confined 128 96).size k s h).1, fun k s h => ((untidyTrials_confined 128 96).size k s h).2, grayRaster_ok .., fun _ _ _ => by decide⟩

theorem emptySamples_ok : Samples.Ok {} := ⟨emptyKeyHeader_reusable, emptyInterHeader_reusable⟩

/-- Two calls that ask for a size, on an encoder of pictures of 128 by 96 pixels. -/
def exampleOwnCalls : List (OwnCall Int) :=
  let w : Work := ⟨exampleKeyChoices, exampleInterChoices, grayRaster 128 96 0⟩
  [.size (grayRaster 128 96 77) 4000 (fun _ => exampleEstimate) w, .size (grayRaster 128 96 78) 400 (fun _ => exampleEstimate) w]

example : ∃ s, Session.create 128 96 true ⟨grayRaster 128 96 9, grayRaster 128 96 8, grayRaster 128 96 7⟩ = some s ∧
    ∃ s' frames, s.ownCalls codeRenderer ⟨0, fun _ _ => 3⟩ {} exampleOwnCalls = .ok (s', frames) ∧ frames.length = 2 := by
  refine ⟨_, rfl, ?_⟩
  have hw : Work.Ok 128 96 ⟨exampleKeyChoices, exampleInterChoices, grayRaster 128 96 0⟩ :=
    ⟨exampleKeyChoices_ok 128 96, exampleInterChoices_ok (by decide) (by decide), grayRaster_ok ..⟩
  obtain ⟨s', frames, h1, h2, -⟩ := C87_in_step (⟨0, fun _ _ => 3⟩ : Meter Int) (width := 128) (height := 96) ⟨by decide, by decide, by decide⟩
    emptyKeyHeader_reusable emptyInterHeader_reusable (realtime := true)
    (references := ⟨grayRaster 128 96 9, grayRaster 128 96 8, grayRaster 128 96 7⟩) rfl emptySamples_ok (calls := exampleOwnCalls) (fun c hc => by
      rcases List.mem_cons.1 hc with rfl | hc
      · exact ⟨grayRaster_ok .., fun _ => exampleEstimate_ok, hw⟩
      rcases List.mem_cons.1 hc with rfl | hc
      · exact ⟨grayRaster_ok .., fun _ => exampleEstimate_ok, hw⟩
      · exact nomatch hc)
    (d := ⟨{ width := 128, height := 96 }, ⟨grayRaster 128 96 1, grayRaster 128 96 2, grayRaster 128 96 3⟩⟩) rfl rfl
  exact ⟨s', frames, h1, h2⟩

/-- A picture of 128 by 96 pixels with one pixel of another shade, in macroblock 1, which an estimate does not look at. -/
def speckled : Raster := { grayRaster 128 96 77 with y := { (grayRaster 128 96 77).y with cells := (grayRaster 128 96 77).y.cells.set 20 200 } }

example : SameSamples (grayRaster 128 96 77) speckled ∧ speckled.Ok 128 96 ∧ speckled.y.px 20 0 ≠ (grayRaster 128 96 77).y.px 20 0 := by
  have px (x y : Nat) : speckled.y.px x y = if x < 128 then ((List.replicate (128 * 96) (77 : UInt8)).set 20 200).getD (y * 128 + x) 0 else 0 := rfl
  have px' (x y : Nat) : (grayRaster 128 96 77).y.px x y = if x < 128 then (List.replicate (128 * 96) (77 : UInt8)).getD (y * 128 + x) 0 else 0 := rfl
  refine ⟨fun c r => ⟨fun x y hx hy => ?_, fun _ _ _ _ => ⟨rfl, rfl⟩⟩, ⟨rfl, rfl, rfl, rfl, rfl, rfl, rfl, rfl, ?_, List.length_replicate, List.length_replicate⟩, ?_⟩
  · rw [px, px', List.getD_eq_getElem?_getD, List.getD_eq_getElem?_getD]
    dsimp only at hx hy
    split
    · rw [List.getElem?_set_ne]; omega
    · rfl
  · exact (List.length_set ..).trans List.length_replicate
  · rw [px, px', if_pos (by decide), if_pos (by decide), List.getD_eq_getElem?_getD, List.getD_eq_getElem?_getD, List.getElem?_set_self (by rw [List.length_replicate]; omega),
      List.getElem?_replicate]
    decide

end Alfalfa
