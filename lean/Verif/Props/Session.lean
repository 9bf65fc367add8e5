import Verif.Model.Session
import Verif.Props.Length

/-! C69: a decoder that is given the frames of an encoder, whatever calls were made, shows the pictures by which the encoder judged them. -/

namespace Alfalfa

/-! ### What is asked of the calls -/

/-- Choices for pictures of the given size, and a recycled picture of that size. -/
structure Work.Ok (width height : Nat) (w : Work) : Prop where
  key : w.key.Ok width height
  inter : w.inter.Ok width height
  scratch : w.scratch.Ok width height

/-- A call with a picture of the right size and a legal quantizer index. -/
def Call.Ok {Q : Type} (width height : Nat) : Call Q → Prop
  | .quantizer o qi w => o.Ok width height ∧ qi ≤ 127 ∧ w.Ok width height
  | .minimum o _ work last => o.Ok width height ∧ (∀ q, (work q).Ok width height) ∧ last.Ok width height
  | .target o _ _ w => o.Ok width height ∧ w.Ok width height

/-- The header of a new frame, or of one that an encoder used before. -/
structure ReusableKey (h : KeyFrameHeader) : Prop where
  range : h.InRange
  segmentation : h.updateSegmentation = none
  partitions : h.log2Partitions = 0

/-- The same for inter frames. -/
structure ReusableInter (h : InterFrameHeader) : Prop where
  range : h.InRange
  segmentation : h.updateSegmentation = none
  partitions : h.log2Partitions = 0

theorem emptyKeyHeader_reusable : ReusableKey emptyKeyHeader := ⟨emptyKeyHeader_range, rfl, rfl⟩
theorem emptyInterHeader_reusable : ReusableInter emptyInterHeader := ⟨emptyInterHeader_range, rfl, rfl⟩

/-! ### The tokens are in one partition -/

theorem writeResidues_length {probs : CoeffProbs} {w : Nat} {all : List Residue} : ∀ {k : Nat} {l : List (MBModes × Option Nat × Option Nat)} {rs : List Residue}
    {parts out : List Bits}, writeResidues probs w all k l rs parts = some out → out.length = parts.length
  | _, [], _, _, _, h => by
    unfold writeResidues at h
    rw [Option.some.inj h]
  | _, _ :: _, [], _, _, h => nomatch h
  | _, (m, la, ll) :: _, r :: rs, parts, _, h => by
    rw [writeResidues] at h
    obtain ⟨b, -, h⟩ := Option.bind_eq_some_iff.1 h
    obtain ⟨p, -, h⟩ := Option.bind_eq_some_iff.1 h
    exact (writeResidues_length h).trans (List.length_set ..)

theorem one_partition {H : Type} {K : FrameKind H} {t : ProbabilityTables} {f : Frame H} (h : K.log2Partitions f.header = 0) {bs : List (List UInt8)}
    (hb : K.serializeTokens t f = some bs) : bs.dropLast = [] := by
  unfold FrameKind.serializeTokens at hb
  obtain ⟨parts, h1, h2⟩ := Option.bind_eq_some_iff.1 hb
  have l1 := writeResidues_length h1
  have l2 := length_mapM h2
  have : K.partitionCount f.header = 1 := by unfold FrameKind.partitionCount; rw [h]; rfl
  rw [List.length_replicate, this] at l1
  apply List.eq_nil_of_length_eq_zero
  rw [List.length_dropLast]
  omega

/-! ### What stays true of an encoder -/

/-- Pictures whose frames fit all fields. -/
structure Fits (width height : Nat) : Prop where
  wide : 0 < width ∧ width < 2 ^ 14
  high : 0 < height ∧ height < 2 ^ 14
  macroblocks : (width + 15) / 16 * ((height + 15) / 16) ≤ 14400

/-- Between calls. -/
structure Session.Ready (width height : Nat) (s : Session) : Prop where
  wide : s.encoder.state.width = width
  high : s.encoder.state.height = height
  key : ReusableKey s.keyHeader
  inter : ReusableInter s.interHeader
  last : ∀ q, s.lastQi = some q → q ≤ 127

/-- After the first frame. -/
structure Session.Underway (width height : Nat) (s : Session) : Prop extends s.Ready width height where
  segmentation : s.encoder.state.segmentation = none
  filterAdjustments : s.encoder.state.filterAdjustments = some {}
  references : s.encoder.references.Ok width height

theorem writeKey_congr (R : Renderer) (e : Encoder) (d : Encoder) (hw : d.state.width = e.state.width) (hh : d.state.height = e.state.height)
    (f : Frame KeyFrameHeader) : d.writeKey R f = e.writeKey R f := by
  unfold Encoder.writeKey Encoder.updateStateKey
  rw [hw, hh]
  rfl

theorem updateStateKey_filter (e : Encoder) {h : KeyFrameHeader} (hz : h.modeLfAdjustments = zeroAdjustments) :
    (e.updateStateKey h).filterAdjustments = some {} ∧ (e.updateStateKey h).width = e.state.width ∧ (e.updateStateKey h).height = e.state.height := by
  unfold Encoder.updateStateKey DecoderState.ofKeyHeader
  rw [hz]
  dsimp only
  split <;> exact ⟨rfl, rfl, rfl⟩

theorem updateStateInter_filter (e : Encoder) {h : InterFrameHeader} (hz : h.modeLfAdjustments = zeroAdjustments) :
    (e.updateStateInter h).filterAdjustments = some {} ∧ (e.updateStateInter h).width = e.state.width ∧ (e.updateStateInter h).height = e.state.height := by
  unfold Encoder.updateStateInter
  rw [hz]
  exact ⟨rfl, rfl, rfl⟩

theorem rasterKey_ok {width height : Nat} (hf : Fits width height) {s : Session} (hs : s.Ready width height) {w : Work} (hw : w.Ok width height) {o : Raster}
    (ho : o.Ok width height) {qi : Nat} (hq : qi ≤ 127) :
    ∃ f shown, ReusableKey f.header ∧ f.header.quantIndices = uniformIndices qi ∧ f.show' = true ∧ f.header.modeLfAdjustments = zeroAdjustments ∧
      shown.Ok width height ∧ f.width = width ∧ f.height = height ∧
      (∀ updateState, s.rasterKey w updateState o (uniformIndices qi) = some ({ s with keyHeader := f.header, encoder := { s.encoder with
        state := if updateState then { width, height, filterAdjustments := some {} } else s.encoder.state } }, f, shown)) ∧
      (∀ e : Encoder, e.state.width = width → e.state.height = height → KeyEmittable e f) ∧
      codeRenderer.key none (some {}) { frame := f, segmentIds := f.modes.map fun _ => 0 } = shown := by
  obtain ⟨f, shown, f1, f2, f3, f4, f5, f6, f7, f8, f9, -, f11, f10⟩ := C67_key hf.wide hf.high hw.key hs.key.range hs.key.segmentation
    (uniformIndices_range hq) ho hw.scratch
  refine ⟨f, shown, ⟨f2.header, f6, f8.trans hs.key.partitions⟩, f7, f5, f9, f11, f3, f4, fun b => ?_, fun e h1 h2 => ?_, ?_⟩
  · unfold Session.rasterKey
    rw [hs.wide, hs.high]
    dsimp only
    rw [f1]
    rfl
  · exact { ok := f2, width := f3.trans h1.symm, height := f4.trans h2.symm, segmentation := f6
            first := fun b hb => C68_fits.1 f _ b f2 f6 (by rw [f3, f4]; exact hf.macroblocks) hb
            tokens := fun bs hb b hm => by
              rw [one_partition (K := keyKind) (f8.trans hs.key.partitions) hb] at hm
              exact nomatch hm }
  · show settled f.width f.height (renderKey _ _ _ (blankRaster f.width f.height)) = _
    rw [f3, f4, f10 _ (blank_ok _ _), settled_eq f11]

theorem finishKey_ok {width height : Nat} (hf : Fits width height) {s : Session} (hs : s.Ready width height) {w : Work} (hw : w.Ok width height) {o : Raster}
    (ho : o.Ok width height) {qi : Nat} (hq : qi ≤ 127) :
    ∃ s' bytes shown, s.finishKey codeRenderer w o qi = some (s', bytes, shown) ∧ s'.hasState = s.hasState ∧ s'.Underway width height ∧
      s'.keyHeader.quantIndices.yAcQi = qi ∧ s'.encoder.references = ⟨shown, shown, shown⟩ ∧
      ∀ d : Decoder, d.state.width = width → d.state.height = height →
        d.getFrameOutput codeRenderer bytes = (s'.encoder.exportDecoder, .ok (true, shown)) := by
  obtain ⟨f, shown, r1, r2, r3, r4, r5, r6, r7, r8, em, r9⟩ := rasterKey_ok hf hs hw ho hq
  obtain ⟨e', bytes, k1, -, k3, k4, k5, k6⟩ := key_step codeRenderer s.encoder f (em _ hs.wide hs.high)
  obtain ⟨u1, u2, u3⟩ := updateStateKey_filter s.encoder r4
  have hlast : e'.references.last = shown := by
    rw [k6, k3, k4, u1]
    exact r9
  refine ⟨{ s with keyHeader := f.header, encoder := e', lastQi := if s.realtime then some f.header.quantIndices.yAcQi else s.lastQi }, bytes, shown, ?_, rfl,
    ?_, ?_, ?_, ?_⟩
  · unfold Session.finishKey Session.writeKey
    rw [r8 false]
    show ((s.encoder.writeKey codeRenderer f).bind _).bind _ = _
    rw [k1]
    rfl
  · refine { wide := ?_, high := ?_, key := r1, inter := hs.inter, last := fun q hl => ?_, segmentation := k3, filterAdjustments := ?_, references := ?_ }
    · show e'.state.width = width
      rw [k4, u2]; exact hs.wide
    · show e'.state.height = height
      rw [k4, u3]; exact hs.high
    · change (if s.realtime then some f.header.quantIndices.yAcQi else s.lastQi) = some q at hl
      split at hl
      · rw [r2] at hl; cases hl; exact hq
      · exact hs.last q hl
    · show e'.state.filterAdjustments = _
      rw [k4, u1]
    · show e'.references.Ok width height
      rw [k5, hlast]
      exact ⟨r5, r5, r5⟩
  · show f.header.quantIndices.yAcQi = qi
    rw [r2]; rfl
  · show e'.references = _
    rw [k5, hlast]; rfl
  · intro d h1 h2
    obtain ⟨e'', bytes', l1, l2, -⟩ := key_step codeRenderer ⟨d.state, d.references⟩ f (em _ h1 h2)
    rw [writeKey_congr _ s.encoder _ (h1.trans hs.wide.symm) (h2.trans hs.high.symm), k1] at l1
    cases l1
    rw [hlast, r3] at l2
    exact l2

theorem rasterInter_ok {width height : Nat} (hf : Fits width height) {s : Session} (hs : s.Underway width height) {w : Work} (hw : w.Ok width height) {o : Raster}
    (ho : o.Ok width height) {qi : Nat} (hq : qi ≤ 127) :
    ∃ f shown, ReusableInter f.header ∧ f.header.quantIndices = uniformIndices qi ∧ f.show' = true ∧ f.header.modeLfAdjustments = zeroAdjustments ∧
      shown.Ok width height ∧ f.header.refreshLast = true ∧
      (∀ updateState, s.rasterInter w updateState o (uniformIndices qi) = some ({ s with interHeader := f.header }, f, shown)) ∧
      InterEmittable s.encoder f ∧ codeRenderer.inter none (some {}) s.encoder.references { frame := f, segmentIds := f.modes.map fun _ => 0 } = shown := by
  have w1 := hs.wide
  have w2 := hs.high
  subst w1 w2
  obtain ⟨f, shown, f1, f2, f3, f4, f5, f6, f7, f8, f9, -, f12, f13, f11, f10⟩ := C67_inter hf.wide hf.high hs.segmentation hs.references hw.inter hs.inter.range
    hs.inter.segmentation (uniformIndices_range hq) ho hw.scratch
  refine ⟨f, shown, ⟨f2.header, f6, f8.trans hs.inter.partitions⟩, f7, f5, f9, f11, f12, fun b => ?_, ?_, ?_⟩
  · unfold Session.rasterInter
    rw [f1]
    have : (if b then { s.encoder.state with filterAdjustments := some {} } else s.encoder.state) = s.encoder.state := by
      split
      · refine DecoderState.ext rfl rfl rfl rfl ?_
        exact hs.filterAdjustments.symm
      · rfl
    show some _ = _
    dsimp only
    rw [this]
  · exact { ok := f2, width := f3, height := f4, segmentation := f6
            first := fun b hb => C68_fits.2 f _ b f2 f6 f13 (by rw [f3, f4]; exact hf.macroblocks) hb
            tokens := fun bs hb b hm => by
              rw [one_partition (K := interKind) (f8.trans hs.inter.partitions) hb] at hm
              exact nomatch hm }
  · show settled f.width f.height (renderInter _ _ _ _ (blankRaster f.width f.height)) = _
    rw [f3, f4, f10 _ (blank_ok _ _), settled_eq f11]

theorem finishInter_ok {width height : Nat} (hf : Fits width height) {s : Session} (hs : s.Underway width height) {w : Work} (hw : w.Ok width height) {o : Raster}
    (ho : o.Ok width height) {qi : Nat} (hq : qi ≤ 127) :
    ∃ s' bytes shown, s.finishInter codeRenderer w o qi = some (s', bytes, shown) ∧ s'.hasState = s.hasState ∧ s'.Underway width height ∧
      s'.interHeader.quantIndices.yAcQi = qi ∧ s'.encoder.references.last = shown ∧
      s.encoder.exportDecoder.getFrameOutput codeRenderer bytes = (s'.encoder.exportDecoder, .ok (true, shown)) := by
  obtain ⟨f, shown, r1, r2, r3, r4, r5, r6, r8, em, r9⟩ := rasterInter_ok hf hs hw ho hq
  obtain ⟨e', bytes, new, k1, k2, k3, k4, k5, k6⟩ := inter_step codeRenderer s.encoder f em hs.segmentation
  obtain ⟨u1, u2, u3⟩ := updateStateInter_filter s.encoder r4
  have hnew : new = shown := by
    rw [k6, k3, k4, u1]
    exact r9
  subst hnew
  refine ⟨{ s with interHeader := f.header, encoder := e', lastQi := if s.realtime then some f.header.quantIndices.yAcQi else s.lastQi }, bytes, new, ?_, rfl,
    ?_, ?_, ?_, ?_⟩
  · unfold Session.finishInter Session.writeInter
    rw [r8 false]
    show ((s.encoder.writeInter codeRenderer f).bind _).bind _ = _
    rw [k1]
    rfl
  · refine { wide := ?_, high := ?_, key := hs.key, inter := r1, last := fun q hl => ?_, segmentation := k3, filterAdjustments := ?_, references := ?_ }
    · show e'.state.width = width
      rw [k4, u2]; exact hs.wide
    · show e'.state.height = height
      rw [k4, u3]; exact hs.high
    · change (if s.realtime then some f.header.quantIndices.yAcQi else s.lastQi) = some q at hl
      split at hl
      · rw [r2] at hl; cases hl; exact hq
      · exact hs.last q hl
    · show e'.state.filterAdjustments = _
      rw [k4, u1]
    · show e'.references.Ok width height
      rw [k5]
      exact copyInter_ok hs.references r5
  · show f.header.quantIndices.yAcQi = qi
    rw [r2]; rfl
  · show e'.references.last = _
    rw [k5]
    unfold References.copyInter
    dsimp only
    rw [if_pos r6]
  · rw [r3] at k2
    exact k2

/-! ### The search for a quality -/

theorem searchLoop_ok {Q : Type} [LinearOrder Q] {trial : Session → Nat → Option (Session × Q)} {P : Session → Prop} {z : Q}
    (ht : ∀ s q, P s → q ≤ 127 → ∃ s', trial s q = some (s', z) ∧ P s') (minimum : Q) (lo hi : Int) (h127 : hi ≤ 127) (found : Bool) (best : Nat) (s : Session)
    (hs : P s) : ∃ s', searchLoop trial minimum lo hi found best s = some (s', qualityLoop (fun _ => z) minimum lo hi found best) ∧ P s' := by
  rw [searchLoop, qualityLoop]
  split
  · next h =>
    obtain ⟨s1, t1, t2⟩ := ht s ((lo + hi) / 2).toNat hs (by omega)
    dsimp only
    rw [t1]
    dsimp only [Option.bind_eq_bind, Option.bind_some, Option.pure_def]
    split
    · exact ⟨s1, rfl, t2⟩
    · split
      · exact searchLoop_ok ht minimum lo _ (by omega) _ _ s1 t2
      · exact searchLoop_ok ht minimum _ hi h127 _ _ s1 t2
  · exact ⟨s, rfl, hs⟩
termination_by (hi - lo + 1).toNat
decreasing_by all_goals omega

theorem trialKey_ok {Q : Type} (M : Meter Q) {width height : Nat} (hf : Fits width height) {s : Session} (hs : s.Ready width height ∧ s.hasState = true)
    {work : Nat → Work} {q : Nat} (hw : (work q).Ok width height) {o : Raster} (ho : o.Ok width height) (hq : q ≤ 127) :
    ∃ s', s.trialKey M work o q = some (s', M.zero) ∧ s'.Ready width height ∧ s'.hasState = true := by
  obtain ⟨f, shown, r1, -, -, -, -, -, -, r8, -⟩ := rasterKey_ok hf hs.1 hw ho hq
  refine ⟨{ s with keyHeader := f.header, encoder := { s.encoder with state := { width, height, filterAdjustments := some {} } } }, ?_, ?_⟩
  · unfold Session.trialKey
    rw [r8 true]
    rfl
  · exact ⟨⟨rfl, rfl, r1, hs.1.inter, hs.1.last⟩, hs.2⟩

theorem trialInter_ok {Q : Type} (M : Meter Q) {width height : Nat} (hf : Fits width height) {s : Session} {e : Encoder}
    (hs : s.Underway width height ∧ s.hasState = true ∧ s.encoder = e)
    {work : Nat → Work} {q : Nat} (hw : (work q).Ok width height) {o : Raster} (ho : o.Ok width height) (hq : q ≤ 127) :
    ∃ s', s.trialInter M work o q = some (s', M.zero) ∧ s'.Underway width height ∧ s'.hasState = true ∧ s'.encoder = e := by
  obtain ⟨f, shown, r1, -, -, -, -, -, r8, -⟩ := rasterInter_ok hf hs.1 hw ho hq
  refine ⟨{ s with interHeader := f.header }, ?_, ?_⟩
  · unfold Session.trialInter
    rw [r8 true]
    rfl
  · exact ⟨{ hs.1 with inter := r1 }, hs.2⟩

theorem unmeasuredLoop {Q : Type} [LinearOrder Q] (zero m : Q) : qualityLoop (fun _ => zero) m 0 127 false 0 = if m ≤ zero then 127 else 0 := by
  rw [← C46_ignores_quality zero (fun _ => zero) m]
  unfold minimumQualityQuantizer encodeRasterQuality
  simp only [Bool.false_eq_true, if_false]

/-! ### Calls -/

/-- The index that a call encodes with (`C45_tested`, `C46_ignores_quality` say more about it). -/
def Call.index {Q : Type} [LinearOrder Q] (zero : Q) (last : Option Nat) : Call Q → Nat
  | .quantizer _ qi _ => qi
  | .minimum _ m _ _ => if m ≤ zero then 127 else 0
  | .target _ size estimate _ => (targetQuantizer estimate size last).1

theorem Call.index_le {Q : Type} [LinearOrder Q] (zero : Q) {last : Option Nat} (hl : ∀ q, last = some q → q ≤ 127) {width height : Nat} {c : Call Q}
    (hc : c.Ok width height) : c.index zero last ≤ 127 := by
  cases c with
  | quantizer o qi w => exact hc.2.1
  | minimum o m work l => show (if m ≤ zero then 127 else 0) ≤ 127; split <;> omega
  | target o size estimate w => exact (C45_tested estimate size hl).2.2

theorem Session.Ready.fits {width height : Nat} {s : Session} (hs : s.Ready width height) {o : Raster} (ho : o.Ok width height) : s.fits o = true := by
  unfold Session.fits
  rw [hs.wide, hs.high, ho.displayWidth, ho.displayHeight]
  simp

theorem minimum_first {Q : Type} [LinearOrder Q] {R : Renderer} {M : Meter Q} {work : Nat → Work} {last : Work} {s s1 : Session} {o : Raster} {m : Q}
    (h1 : s.fits o = true) (h2 : s.hasState = false) {best : Nat}
    (h3 : searchLoop (Session.trialKey M work o) m 0 127 false 0 { s with hasState := true } = some (s1, best)) {x : Session × List UInt8 × Raster}
    (h4 : s1.finishKey R last o best = some x) : s.encodeWithMinimum R M work last o m = .ok x := by
  have h5 : Session.searchKey R M work last { s with hasState := true } o m = some x := Option.bind_eq_some_iff.2 ⟨_, h3, h4⟩
  unfold Session.encodeWithMinimum
  rw [h1, h2, Bool.not_true, if_neg Bool.false_ne_true, if_neg Bool.false_ne_true, h5]

theorem minimum_later {Q : Type} [LinearOrder Q] {R : Renderer} {M : Meter Q} {work : Nat → Work} {last : Work} {s s1 : Session} {o : Raster} {m : Q}
    (h1 : s.fits o = true) (h2 : s.hasState = true) {best : Nat}
    (h3 : searchLoop (Session.trialInter M work o) m 0 127 false 0 s = some (s1, best)) {x : Session × List UInt8 × Raster}
    (h4 : s1.finishInter R last o best = some x) : s.encodeWithMinimum R M work last o m = .ok x := by
  have h5 : Session.searchInter R M work last s o m = some x := Option.bind_eq_some_iff.2 ⟨_, h3, h4⟩
  unfold Session.encodeWithMinimum
  rw [h1, h2, Bool.not_true, if_neg Bool.false_ne_true, if_pos rfl, h5]

theorem firstCall {Q : Type} [LinearOrder Q] (M : Meter Q) {width height : Nat} (hf : Fits width height) {s : Session} (hs : s.Ready width height)
    (hn : s.hasState = false) {c : Call Q} (hc : c.Ok width height) :
    ∃ s' bytes shown, s.call codeRenderer M c = .ok (s', bytes, shown) ∧ s'.hasState = true ∧ s'.Underway width height ∧
      s'.keyHeader.quantIndices.yAcQi = c.index M.zero s.lastQi ∧ s'.encoder.references = ⟨shown, shown, shown⟩ ∧
      ∀ d : Decoder, d.state.width = width → d.state.height = height →
        d.getFrameOutput codeRenderer bytes = (s'.encoder.exportDecoder, .ok (true, shown)) := by
  have hle := Call.index_le M.zero hs.last hc
  have hs' : Session.Ready width height { s with hasState := true } := ⟨hs.wide, hs.high, hs.key, hs.inter, hs.last⟩
  have byIndex (o : Raster) (ho : o.Ok width height) (w : Work) (hw : w.Ok width height) (q : Nat) (hq : q ≤ 127) :
      ∃ s' bytes shown, s.encodeWithQuantizer codeRenderer w o q = .ok (s', bytes, shown) ∧ s'.hasState = true ∧ s'.Underway width height ∧
      s'.keyHeader.quantIndices.yAcQi = q ∧ s'.encoder.references = ⟨shown, shown, shown⟩ ∧
      ∀ d : Decoder, d.state.width = width → d.state.height = height →
        d.getFrameOutput codeRenderer bytes = (s'.encoder.exportDecoder, .ok (true, shown)) := by
    obtain ⟨s', bytes, shown, k1, k2⟩ := finishKey_ok hf hs' hw ho hq
    refine ⟨s', bytes, shown, ?_, k2⟩
    unfold Session.encodeWithQuantizer
    rw [hs.fits ho, hn]
    simp only [Bool.not_true, Bool.false_eq_true, if_false]
    rw [k1]
  cases c with
  | quantizer o qi w => exact byIndex o hc.1 w hc.2.2 qi hc.2.1
  | target o size estimate w =>
    obtain ⟨s', bytes, shown, k1, k2⟩ := byIndex o hc.1 w hc.2 _ hle
    refine ⟨s', bytes, shown, ?_, k2⟩
    show s.encodeWithTarget codeRenderer estimate w o size = _
    unfold Session.encodeWithTarget
    rw [hs.fits hc.1, Bool.not_true, if_neg Bool.false_ne_true]
    exact k1
  | minimum o m work last =>
    obtain ⟨s1, l1, l2, l3⟩ := searchLoop_ok (trial := Session.trialKey M work o) (z := M.zero) (P := fun s => s.Ready width height ∧ s.hasState = true)
      (fun s q h hq => trialKey_ok M hf h (hc.2.1 q) hc.1 hq) m 0 127 (by decide) false 0 { s with hasState := true } ⟨hs', rfl⟩
    rw [unmeasuredLoop] at l1
    obtain ⟨s', bytes, shown, k1, k2, k3⟩ := finishKey_ok hf l2 hc.2.2 hc.1 hle
    exact ⟨s', bytes, shown, minimum_first (hs.fits hc.1) hn l1 k1, k2.trans l3, k3⟩

theorem laterCall {Q : Type} [LinearOrder Q] (M : Meter Q) {width height : Nat} (hf : Fits width height) {s : Session} (hs : s.Underway width height)
    (hn : s.hasState = true) {c : Call Q} (hc : c.Ok width height) :
    ∃ s' bytes shown, s.call codeRenderer M c = .ok (s', bytes, shown) ∧ s'.hasState = true ∧ s'.Underway width height ∧
      s'.interHeader.quantIndices.yAcQi = c.index M.zero s.lastQi ∧ s'.encoder.references.last = shown ∧
      s.encoder.exportDecoder.getFrameOutput codeRenderer bytes = (s'.encoder.exportDecoder, .ok (true, shown)) := by
  have hle := Call.index_le M.zero hs.last hc
  have byIndex (o : Raster) (ho : o.Ok width height) (w : Work) (hw : w.Ok width height) (q : Nat) (hq : q ≤ 127) :
      ∃ s' bytes shown, s.encodeWithQuantizer codeRenderer w o q = .ok (s', bytes, shown) ∧ s'.hasState = true ∧ s'.Underway width height ∧
      s'.interHeader.quantIndices.yAcQi = q ∧ s'.encoder.references.last = shown ∧
      s.encoder.exportDecoder.getFrameOutput codeRenderer bytes = (s'.encoder.exportDecoder, .ok (true, shown)) := by
    obtain ⟨s', bytes, shown, k1, k2, k3⟩ := finishInter_ok hf hs hw ho hq
    refine ⟨s', bytes, shown, ?_, k2.trans hn, k3⟩
    unfold Session.encodeWithQuantizer
    rw [hs.fits ho, hn]
    simp only [Bool.not_true, Bool.false_eq_true, if_false, if_true]
    rw [k1]
  cases c with
  | quantizer o qi w => exact byIndex o hc.1 w hc.2.2 qi hc.2.1
  | target o size estimate w =>
    obtain ⟨s', bytes, shown, k1, k2⟩ := byIndex o hc.1 w hc.2 _ hle
    refine ⟨s', bytes, shown, ?_, k2⟩
    show s.encodeWithTarget codeRenderer estimate w o size = _
    unfold Session.encodeWithTarget
    rw [hs.fits hc.1, Bool.not_true, if_neg Bool.false_ne_true]
    exact k1
  | minimum o m work last =>
    obtain ⟨s1, l1, l2, l3, l4⟩ := searchLoop_ok (trial := Session.trialInter M work o) (z := M.zero)
      (P := fun t => t.Underway width height ∧ t.hasState = true ∧ t.encoder = s.encoder)
      (fun t q h hq => trialInter_ok M hf h (hc.2.1 q) hc.1 hq) m 0 127 (by decide) false 0 s ⟨hs, hn, rfl⟩
    rw [unmeasuredLoop] at l1
    obtain ⟨s', bytes, shown, k1, k2, k3, k4, k5, k6⟩ := finishInter_ok hf l2 hc.2.2 hc.1 hle
    rw [l4] at k6
    exact ⟨s', bytes, shown, minimum_later (hs.fits hc.1) hn l1 k1, k2.trans l3, k3, k4, k5, k6⟩

theorem laterCalls {Q : Type} [LinearOrder Q] (M : Meter Q) {width height : Nat} (hf : Fits width height) : ∀ {calls : List (Call Q)} {s : Session},
    s.Underway width height → s.hasState = true → (∀ c ∈ calls, c.Ok width height) →
    ∃ s' frames, s.calls codeRenderer M calls = .ok (s', frames) ∧ frames.length = calls.length ∧ s'.Underway width height ∧ s'.hasState = true ∧
      s.encoder.exportDecoder.run codeRenderer (frames.map (·.1)) = (s'.encoder.exportDecoder, frames.map fun x => .ok (true, x.2))
  | [], s, hs, hn, _ => ⟨s, [], rfl, rfl, hs, hn, rfl⟩
  | c :: rest, s, hs, hn, hc => by
    obtain ⟨s1, bytes, shown, k1, k2, k3, -, -, k6⟩ := laterCall M hf hs hn (hc c (List.mem_cons_self ..))
    obtain ⟨s', frames, l1, l2, l3, l4, l5⟩ := laterCalls M hf k3 k2 fun c h => hc c (List.mem_cons_of_mem _ h)
    refine ⟨s', (bytes, shown) :: frames, ?_, by simp [l2], l3, l4, ?_⟩
    · unfold Session.calls
      rw [k1]
      show (Session.calls codeRenderer M s1 rest).bind _ = _
      rw [l1]
      rfl
    · rw [List.map_cons, List.map_cons, Decoder.run, k6]
      dsimp only
      rw [l5]

/-! ### C69 -/

/-- **C69**: whatever calls are made on a new encoder (with a quantizer index, a minimum quality or a target size, in any order), whatever it decides
inside them and whatever is in its recycled buffers, each call gives a frame; a decoder of the same size, whatever its history, accepts all of the
frames, shows for each of them exactly the picture that the encoder judged it by, and after the first of them is equal to the
encoder's record of it. -/
theorem C69_in_step {Q : Type} [LinearOrder Q] (M : Meter Q) {width height : Nat} (hf : Fits width height) {realtime : Bool} {references : References}
    {keyHeader : KeyFrameHeader} (hk : ReusableKey keyHeader) {interHeader : InterFrameHeader} (hi : ReusableInter interHeader) {s : Session}
    (hs : Session.create width height realtime references keyHeader interHeader = some s) {calls : List (Call Q)} (hc : ∀ c ∈ calls, c.Ok width height)
    {d : Decoder} (hw : d.state.width = width) (hh : d.state.height = height) :
    ∃ s' frames, s.calls codeRenderer M calls = .ok (s', frames) ∧ frames.length = calls.length ∧
      (d.run codeRenderer (frames.map (·.1))).2 = frames.map (fun x => .ok (true, x.2)) ∧
      (calls ≠ [] → (d.run codeRenderer (frames.map (·.1))).1 = s'.encoder.exportDecoder) := by
  have hr : s.Ready width height ∧ s.hasState = false := by
    unfold Session.create at hs
    split at hs
    · exact nomatch hs
    · cases hs
      exact ⟨⟨rfl, rfl, hk, hi, fun _ h => nomatch h⟩, rfl⟩
  cases calls with
  | nil => exact ⟨s, [], rfl, rfl, rfl, fun h => absurd rfl h⟩
  | cons c rest =>
    obtain ⟨s1, bytes, shown, k1, k2, k3, -, -, k6⟩ := firstCall M hf hr.1 hr.2 (hc c (List.mem_cons_self ..))
    obtain ⟨s', frames, l1, l2, l3, l4, l5⟩ := laterCalls M hf k3 k2 fun c h => hc c (List.mem_cons_of_mem _ h)
    have hrun : d.run codeRenderer (((bytes, shown) :: frames).map (·.1)) =
        (s'.encoder.exportDecoder, ((bytes, shown) :: frames).map fun x => .ok (true, x.2)) := by
      rw [List.map_cons, List.map_cons, Decoder.run, k6 d hw hh]
      dsimp only
      rw [l5]
    refine ⟨s', (bytes, shown) :: frames, ?_, by simp [l2], by rw [hrun], fun _ => by rw [hrun]⟩
    unfold Session.calls
    rw [k1]
    show (Session.calls codeRenderer M s1 rest).bind _ = _
    rw [l1]
    rfl

/-- **C69** (sizes): an encoder can be made for pictures of at least 4 by 4 pixels; for smaller ones an assertion fails. -/
theorem C69_create (width height : Nat) (realtime : Bool) (references : References) :
    (Session.create width height realtime references).isSome = true ↔ 4 ≤ width ∧ 4 ≤ height := by
  unfold Session.create macroblockDimension
  split
  · simp; omega
  · simp; omega

/-- The picture given to a call. -/
def Call.picture {Q : Type} : Call Q → Raster
  | .quantizer o _ _ => o
  | .minimum o _ _ _ => o
  | .target o _ _ _ => o

/-- **C69** (wrong sizes): a picture of another size is refused, and so is no picture of the right size. -/
theorem C69_scaling {Q : Type} [LinearOrder Q] (R : Renderer) (M : Meter Q) (s : Session) (c : Call Q) :
    s.call R M c = .error .scaling ↔ ¬ (c.picture.displayWidth = s.encoder.state.width ∧ c.picture.displayHeight = s.encoder.state.height) := by
  have hfit (o : Raster) : s.fits o = true ↔ (o.displayWidth = s.encoder.state.width ∧ o.displayHeight = s.encoder.state.height) := by
    unfold Session.fits
    rw [Bool.and_eq_true, beq_iff_eq, beq_iff_eq]
    exact ⟨fun h => ⟨h.1.symm, h.2.symm⟩, fun h => ⟨h.1.symm, h.2.symm⟩⟩
  have hq (w : Work) (o : Raster) (q : Nat) : s.encodeWithQuantizer R w o q = .error .scaling ↔ ¬ s.fits o = true := by
    unfold Session.encodeWithQuantizer
    by_cases h : s.fits o = true
    · rw [h]
      simp only [Bool.not_true, Bool.false_eq_true, if_false, not_true, iff_false]
      split <;> exact fun h => nomatch h
    · rw [Bool.not_eq_true] at h
      rw [h]
      simp
  rw [← hfit]
  cases c with
  | quantizer o qi w => exact hq w o qi
  | target o size estimate w =>
    show s.encodeWithTarget R estimate w o size = _ ↔ ¬ s.fits o = true
    unfold Session.encodeWithTarget
    by_cases h : s.fits o = true
    · have := hq w o (targetQuantizer estimate size s.lastQi).1
      rw [h] at this ⊢
      exact this
    · rw [Bool.not_eq_true] at h
      rw [h]
      simp
  | minimum o m work last =>
    show s.encodeWithMinimum R M work last o m = _ ↔ ¬ s.fits o = true
    unfold Session.encodeWithMinimum
    by_cases h : s.fits o = true
    · rw [h]
      simp only [Bool.not_true, Bool.false_eq_true, if_false, not_true, iff_false]
      split <;> exact fun h => nomatch h
    · rw [Bool.not_eq_true] at h
      rw [h]
      simp

/-- **C69** (indices): the index that a call encodes with, for the first frame and for later ones. -/
theorem C69_index {Q : Type} [LinearOrder Q] (M : Meter Q) {width height : Nat} (hf : Fits width height) {s : Session} {c : Call Q} (hc : c.Ok width height) :
    (s.Ready width height → s.hasState = false →
      ∃ s' x, s.call codeRenderer M c = .ok (s', x) ∧ s'.keyHeader.quantIndices.yAcQi = c.index M.zero s.lastQi) ∧
    (s.Underway width height → s.hasState = true →
      ∃ s' x, s.call codeRenderer M c = .ok (s', x) ∧ s'.interHeader.quantIndices.yAcQi = c.index M.zero s.lastQi) := by
  refine ⟨fun hs hn => ?_, fun hs hn => ?_⟩
  · obtain ⟨s', bytes, shown, k1, -, -, k4, -⟩ := firstCall M hf hs hn hc
    exact ⟨s', _, k1, k4⟩
  · obtain ⟨s', bytes, shown, k1, -, -, k4, -⟩ := laterCall M hf hs hn hc
    exact ⟨s', _, k1, k4⟩

/-! ### Indices that the format cannot carry -/

theorem encUnsigned7 (q : Nat) : encUnsigned 7 q = encUnsigned 7 (q % 128) := by
  have h (w : Nat) (hw : w < 7) : (q &&& (1 <<< w) ≠ 0) = ((q % 128) &&& (1 <<< w) ≠ 0) := by
    have e (n : Nat) : n &&& (1 <<< w) ≠ 0 ↔ n.testBit w = true := by
      rw [Nat.one_shiftLeft, Nat.and_two_pow]
      cases n.testBit w <;> simp
    rw [eq_iff_iff, e, e, show (128 : Nat) = 2 ^ 7 from rfl, Nat.testBit_mod_two_pow]
    simp [hw]
  simp only [encUnsigned, h 0 (by decide), h 1 (by decide), h 2 (by decide), h 3 (by decide), h 4 (by decide), h 5 (by decide), h 6 (by decide)]

/-- **C69** does not hold beyond index 127, although `encode_with_quantizer` takes any byte: the encoder then works with the quantizer of
index 127, while what it writes is the frame that has the remainder by 128 as its index, and that is another quantizer. -/
theorem C69_wide_index {q : Nat} (h1 : 128 ≤ q) (h2 : q < 255) :
    quantizer (uniformIndices q) = quantizer (uniformIndices 127) ∧ quantizer (uniformIndices (q % 128)) ≠ quantizer (uniformIndices 127) ∧
    (∀ t (f : Frame KeyFrameHeader), f.header.quantIndices = uniformIndices q →
      keyKind.serialize t f = keyKind.serialize t { f with header := { f.header with quantIndices := uniformIndices (q % 128) } }) ∧
    (∀ t (f : Frame InterFrameHeader), f.header.quantIndices = uniformIndices q →
      interKind.serialize t f = interKind.serialize t { f with header := { f.header with quantIndices := uniformIndices (q % 128) } }) := by
  have table : ∀ k : Fin 127, (quantizer (uniformIndices k.val)).map (·.yAc) ≠ (quantizer (uniformIndices 127)).map (·.yAc) := by decide +kernel
  have wide : ∀ k : Fin 128, quantizer (uniformIndices (128 + k.val)) = quantizer (uniformIndices 127) := by decide +kernel
  have enc : encQuantIndices (uniformIndices q) = encQuantIndices (uniformIndices (q % 128)) := by
    unfold encQuantIndices
    simp only [uniformIndices]
    rw [encUnsigned7]
  refine ⟨?_, fun e => ?_, fun t f hf => ?_, fun t f hf => ?_⟩
  · have := wide ⟨q - 128, by omega⟩
    dsimp only at this
    rw [show 128 + (q - 128) = q by omega] at this
    exact this
  · exact table ⟨q % 128, by omega⟩ (congrArg _ e)
  · have hh : encKeyFrameHeader f.header = encKeyFrameHeader { f.header with quantIndices := uniformIndices (q % 128) } := by
      unfold encKeyFrameHeader
      rw [hf, enc]
    have h1 : keyKind.serializeFirst (keyKind.tables t f.header) f = keyKind.serializeFirst (keyKind.tables t f.header)
        { f with header := { f.header with quantIndices := uniformIndices (q % 128) } } := by
      show Option.bind _ (fun b => encodeBits (encKeyFrameHeader f.header ++ b)) = Option.bind _ (fun b => encodeBits (encKeyFrameHeader _ ++ b))
      rw [← hh]
      rfl
    unfold FrameKind.serialize
    dsimp only
    rw [h1]
    rfl
  · have hh : encInterFrameHeader f.header = encInterFrameHeader { f.header with quantIndices := uniformIndices (q % 128) } := by
      unfold encInterFrameHeader
      rw [hf, enc]
    have h1 : interKind.serializeFirst (interKind.tables t f.header) f = interKind.serializeFirst (interKind.tables t f.header)
        { f with header := { f.header with quantIndices := uniformIndices (q % 128) } } := by
      show Option.bind _ (fun b => encodeBits (encInterFrameHeader f.header ++ b)) = Option.bind _ (fun b => encodeBits (encInterFrameHeader _ ++ b))
      rw [← hh]
      rfl
    unfold FrameKind.serialize
    dsimp only
    rw [h1]
    rfl

/-! ### Example -/

/-- Three calls, one of each kind, on an encoder of pictures of 40 by 30 pixels. -/
def exampleCalls : List (Call Int) :=
  let w : Work := ⟨exampleKeyChoices, exampleInterChoices, grayRaster 40 30 0⟩
  [.quantizer (grayRaster 40 30 77) 30 w, .minimum (grayRaster 40 30 78) 5 (fun _ => w) w, .target (grayRaster 40 30 79) 400 (fun q => 5000 - 30 * q) w]

example : ∃ s, Session.create 40 30 true ⟨grayRaster 40 30 9, grayRaster 40 30 8, grayRaster 40 30 7⟩ = some s ∧
    ∃ s' frames, s.calls codeRenderer ⟨0, fun _ _ => 3⟩ exampleCalls = .ok (s', frames) ∧ frames.length = 3 ∧
      (Decoder.run codeRenderer ⟨{ width := 40, height := 30 }, ⟨grayRaster 40 30 1, grayRaster 40 30 2, grayRaster 40 30 3⟩⟩ (frames.map (·.1))).2 =
        frames.map (fun x => .ok (true, x.2)) := by
  refine ⟨_, rfl, ?_⟩
  have hw : Work.Ok 40 30 ⟨exampleKeyChoices, exampleInterChoices, grayRaster 40 30 0⟩ :=
    ⟨exampleKeyChoices_ok 40 30, exampleInterChoices_ok (by decide) (by decide), grayRaster_ok ..⟩
  obtain ⟨s', frames, h1, h2, h3, -⟩ := C69_in_step (⟨0, fun _ _ => 3⟩ : Meter Int) (width := 40) (height := 30) ⟨by decide, by decide, by decide⟩
    emptyKeyHeader_reusable emptyInterHeader_reusable (realtime := true)
    (references := ⟨grayRaster 40 30 9, grayRaster 40 30 8, grayRaster 40 30 7⟩) rfl (calls := exampleCalls) (fun c hc => by
      rcases List.mem_cons.1 hc with rfl | hc
      · exact ⟨grayRaster_ok .., by decide, hw⟩
      rcases List.mem_cons.1 hc with rfl | hc
      · exact ⟨grayRaster_ok .., fun _ => hw, hw⟩
      rcases List.mem_cons.1 hc with rfl | hc
      · exact ⟨grayRaster_ok .., hw⟩
      · exact nomatch hc)
    (d := ⟨{ width := 40, height := 30 }, ⟨grayRaster 40 30 1, grayRaster 40 30 2, grayRaster 40 30 3⟩⟩) rfl rfl
  exact ⟨s', frames, h1, h2, h3⟩

end Alfalfa
