import Verif.Proof.Reencode
import Verif.Spec.Reencode
import Verif.Props.Length
import Verif.Props.DecoderExamples

/-! C74: a chunk that is re-encoded follows on the state it is re-encoded for. -/

namespace Alfalfa

open RenderSpec QuantizerSpec

/-! ### What a decoder takes the frames for -/

theorem writeInter_reads {R : Renderer} {e e' : Encoder} {f : Frame InterFrameHeader} (hf : InterEmittable e f) (hn : e.state.segmentation = none)
    {bytes : List UInt8} (hw : e.writeInter R f = some (e', bytes)) : e.exportDecoder.ReadsInter bytes f := by
  obtain ⟨bytes', parts, d, h1, h2, h3, -, h5, h6, h7⟩ := parse_serialized interKind_lawful hf.ok e.state.tables hf.first hf.tokens
  have htab : interKind.tables (e.updateStateInter f.header).tables f.header = interKind.tables e.state.tables f.header := by
    show interKind.tables (if f.header.refreshEntropyProbs then interKind.tables e.state.tables f.header else e.state.tables) f.header = _
    by_cases hr : f.header.refreshEntropyProbs = true
    · rw [if_pos hr]; exact interTables_idem _ _
    · rw [if_neg hr]
  have hseg : (e.state.applyInterHeader f.header).segmentation = none := by
    show f.header.updateSegmentation.map _ = none
    rw [hf.segmentation]; rfl
  obtain ⟨seg, ids, s1, s2⟩ := h7 (e.state.applyInterHeader f.header) hf.width.symm hf.height.symm (by rw [hseg]; exact fun _ h => nomatch h)
  have heq : bytes' = bytes := by
    unfold Encoder.writeInter at hw
    change (interKind.serialize (e.updateStateInter f.header).tables f).bind _ = _ at hw
    rw [serialize_congr _ htab, h1] at hw
    injection hw with hw
    exact congrArg Prod.snd hw
  subst heq
  rw [hf.width, hf.height] at h2
  refine ⟨parts, ?st, { frame := f, segmentIds := ids }, h2, h3, ?eq, rfl⟩
  case eq =>
    unfold DecoderState.applyInter
    rw [show parseInterFrameHeader = interKind.parseHeader from rfl, h6]
    exact s2

theorem writeKey_reads {R : Renderer} {e e' : Encoder} {f : Frame KeyFrameHeader} (hf : KeyEmittable e f) {bytes : List UInt8}
    (hw : e.writeKey R f = some (e', bytes)) : e.exportDecoder.ReadsKey bytes f := by
  obtain ⟨bytes', parts, d, h1, h2, h3, -, h5, h6, h7⟩ := parse_serialized keyKind_lawful hf.ok {} hf.first hf.tokens
  have htab : keyKind.tables (e.updateStateKey f.header).tables f.header = keyKind.tables {} f.header := by
    unfold Encoder.updateStateKey
    by_cases hr : f.header.refreshEntropyProbs = true
    · rw [if_pos hr]; exact keyTables_idem _ _
    · rw [if_neg hr]; rfl
  have hseg : (keyStart f.header e.state.width e.state.height).segmentation = none := by
    unfold keyStart DecoderState.ofKeyHeader
    rw [hf.segmentation]
    split <;> rfl
  have hww : (keyStart f.header e.state.width e.state.height).width = f.width := by
    rw [hf.width]; unfold keyStart; split <;> rfl
  have hh : (keyStart f.header e.state.width e.state.height).height = f.height := by
    rw [hf.height]; unfold keyStart; split <;> rfl
  obtain ⟨seg, ids, s1, s2⟩ := h7 (keyStart f.header e.state.width e.state.height) hww hh (by rw [hseg]; exact fun _ h => nomatch h)
  have heq : bytes' = bytes := by
    unfold Encoder.writeKey at hw
    change (keyKind.serialize (e.updateStateKey f.header).tables f).bind _ = _ at hw
    rw [serialize_congr _ htab, h1] at hw
    injection hw with hw
    exact congrArg Prod.snd hw
  subst heq
  rw [hf.width, hf.height] at h2
  refine ⟨parts, ?st, { frame := f, segmentIds := ids }, h2, h3, ?eq, rfl⟩
  case eq =>
    show e.state.applyKey parts = _
    unfold DecoderState.applyKey
    rw [if_neg (by rw [h5]; decide), show parseKeyFrameHeader = keyKind.parseHeader from rfl, h6]
    exact s2

/-! ### Frames -/

/-- What is asked of what is measured, and of the recycled picture. -/
structure ReencodeWork.Ok (width height : Nat) (w : ReencodeWork) : Prop where
  inter : w.inter.Ok width height
  scratch : w.scratch.Ok width height

theorem updatedHeader_range {h : InterFrameHeader} (hr : h.InRange) (hs : h.updateSegmentation = none) {i : QuantIndices} (hi : i.InRange) (last : Bool) :
    (updatedHeader h i last).InRange := by
  have he := emptyInterHeader_range
  refine ⟨hr.filterType, hr.updateSegmentation, hr.loopFilterLevel, hr.sharpnessLevel, hr.modeLfAdjustments, he.log2Partitions, hi, ?_, ?_, ?_, ?_,
    he.tokenProbUpdate, he.probSkipFalse, he.probInter, hr.probReferencesLast, hr.probReferencesGolden, he.intra16x16Prob, he.intraChromaProb, he.mvProbUpdate⟩ <;>
  cases last
  · exact hr.copyGolden
  · rfl
  · exact hr.copyGoldenRange
  · exact fun _ h => nomatch h
  · exact hr.copyAlternate
  · rfl
  · exact hr.copyAlternateRange
  · exact fun _ h => nomatch h

/-- The new frame is one that the format can carry and follows the old one. -/
theorem updateResidues_ok {e : Encoder} (hw : 0 < e.state.width ∧ e.state.width < 2 ^ 14) (hh : 0 < e.state.height ∧ e.state.height < 2 ^ 14)
    (hrefs : e.references.Ok e.state.width e.state.height) {w : ReencodeWork} (hd : w.Ok e.state.width e.state.height)
    {old : Frame InterFrameHeader} (hf : InterFrameOk old) (fw : old.width = e.state.width) (fh : old.height = e.state.height)
    (hs : old.header.updateSegmentation = none) {i : QuantIndices} (hi : i.InRange) {o : Raster} (ho : o.Ok e.state.width e.state.height) (last : Bool) :
    ∃ f s, updateResidues w e o old i last = some (f, s) ∧ InterFrameOk f ∧ f.width = e.state.width ∧ f.height = e.state.height ∧ f.show' = true ∧
      f.header.updateSegmentation = none ∧ f.header.quantIndices = i ∧ f.header.log2Partitions = 0 ∧ FollowsFrame last old f := by
  have hq := C43_quantizer (by have := hi.yAcQi; omega) hi.differences
  have hqr := C43_range (by have := hi.yAcQi; omega) hi.differences hq
  obtain ⟨m1, m2⟩ := mbs_bound hw hh
  have hold : ∀ (k : Nat) (m : MBModes), old.modes[k]? = some m →
      m.InterFrameOk old.header (gridContext ((e.state.width + 15) / 16) ((e.state.height + 15) / 16) old.modes k) ∧ m.segmentIdUpdate = none := fun k m hm => by
    have h := hf.modes k m hm
    rw [fw, fh] at h
    refine ⟨h, ?_⟩
    have h1 := h.pre.segmentPresent
    rw [hs] at h1
    cases hsi : m.segmentIdUpdate with
    | none => rfl
    | some v => rw [hsi] at h1; simp at h1
  have hlen : old.modes.length = (e.state.width + 15) / 16 * ((e.state.height + 15) / 16) := by rw [hf.count, fw, fh]
  obtain ⟨c, e1, e2⟩ := updatePass_ok (trials := w.inter.trials) hqr hw hh hd.inter.trials ho hd.scratch hrefs hlen hold
  have hcore : old.modes.map MBModes.core = c.modes.map MBModes.core := by
    refine List.ext_getElem? fun k => ?_
    rw [List.getElem?_map, List.getElem?_map]
    by_cases hk : k < c.modes.length
    · obtain ⟨m0, b, h0, h1⟩ := e2.good k _ (List.getElem?_eq_getElem hk)
      rw [List.getElem?_eq_getElem hk, h0, h1]
      rfl
    · rw [List.getElem?_eq_none (by rw [hlen]; rw [e2.modes] at hk; omega), List.getElem?_eq_none (by omega)]
  obtain ⟨v, v1⟩ := C44_total (updatedHeader old.header i last).tokenProbUpdate e.state.tables.coeffProbs hd.inter.counts
  have hur := updatedHeader_range hf.header hs hi last
  have v2 := optimizeTables_range hur.tokenProbUpdate v1
  obtain ⟨p, p1, p2, -⟩ := C44_skip (r := c.residues) (fun e => by have := e2.residues; rw [e] at this; simp at this; omega) (by rw [e2.residues]; exact m2)
  have hall : ∀ m ∈ c.modes, m.reference.isSome = true := fun m hm => by
    obtain ⟨k, hk⟩ := List.mem_iff_getElem?.1 hm
    obtain ⟨m0, b, h0, rfl⟩ := e2.good k m hk
    exact (InterFrameOk.referenceSome (hold k m0 h0).1 : m0.reference.isSome = true)
  obtain ⟨l, l1, l2⟩ := allReferences_ok hall
  obtain ⟨r, r1, r2, r3, r4⟩ := C44_references (old := ((updatedHeader old.header i last).probInter, (updatedHeader old.header i last).probReferencesLast,
    (updatedHeader old.header i last).probReferencesGolden)) ⟨hur.probInter, hur.probReferencesLast, hur.probReferencesGolden⟩ (l := l)
    (by rw [l2, e2.modes]; omega)
  let header : InterFrameHeader := { updatedHeader old.header i last with tokenProbUpdate := v, probSkipFalse := some p, probInter := r.1,
                                                                          probReferencesLast := r.2.1, probReferencesGolden := r.2.2 }
  let f : Frame InterFrameHeader := { show' := true, width := e.state.width, height := e.state.height, header, modes := c.modes, residues := c.residues }
  have hrange : header.InRange :=
    ⟨hur.filterType, hur.updateSegmentation, hur.loopFilterLevel, hur.sharpnessLevel, hur.modeLfAdjustments, hur.log2Partitions, hur.quantIndices, hur.copyGolden,
      hur.copyGoldenRange, hur.copyAlternate, hur.copyAlternateRange, v2, fun y hy => by cases hy; omega, r2, r3, r4, hur.intra16x16Prob, hur.intraChromaProb,
      hur.mvProbUpdate⟩
  have hok : InterFrameOk f := by
    refine ⟨hrange, hw, hh, e2.modes, e2.residues.trans e2.modes.symm, fun k m hm => ?_, e2.residueOk⟩
    obtain ⟨m0, b, h0, rfl⟩ := e2.good k m hm
    obtain ⟨a1, a2⟩ := hold k m0 h0
    exact MBModes.InterFrameOk.reskip (h := old.header) (h' := header) (gridContext_alike _ _ hcore k) rfl rfl hs rfl a1 a2
  refine ⟨f, c.raster, ?_, hok, rfl, rfl, rfl, hs, rfl, rfl, ?_⟩
  · unfold updateResidues
    dsimp only
    rw [hq, Option.bind_eq_bind, Option.bind_some, e1, Option.bind_eq_bind, Option.bind_some, p1, Option.bind_eq_bind, Option.bind_some, l1, Option.bind_eq_bind,
      Option.bind_some, r1, Option.bind_eq_bind, Option.bind_some, v1]
    rfl
  · refine ⟨e2.modes.trans hlen.symm, fun k m m' h1 h2 => ?_, ⟨rfl, rfl, rfl, rfl⟩, ?_, ⟨rfl, rfl⟩, rfl⟩
    · obtain ⟨m0, b, h0, rfl⟩ := e2.good k m' h2
      rw [h1] at h0
      cases h0
      exact ⟨rfl, rfl, rfl, rfl, rfl, rfl, rfl, rfl, rfl, rfl⟩
    · cases last
      · exact ⟨rfl, rfl, rfl, rfl, rfl⟩
      · exact ⟨rfl, rfl, rfl⟩

theorem asInterHeader_range {h : KeyFrameHeader} (hr : h.InRange) : (asInterHeader h).InRange := by
  have he := emptyInterHeader_range
  refine ⟨hr.filterType, he.updateSegmentation, hr.loopFilterLevel, hr.sharpnessLevel, hr.modeLfAdjustments, he.log2Partitions, he.quantIndices, rfl,
    (fun _ h => (nomatch h)), rfl, (fun _ h => (nomatch h)), he.tokenProbUpdate, he.probSkipFalse, he.probInter, he.probReferencesLast, he.probReferencesGolden, ?_, ?_,
    he.mvProbUpdate⟩
  · intro v hv i
    cases hv
    exact (yModeDefaultProbs i).toNat_lt
  · intro v hv i
    cases hv
    exact (uvModeDefaultProbs i).toNat_lt

/-- A key frame becomes an inter frame that replaces all references. -/
theorem reencodeAsInter_ok {e : Encoder} (hw : 0 < e.state.width ∧ e.state.width < 2 ^ 14) (hh : 0 < e.state.height ∧ e.state.height < 2 ^ 14)
    (hseg : e.state.segmentation = none) (hrefs : e.references.Ok e.state.width e.state.height) {w : ReencodeWork} (hd : w.Ok e.state.width e.state.height)
    {h : KeyFrameHeader} (hr : h.InRange) (hs : h.updateSegmentation = none) {i : QuantIndices} (hi : i.InRange) {o : Raster}
    (ho : o.Ok e.state.width e.state.height) :
    ∃ f, reencodeAsInter w e o h i = .ok f ∧ InterFrameOk f ∧ f.width = e.state.width ∧ f.height = e.state.height ∧ f.show' = true ∧
      f.header.updateSegmentation = none ∧ f.header.quantIndices = i ∧ RefreshesAll f.header := by
  obtain ⟨f, shown, f1, f2, f3, f4, f5, f6, f7, -⟩ := C67_inter hw hh hseg hrefs hd.inter (asInterHeader_range hr) rfl hi ho hd.scratch
  refine ⟨f, ?_, f2, f3, f4, f5, f6, f7, ?_⟩
  · unfold reencodeAsInter
    rw [hs, if_neg (by decide), f1]
  · unfold encodeInter at f1
    simp only [Option.bind_eq_bind, Option.bind_eq_some_iff, Option.pure_def, Option.some.injEq, Prod.mk.injEq] at f1
    obtain ⟨_, _, _, _, _, _, _, _, _, _, _, _, rfl, _⟩ := f1
    exact ⟨rfl, rfl, rfl⟩

/-! ### The frames of a chunk, one after another -/

theorem refreshAll_converged {h : InterFrameHeader} (hr : RefreshesAll h) (old : References) (new : Raster) : (old.copyInter h new).Converged := by
  obtain ⟨h1, h2, h3⟩ := hr
  unfold References.copyInter References.Converged
  rw [h1, h2, h3]
  exact ⟨rfl, rfl⟩

/-- What is known of the encoder between two frames. -/
structure ReadyFor (width height : Nat) (e : Encoder) : Prop where
  ok : e.exportDecoder.Ok
  width : e.state.width = width
  height : e.state.height = height
  segmentation : e.state.segmentation = none

theorem ReadyFor.inter {R : Renderer} (hR : R.Ok) {width height : Nat} {e : Encoder} (he : ReadyFor width height e)
    (hl : LengthsFit interKind InterFrameOk width height) {f : Frame InterFrameHeader} (hf : InterFrameOk f) (fw : f.width = e.state.width)
    (fh : f.height = e.state.height) (hs : f.header.updateSegmentation = none) :
    ∃ e' bytes, e.writeInter R f = some (e', bytes) ∧ (∃ new, e.exportDecoder.getFrameOutput R bytes = (e'.exportDecoder, .ok (f.show', new))) ∧
      ReadyFor width height e' ∧ e.exportDecoder.ReadsInter bytes f ∧ (RefreshesAll f.header → e'.references.Converged) := by
  have hl' (t : ProbabilityTables) := hl f t hf (fw.trans he.width) (fh.trans he.height)
  have hem : InterEmittable e f := ⟨hf, fw, fh, hs, (hl' _).1, fun bs hb b hm => (hl' _).2 bs hb b (List.dropLast_subset bs hm)⟩
  obtain ⟨e', bytes, new, h1, h2, h3, -, h5, -⟩ := inter_step R e f hem he.segmentation
  obtain ⟨k1, k2, k3, -⟩ := C18_rejected_frame_leaves_usable R hR e.exportDecoder he.ok bytes
  rw [h2] at k1 k2 k3
  exact ⟨e', bytes, h1, ⟨new, h2⟩, ⟨k1, k2.trans he.width, k3.trans he.height, h3⟩, writeInter_reads hem he.segmentation h1, fun hr => by
    rw [h5]; exact refreshAll_converged hr _ _⟩

theorem ReadyFor.key {R : Renderer} (hR : R.Ok) {width height : Nat} {e : Encoder} (he : ReadyFor width height e)
    (hl : LengthsFit keyKind KeyFrameOk width height) {f : Frame KeyFrameHeader} (hf : KeyFrameOk f) (fw : f.width = width) (fh : f.height = height)
    (hs : f.header.updateSegmentation = none) :
    ∃ e' bytes, e.writeKey R f = some (e', bytes) ∧ (∃ new, e.exportDecoder.getFrameOutput R bytes = (e'.exportDecoder, .ok (f.show', new))) ∧
      ReadyFor width height e' ∧ e.exportDecoder.ReadsKey bytes f ∧ e'.references.Converged := by
  have hl' (t : ProbabilityTables) := hl f t hf fw fh
  have hem : KeyEmittable e f := ⟨hf, fw.trans he.width.symm, fh.trans he.height.symm, hs, (hl' _).1, fun bs hb b hm => (hl' _).2 bs hb b (List.dropLast_subset bs hm)⟩
  obtain ⟨e', bytes, h1, h2, h3, -, h5, -⟩ := key_step R e f hem
  obtain ⟨k1, k2, k3, -⟩ := C18_rejected_frame_leaves_usable R hR e.exportDecoder he.ok bytes
  rw [h2] at k1 k2 k3
  exact ⟨e', bytes, h1, ⟨_, h2⟩, ⟨k1, k2.trans he.width, k3.trans he.height, h3⟩, writeKey_reads hem h1, by
    rw [h5]; exact ⟨rfl, rfl⟩⟩

theorem blended_range {blend : Nat → Nat → Nat} (hb : Blends blend) {i : QuantIndices} (hi : i.InRange) {a b : Nat} (ha : a < 128) (hb' : b < 128) :
    ({ i with yAcQi := blend a b } : QuantIndices).InRange :=
  { hi with yAcQi := by have := (hb a b).2; show blend a b < 128; omega }

theorem writeUpdated_eq {R : Renderer} {w : ReencodeWork} {e e' : Encoder} {o : Raster} {old f : Frame InterFrameHeader} {i : QuantIndices} {last : Bool}
    {s : Raster} {bytes : List UInt8} (h1 : updateResidues w e o old i last = some (f, s)) (h2 : e.writeInter R f = some (e', bytes)) :
    writeUpdated R w e o old i last = .ok (e', bytes) := by
  unfold writeUpdated
  rw [h1, Option.bind_some, h2]
  rfl

theorem writeUpdated_ok {R : Renderer} (hR : R.Ok) {width height : Nat} {e : Encoder} (he : ReadyFor width height e)
    (hl : LengthsFit interKind InterFrameOk width height) {w : ReencodeWork} (hd : w.Ok width height) {o : Raster} (ho : o.Ok width height)
    {old : Frame InterFrameHeader} (hf : InterFrameOk old) (fw : old.width = width) (fh : old.height = height)
    (hs : old.header.updateSegmentation = none) {i : QuantIndices} (hi : i.InRange) (last : Bool) :
    ∃ e' bytes f, writeUpdated R w e o old i last = .ok (e', bytes) ∧ (∃ new, e.exportDecoder.getFrameOutput R bytes = (e'.exportDecoder, .ok (true, new))) ∧
      ReadyFor width height e' ∧ e.exportDecoder.ReadsInter bytes f ∧ FollowsFrame last old f ∧ f.header.quantIndices = i ∧ (last = true → e'.references.Converged) := by
  have hw := he.ok.state.width
  have hh := he.ok.state.height
  have hrefs := he.ok.references
  obtain ⟨f, s, f1, f2, f3, f4, f5, f6, f7, -, f9⟩ := updateResidues_ok (e := e) hw hh hrefs (w := w) (by rw [he.width, he.height]; exact hd) hf (fw.trans he.width.symm)
    (fh.trans he.height.symm) hs hi (o := o) (by rw [he.width, he.height]; exact ho) last
  obtain ⟨e', bytes, h1, h2, h3, h4, h5⟩ := he.inter hR hl f2 f3 f4 f6
  rw [f5] at h2
  refine ⟨e', bytes, f, ?_, h2, h3, h4, f9, f7, fun hlast => h5 ?_⟩
  · exact writeUpdated_eq f1 h1
  · have := f9.references
    rwa [if_pos hlast] at this

theorem reencodeFrame_ok {R : Renderer} (hR : R.Ok) {blend : Nat → Nat → Nat} (hb : Blends blend) {width height : Nat} {e : Encoder}
    (he : ReadyFor width height e) (hlk : LengthsFit keyKind KeyFrameOk width height) (hli : LengthsFit interKind InterFrameOk width height)
    {w : ReencodeWork} (hd : w.Ok width height) {o : Raster} (ho : o.Ok width height) {predictions : List PredictionFrame}
    (hp : ∀ p ∈ predictions, p.Ok width height) (extra : Bool) (hx : extra = true → ∃ f x, predictions[0]? = some (some f, x)) {k : Nat}
    (hk : k < predictions.length) (hstart : (if extra then 1 else 0) ≤ k) :
    ∃ e' bytes, reencodeFrame R blend extra width height predictions e k o w = .ok (e', bytes) ∧
      (∃ out, e.exportDecoder.getFrameOutput R bytes = (e'.exportDecoder, .ok out)) ∧ ReadyFor width height e' ∧
      WrittenFor blend (if extra then 1 else 0) predictions k e.exportDecoder bytes ∧ (k + 1 = predictions.length → e'.references.Converged) := by
  have hlast : (k == predictions.length - 1) = decide (k + 1 = predictions.length) := by
    rw [Bool.eq_iff_iff, beq_iff_eq, decide_eq_true_iff]; omega
  have hsize : ¬ (o.displayWidth ≠ e.state.width ∨ o.displayHeight ≠ e.state.height ∨ e.state.width ≠ width ∨ e.state.height ≠ height) := by
    rw [he.width, he.height, ho.displayWidth, ho.displayHeight]; simp
  have hw := he.ok.state.width
  have hh := he.ok.state.height
  have hrefs := he.ok.references
  obtain ⟨p, hpk⟩ : ∃ p, predictions[k]? = some p := ⟨_, List.getElem?_eq_getElem hk⟩
  have hpo := hp p (List.mem_of_getElem? hpk)
  unfold reencodeFrame
  dsimp only
  rw [if_neg hsize, hpk, hlast]
  obtain ⟨p1, p2⟩ := p
  cases p1 with
  | some key =>
    cases p2 with
    | some _ => exact hpo.elim
    | none =>
    obtain ⟨a1, a2, a3, a4⟩ := hpo
    dsimp only
    by_cases hks : k = if extra then 1 else 0
    · rw [if_pos hks]
      have hi : (firstIndices blend key predictions[k + 1]?).InRange := by
        unfold firstIndices
        split
        · rename_i y n hn
          have hno := hp _ (List.mem_of_getElem? hn)
          cases y with
          | some _ => exact hno.elim
          | none => exact blended_range hb a1.header.quantIndices a1.header.quantIndices.yAcQi hno.1.header.quantIndices.yAcQi
        · exact a1.header.quantIndices
      obtain ⟨f, f1, f2, f3, f4, f5, f6, f7, f8⟩ := reencodeAsInter_ok hw hh he.segmentation hrefs (w := w) (by rw [he.width, he.height]; exact hd) a1.header a4 hi
        (o := o) (by rw [he.width, he.height]; exact ho)
      obtain ⟨e', bytes, h1, ⟨new, h2⟩, h3, h4, h5⟩ := he.inter hR hli f2 f3 f4 f6
      rw [f1]
      dsimp only
      rw [h1]
      refine ⟨e', bytes, rfl, ⟨_, h2⟩, h3, ⟨fun old ho => ?_, fun old x hox => ⟨fun hlt => ?_, fun _ => ⟨f, h4, f8, fun hno => ?_, fun y next hy => ?_⟩⟩⟩, fun _ => h5 f8⟩
      · rw [hpk] at ho; cases ho
      · omega
      · rw [hpk] at hox; cases hox
        rw [f7]
        unfold firstIndices
        split
        · rename_i y n hn; exact absurd hn (hno y n)
        · rfl
      · rw [hpk] at hox; cases hox
        rw [f7, hy]; rfl
    · rw [if_neg hks]
      obtain ⟨e', bytes, h1, ⟨new, h2⟩, h3, h4, h5⟩ := he.key hR hlk a1 a2 a3 a4
      rw [h1]
      refine ⟨e', bytes, rfl, ⟨_, h2⟩, h3, ⟨fun old ho => ?_, fun old x hox => ⟨fun _ => ?_, fun h => absurd h hks⟩⟩, fun _ => h5⟩
      · rw [hpk] at ho; cases ho
      · rw [hpk] at hox; cases hox
        exact h4
  | none =>
    cases p2 with
    | none => exact hpo.elim
    | some old =>
    obtain ⟨a1, a2, a3, a4⟩ := hpo
    dsimp only
    by_cases hks : (k = if extra then 1 else 0) ∧ extra = true
    · rw [if_pos hks]
      obtain ⟨key, x, hkey⟩ := hx hks.2
      rw [hkey]
      dsimp only
      have hko := hp _ (List.mem_of_getElem? hkey)
      have hkr : key.header.quantIndices.InRange := by
        cases x with
        | some _ => exact hko.elim
        | none => exact hko.1.header.quantIndices
      obtain ⟨e', bytes, f, h1, ⟨new, h2⟩, h3, h4, h5, h6, h7⟩ := writeUpdated_ok hR he hli hd ho a1 a2 a3 a4
        (blended_range hb a1.header.quantIndices hkr.yAcQi a1.header.quantIndices.yAcQi) (decide (k + 1 = predictions.length))
      refine ⟨e', bytes, h1, ⟨_, h2⟩, h3, ⟨fun old' ho' => ?_, fun old' x hox => ?_⟩, fun hl => h7 (decide_eq_true hl)⟩
      · rw [hpk] at ho'; cases ho'
        refine ⟨f, h4, h5, fun hor => ?_, fun _ _ key' x' hk' => ?_⟩
        · obtain ⟨hk1, hk2⟩ := hks
          rw [if_pos hk2] at hor hk1
          omega
        · rw [hkey] at hk'; cases hk'
          exact h6
      · rw [hpk] at hox; cases hox
    · rw [if_neg hks]
      obtain ⟨e', bytes, f, h1, ⟨new, h2⟩, h3, h4, h5, h6, h7⟩ := writeUpdated_ok hR he hli hd ho a1 a2 a3 a4 a1.header.quantIndices
        (decide (k + 1 = predictions.length))
      refine ⟨e', bytes, h1, ⟨_, h2⟩, h3, ⟨fun old' ho' => ?_, fun old' x hox => ?_⟩, fun hl => h7 (decide_eq_true hl)⟩
      · rw [hpk] at ho'; cases ho'
        refine ⟨f, h4, h5, fun _ => h6, fun hk1 hk2 => ?_⟩
        refine absurd ⟨hk1, ?_⟩ hks
        cases extra
        · simp at hk2
        · rfl
      · rw [hpk] at hox; cases hox

theorem reencodeLoop_ok {R : Renderer} (hR : R.Ok) {blend : Nat → Nat → Nat} (hb : Blends blend) {width height : Nat}
    (hlk : LengthsFit keyKind KeyFrameOk width height) (hli : LengthsFit interKind InterFrameOk width height) {predictions : List PredictionFrame}
    (hp : ∀ p ∈ predictions, p.Ok width height) (extra : Bool) (hx : extra = true → ∃ f x, predictions[0]? = some (some f, x)) :
    ∀ (rasters : List (Raster × ReencodeWork)) (k : Nat) (e : Encoder), (∀ x ∈ rasters, x.1.Ok width height ∧ x.2.Ok width height) →
      k + rasters.length = predictions.length → (if extra then 1 else 0) ≤ k → ReadyFor width height e →
      ∃ e' frames, reencodeLoop R blend extra width height predictions k rasters e = .ok (e', frames) ∧ frames.length = rasters.length ∧
        ReadyFor width height e' ∧ (e.exportDecoder.run R frames).1 = e'.exportDecoder ∧ (∀ out ∈ (e.exportDecoder.run R frames).2, ∃ x, out = .ok x) ∧
        (∀ (j : Nat) (bytes : List UInt8), frames[j]? = some bytes →
          WrittenFor blend (if extra then 1 else 0) predictions (k + j) (e.exportDecoder.run R (frames.take j)).1 bytes) ∧
        (frames ≠ [] → e'.references.Converged)
  | [], k, e, _, _, _, he => ⟨e, [], rfl, rfl, he, rfl, by simp [Decoder.run], fun j b h => by simp at h, fun h => absurd rfl h⟩
  | (o, w) :: rest, k, e, hr, hlen, hst, he => by
    have hxr := hr _ List.mem_cons_self
    rw [List.length_cons] at hlen
    obtain ⟨e1, bytes, h1, ⟨out, h2⟩, h3, h4, h5⟩ := reencodeFrame_ok hR hb he hlk hli hxr.2 hxr.1 hp extra hx (k := k) (by omega) hst
    obtain ⟨e', frames, g1, g2, g3, g4, g5, g6, g7⟩ := reencodeLoop_ok hR hb hlk hli hp extra hx rest (k + 1) e1 (fun x hx => hr x (List.mem_cons_of_mem _ hx))
      (by omega) (by omega) h3
    refine ⟨e', bytes :: frames, ?_, by rw [List.length_cons, List.length_cons, g2], g3, ?_, ?_, fun j b hj => ?_, fun _ => ?_⟩
    · unfold reencodeLoop
      simp only [bind, Except.bind, h1, g1]
      rfl
    · unfold Decoder.run
      rw [h2]
      exact g4
    · unfold Decoder.run
      rw [h2]
      dsimp only
      intro x hx
      rcases List.mem_cons.1 hx with rfl | hx
      · exact ⟨_, rfl⟩
      · exact g5 x hx
    · cases j with
      | zero => cases hj; exact h4
      | succ j =>
        have := g6 j b hj
        rw [List.take_succ_cons]
        unfold Decoder.run
        rw [h2]
        rw [show k + (j + 1) = k + 1 + j by omega]
        exact this
    · cases hf : frames with
      | nil =>
        rw [hf] at g1 g2
        have hr0 : rest = [] := List.length_eq_zero_iff.1 g2.symm
        subst hr0
        cases g1
        exact h5 (by simpa using hlen)
      | cons b l => exact g7 (by rw [hf]; simp)

/-- **C74**: a chunk is re-encoded for any state in which the chunk before it may end.  A frame is written for each picture (but the first if there is
one extra).  A decoder in that state takes each for a frame that follows the one in the chunk, none is refused, and it ends exactly in the state that
the encoder goes on with, in which the three references are the same. -/
theorem C74_reencode (R : Renderer) (hR : R.Ok) (blend : Nat → Nat → Nat) (hb : Blends blend) (extra : Bool) (width height : Nat) (e : Encoder)
    (he : e.exportDecoder.Ok) (hw : e.state.width = width) (hh : e.state.height = height) (hseg : e.state.segmentation = none)
    (hlk : LengthsFit keyKind KeyFrameOk width height) (hli : LengthsFit interKind InterFrameOk width height)
    (rasters : List (Raster × ReencodeWork)) (hr : ∀ x ∈ rasters, x.1.Ok width height ∧ x.2.Ok width height) (hne : rasters ≠ [])
    (predictions : List PredictionFrame) (hp : ∀ p ∈ predictions, p.Ok width height) (hlen : rasters.length = predictions.length)
    (hx : extra = true → ∃ f x, predictions[0]? = some (some f, x)) :
    ∃ e' frames, reencode R blend extra width height rasters predictions e = .ok (e', frames) ∧
      frames.length = rasters.length - (if extra then 1 else 0) ∧
      (e.exportDecoder.run R frames).1 = e'.exportDecoder ∧ (∀ out ∈ (e.exportDecoder.run R frames).2, ∃ x, out = .ok x) ∧
      (∀ (j : Nat) (bytes : List UInt8), frames[j]? = some bytes →
        WrittenFor blend (if extra then 1 else 0) predictions ((if extra then 1 else 0) + j) (e.exportDecoder.run R (frames.take j)).1 bytes) ∧
      e'.exportDecoder.Ok ∧ e'.state.width = width ∧ e'.state.height = height ∧ e'.state.segmentation = none ∧
      (frames ≠ [] → e'.references.Converged) := by
  have hpos := List.length_pos_iff.2 hne
  obtain ⟨e', frames, g1, g2, g3, g4, g5, g6, g7⟩ := reencodeLoop_ok hR hb hlk hli hp extra hx (rasters.drop (if extra then 1 else 0)) (if extra then 1 else 0) e
    (fun x hx => hr x (List.drop_subset _ _ hx)) (by rw [List.length_drop]; cases extra <;> simp <;> omega) (Nat.le_refl _) ⟨he, hw, hh, hseg⟩
  refine ⟨e', frames, ?_, by rw [g2, List.length_drop], g4, g5, g6, g3.ok, g3.width, g3.height, g3.segmentation, g7⟩
  unfold reencode
  rw [if_neg (by simpa using hne), if_neg (by simpa using hlen)]
  exact g1

/-- **C74**: so the state that is written for the next chunk is restored exactly from its file. -/
theorem C74_saved_state_restores (d : Decoder) (hd : d.Ok) (hc : d.references.Converged) (blank : Raster) : loadDecoder blank (saveDecoder d) = some d :=
  (C16_restores_exactly_iff d hd blank).2 hc

/-- What one run of the program is given. -/
structure ReencodeChunk where
  extra : Bool
  rasters : List (Raster × ReencodeWork)
  predictions : List PredictionFrame

/-- What is asked of it: as many pictures as frames, at least one that is written, and a key frame first if there is one extra. -/
structure ReencodeChunk.Ok (width height : Nat) (c : ReencodeChunk) : Prop where
  rasters : ∀ x ∈ c.rasters, x.1.Ok width height ∧ x.2.Ok width height
  predictions : ∀ p ∈ c.predictions, p.Ok width height
  count : c.rasters.length = c.predictions.length
  written : (if c.extra then 1 else 0) < c.rasters.length
  first : c.extra = true → ∃ f x, c.predictions[0]? = some (some f, x)

/-- Several runs, each of which loads the state that the one before it has saved. -/
def reencodeAll (R : Renderer) (blend : Nat → Nat → Nat) (width height : Nat) (blank : Raster) : List ReencodeChunk → Decoder → Option (Decoder × List (List UInt8))
  | [], d => some (d, [])
  | c :: rest, d =>
    match reencode R blend c.extra width height c.rasters c.predictions ⟨d.state, d.references⟩ with
    | .error _ => none
    | .ok (e, frames) => do
      let d ← loadDecoder blank (saveDecoder e.exportDecoder)
      let (d, more) ← reencodeAll R blend width height blank rest d
      pure (d, frames ++ more)

theorem run_append (R : Renderer) : ∀ (a b : List (List UInt8)) (d : Decoder),
    d.run R (a ++ b) = (((d.run R a).1.run R b).1, (d.run R a).2 ++ ((d.run R a).1.run R b).2)
  | [], _, _ => rfl
  | x :: a, b, d => by
    have h (l : List (List UInt8)) : d.run R (x :: l) = (((d.getFrameOutput R x).1.run R l).1, (d.getFrameOutput R x).2 :: ((d.getFrameOutput R x).1.run R l).2) := rfl
    rw [List.cons_append, h, h, run_append R a b]
    rfl

/-- **C74** for any number of chunks, each re-encoded in a process of its own: one decoder takes all that is written, one chunk after the other. -/
theorem C74_any_chunks (R : Renderer) (hR : R.Ok) (blend : Nat → Nat → Nat) (hb : Blends blend) (width height : Nat)
    (hlk : LengthsFit keyKind KeyFrameOk width height) (hli : LengthsFit interKind InterFrameOk width height) (blank : Raster) :
    ∀ (chunks : List ReencodeChunk), (∀ c ∈ chunks, c.Ok width height) → ∀ (d : Decoder), d.Ok → d.state.width = width → d.state.height = height →
      d.state.segmentation = none →
      ∃ d' frames, reencodeAll R blend width height blank chunks d = some (d', frames) ∧ (d.run R frames).1 = d' ∧
        (∀ out ∈ (d.run R frames).2, ∃ x, out = .ok x) ∧
        frames.length = (chunks.map fun c => c.rasters.length - if c.extra then 1 else 0).sum
  | [], _, d, _, _, _, _ => ⟨d, [], rfl, rfl, by simp [Decoder.run], rfl⟩
  | c :: rest, hc, d, hd, hw, hh, hs => by
    have hco := hc c List.mem_cons_self
    have hne : c.rasters ≠ [] := fun h => by have := hco.written; rw [h] at this; simp at this
    obtain ⟨e', frames, g1, g2, g3, g4, -, g6, g7, g8, g9, g10⟩ := C74_reencode R hR blend hb c.extra width height ⟨d.state, d.references⟩ hd hw hh hs hlk hli c.rasters
      hco.rasters hne c.predictions hco.predictions hco.count hco.first
    have hconv := g10 (fun h => by rw [h] at g2; simp only [List.length_nil] at g2; have := hco.written; omega)
    obtain ⟨d', more, r1, r2, r3, r4⟩ := C74_any_chunks R hR blend hb width height hlk hli blank rest (fun c h => hc c (List.mem_cons_of_mem _ h)) e'.exportDecoder g6 g7 g8 g9
    have g3' : (d.run R frames).1 = e'.exportDecoder := g3
    have g4' : ∀ out ∈ (d.run R frames).2, ∃ x, out = .ok x := g4
    refine ⟨d', frames ++ more, ?_, ?_, ?_, ?_⟩
    · unfold reencodeAll
      rw [g1]
      dsimp only
      rw [C74_saved_state_restores _ g6 hconv, Option.bind_eq_bind, Option.bind_some, r1]
      rfl
    · rw [run_append, g3', r2]
    · rw [run_append, g3']
      intro out ho
      rcases List.mem_append.1 ho with h | h
      · exact g4' out h
      · exact r3 out h
    · rw [List.length_append, g2, r4, List.map_cons, List.sum_cons]

/-! ### The frames of the chunk are read from a file -/

/-- Whatever the bytes of the chunk are: if it is read at all, its frames are of the size of the pictures and such as the format can carry. -/
theorem C74_chunk_read (R : Renderer) (hR : R.Ok) : ∀ (chunk : List (List UInt8)) (d : Decoder) (predictions : List PredictionFrame), d.Ok →
    readPredictions R d.state.width d.state.height d chunk = .ok predictions →
    predictions.length = chunk.length ∧
    ∀ p ∈ predictions,
      (∃ f, p = (some f, none) ∧ KeyFrameOk f ∧ f.width = d.state.width ∧ f.height = d.state.height) ∨
      (∃ f, p = (none, some f) ∧ InterFrameOk f ∧ f.width = d.state.width ∧ f.height = d.state.height)
  | [], d, predictions, _, h => by
    cases h
    exact ⟨rfl, fun p hp => (nomatch hp)⟩
  | bytes :: rest, d, predictions, hd, h => by
    unfold readPredictions at h
    cases hs : splitFrame bytes d.state.width d.state.height false with
    | error x => rw [hs] at h; cases h
    | ok c =>
      rw [hs] at h
      simp only [bind, Except.bind] at h
      by_cases hk : c.keyFrame = true
      · rw [if_pos hk] at h
        obtain ⟨t1, t2⟩ := C12_key_frame_total d.state hd.state c
        obtain ⟨d1, d2⟩ := applyKey_dims_kept d.state c
        generalize d.state.applyKey c = z at *
        obtain ⟨st, out⟩ := z
        cases out with
        | error x => cases h
        | ok p =>
          have hp : KeyFrameOk p.frame ∧ p.frame.width = d.state.width ∧ p.frame.height = d.state.height := by
            rcases t2 with ⟨h', -⟩ | h' | h' | ⟨p', h', h1, h2, h3, -⟩
            · cases h'
            · cases h'
            · cases h'
            · cases h'; exact ⟨h1, h2, h3⟩
          dsimp only at h d1 d2 t1
          have hd' : (Decoder.decodeKey R { d with state := st } p).1.Ok := by
            refine ⟨t1, ?_⟩
            have hr := hR.key st.segmentation st.filterAdjustments p
            rw [hp.2.1, hp.2.2] at hr
            show References.Ok st.width st.height _
            rw [d1, d2]
            exact ⟨hr, hr, hr⟩
          have hdw : (Decoder.decodeKey R { d with state := st } p).1.state.width = d.state.width := d1
          have hdh : (Decoder.decodeKey R { d with state := st } p).1.state.height = d.state.height := d2
          generalize (Decoder.decodeKey R { d with state := st } p).1 = dn at *
          cases hrest : readPredictions R d.state.width d.state.height dn rest with
          | error x => rw [hrest] at h; cases h
          | ok l =>
            rw [hrest] at h
            cases h
            obtain ⟨i1, i2⟩ := C74_chunk_read R hR rest dn l hd' (by rw [hdw, hdh]; exact hrest)
            refine ⟨by rw [List.length_cons, List.length_cons, i1], fun x hx => ?_⟩
            rcases List.mem_cons.1 hx with rfl | hx
            · exact .inl ⟨p.frame, rfl, hp⟩
            · have := i2 x hx
              rwa [hdw, hdh] at this
      · rw [if_neg hk] at h
        obtain ⟨t1, t2⟩ := C12_inter_frame_total d.state hd.state c
        obtain ⟨d1, d2⟩ := applyInter_dims_kept d.state c
        generalize d.state.applyInter c = z at *
        obtain ⟨st, out⟩ := z
        cases out with
        | error x => cases h
        | ok p =>
          have hp : InterFrameOk p.frame ∧ p.frame.width = d.state.width ∧ p.frame.height = d.state.height := by
            rcases t2 with h' | h' | ⟨p', h', h1, h2, h3, -⟩
            · cases h'
            · cases h'
            · cases h'; exact ⟨h1, h2, h3⟩
          dsimp only at h d1 d2 t1
          have hd' : (Decoder.decodeInter R { d with state := st } p).1.Ok := by
            refine ⟨t1, ?_⟩
            have hr := hR.inter st.segmentation st.filterAdjustments d.references p
            rw [hp.2.1, hp.2.2] at hr
            show References.Ok st.width st.height _
            rw [d1, d2]
            exact copyInter_ok hd.references hr
          have hdw : (Decoder.decodeInter R { d with state := st } p).1.state.width = d.state.width := d1
          have hdh : (Decoder.decodeInter R { d with state := st } p).1.state.height = d.state.height := d2
          generalize (Decoder.decodeInter R { d with state := st } p).1 = dn at *
          cases hrest : readPredictions R d.state.width d.state.height dn rest with
          | error x => rw [hrest] at h; cases h
          | ok l =>
            rw [hrest] at h
            cases h
            obtain ⟨i1, i2⟩ := C74_chunk_read R hR rest dn l hd' (by rw [hdw, hdh]; exact hrest)
            refine ⟨by rw [List.length_cons, List.length_cons, i1], fun x hx => ?_⟩
            rcases List.mem_cons.1 hx with rfl | hx
            · exact .inr ⟨p.frame, rfl, hp⟩
            · have := i2 x hx
              rwa [hdw, hdh] at this

/-- Nothing is said of segments. -/
def PredictionFrame.Unsegmented (p : PredictionFrame) : Prop :=
  (∀ f, p.1 = some f → f.header.updateSegmentation = none) ∧ ∀ f, p.2 = some f → f.header.updateSegmentation = none

/-- **C74** for the program: from the bytes of the chunk and two saved decoders to the frames and the state that are written. -/
theorem C74_program (R : Renderer) (hR : R.Ok) (blend : Nat → Nat → Nat) (hb : Blends blend) (extra : Bool) (pd source : Decoder) (hpd : pd.Ok) (hs : source.Ok)
    (hw : pd.state.width = source.state.width) (hh : pd.state.height = source.state.height) (hseg : source.state.segmentation = none)
    (hsmall : (source.state.width + 15) / 16 * ((source.state.height + 15) / 16) ≤ 1200)
    (rasters : List (Raster × ReencodeWork)) (hr : ∀ x ∈ rasters, x.1.Ok source.state.width source.state.height ∧ x.2.Ok source.state.width source.state.height)
    (chunk : List (List UInt8)) (hlen : rasters.length = chunk.length) (hsome : (if extra then 1 else 0) < rasters.length)
    (predictions : List PredictionFrame) (hp : readPredictions R pd.state.width pd.state.height pd chunk = .ok predictions)
    (hu : ∀ p ∈ predictions, p.Unsegmented) (hx : extra = true → ∃ f x, predictions[0]? = some (some f, x)) (blank : Raster) :
    ∃ d' frames, xcReencode R blend extra source.state.width source.state.height pd source pd.state.width pd.state.height rasters chunk = some (d', frames) ∧
      frames.length = rasters.length - (if extra then 1 else 0) ∧ (source.run R frames).1 = d' ∧ (∀ out ∈ (source.run R frames).2, ∃ x, out = .ok x) ∧
      (∀ (j : Nat) (bytes : List UInt8), frames[j]? = some bytes →
        WrittenFor blend (if extra then 1 else 0) predictions ((if extra then 1 else 0) + j) (source.run R (frames.take j)).1 bytes) ∧
      loadDecoder blank (saveDecoder d') = some d' := by
  obtain ⟨c1, c2⟩ := C74_chunk_read R hR chunk pd predictions hpd hp
  obtain ⟨hlk, hli⟩ := C68_lengths_fit hsmall
  have hpo : ∀ p ∈ predictions, p.Ok source.state.width source.state.height := fun p hm => by
    have hum := hu p hm
    rcases c2 p hm with ⟨f, rfl, h1, h2, h3⟩ | ⟨f, rfl, h1, h2, h3⟩
    · exact ⟨h1, h2.trans hw, h3.trans hh, hum.1 f rfl⟩
    · exact ⟨h1, h2.trans hw, h3.trans hh, hum.2 f rfl⟩
  obtain ⟨e', frames, g1, g2, g3, g4, g5, g6, -, -, -, g10⟩ := C74_reencode R hR blend hb extra _ _ ⟨source.state, source.references⟩ hs rfl rfl hseg hlk hli rasters hr
    (fun h => by rw [h] at hsome; simp at hsome) predictions hpo (hlen.trans c1.symm) hx
  refine ⟨e'.exportDecoder, frames, ?_, g2, g3, g4, g5, C74_saved_state_restores _ g6 (g10 fun h => ?_) blank⟩
  · unfold xcReencode
    rw [hp]
    dsimp only
    rw [g1]
  · rw [h] at g2; simp only [List.length_nil] at g2; omega

/-! ### What is refused -/

theorem C74_refused (R : Renderer) (blend : Nat → Nat → Nat) (extra : Bool) (width height : Nat) (rasters : List (Raster × ReencodeWork))
    (predictions : List PredictionFrame) (e : Encoder) :
    (rasters = [] → reencode R blend extra width height rasters predictions e = .error .noRasters) ∧
    (rasters ≠ [] → rasters.length ≠ predictions.length → reencode R blend extra width height rasters predictions e = .error .countMismatch) ∧
    (rasters.length = predictions.length → ∀ o w, rasters[if extra then 1 else 0]? = some (o, w) →
      (o.displayWidth ≠ e.state.width ∨ o.displayHeight ≠ e.state.height ∨ e.state.width ≠ width ∨ e.state.height ≠ height →
        reencode R blend extra width height rasters predictions e = .error .sizeMismatch) ∧
      (o.displayWidth = width → o.displayHeight = height → e.state.width = width → e.state.height = height →
        (∀ f x, predictions[if extra then 1 else 0]? = some (some f, x) → f.header.updateSegmentation.isSome = true →
          reencode R blend extra width height rasters predictions e = .error .segmentation) ∧
        (extra = true → (∀ i f x, i < 2 → predictions[i]? ≠ some (some f, x)) →
          reencode R blend extra width height rasters predictions e = .error .notKeyFrame))) := by
  refine ⟨fun h => ?_, fun h1 h2 => ?_, fun hl o w ho => ?_⟩
  · unfold reencode; rw [h]; rfl
  · unfold reencode; rw [if_neg (by simpa using h1), if_pos h2]
  · have hlt := List.getElem?_eq_some_iff.1 ho
    obtain ⟨hlt, hget⟩ := hlt
    have hne : rasters.isEmpty = false := by
      cases rasters with
      | nil => simp at hlt
      | cons a l => rfl
    have hdrop : rasters.drop (if extra then 1 else 0) = (o, w) :: rasters.drop ((if extra then 1 else 0) + 1) := by
      rw [List.drop_eq_getElem_cons hlt, hget]
    have hred : ∀ x, reencodeFrame R blend extra width height predictions e (if extra then 1 else 0) o w = .error x →
        reencode R blend extra width height rasters predictions e = .error x := fun x hx => by
      unfold reencode
      rw [hne, if_neg (by decide), if_neg (by simpa using hl)]
      dsimp only
      rw [hdrop]
      unfold reencodeLoop
      simp only [bind, Except.bind, hx]
    refine ⟨fun h => hred _ ?_, fun a1 a2 a3 a4 => ⟨fun f x hf hsg => hred _ ?_, fun hex hno => hred _ ?_⟩⟩
    · unfold reencodeFrame
      dsimp only
      rw [if_pos h]
    · unfold reencodeFrame
      dsimp only
      rw [if_neg (by rw [a1, a2, a3, a4]; simp), hf]
      dsimp only
      rw [if_pos rfl]
      unfold reencodeAsInter
      rw [if_pos hsg]
    · subst hex
      unfold reencodeFrame
      dsimp only
      rw [if_neg (by rw [a1, a2, a3, a4]; simp)]
      have h1 : 1 < predictions.length := by rw [← hl]; exact hlt
      have h0 : 0 < predictions.length := by omega
      have n0 := hno 0
      have n1 := hno 1
      rw [if_pos rfl]
      rw [List.getElem?_eq_getElem h1] at n1 ⊢
      rw [List.getElem?_eq_getElem h0] at n0 ⊢
      generalize predictions[0] = p0 at *
      generalize predictions[1] = p1 at *
      obtain ⟨q1, q2⟩ := p1
      obtain ⟨r1, r2⟩ := p0
      cases q1 with
      | some f => exact absurd rfl (n1 f q2 (by decide))
      | none =>
        cases r1 with
        | some f => exact absurd rfl (n0 f r2 (by decide))
        | none => rfl

/-! ### What is not kept -/

/-- Frames that were not to be shown are shown. -/
theorem C74_hidden_frame_shown {R : Renderer} (hR : R.Ok) {width height : Nat} {e : Encoder} (he : ReadyFor width height e)
    (hl : LengthsFit interKind InterFrameOk width height) {w : ReencodeWork} (hd : w.Ok width height) {o : Raster} (ho : o.Ok width height)
    {old : Frame InterFrameHeader} (hf : InterFrameOk old) (fw : old.width = width) (fh : old.height = height)
    (hs : old.header.updateSegmentation = none) (_hidden : old.show' = false) {i : QuantIndices} (hi : i.InRange) (last : Bool) :
    ∃ e' bytes picture, writeUpdated R w e o old i last = .ok (e', bytes) ∧ e.exportDecoder.getFrameOutput R bytes = (e'.exportDecoder, .ok (true, picture)) := by
  obtain ⟨e', bytes, f, h1, ⟨new, h2⟩, -⟩ := writeUpdated_ok hR he hl hd ho hf fw fh hs hi last
  exact ⟨e', bytes, new, h1, h2⟩

/-- The frame without what it says of segments. -/
def Frame.unsegmented (f : Frame InterFrameHeader) : Frame InterFrameHeader :=
  { f with header := { f.header with updateSegmentation := none }, modes := f.modes.map fun m => { m with segmentIdUpdate := none } }

theorem InterFrameOk.unsegmented {f : Frame InterFrameHeader} (hf : InterFrameOk f) : InterFrameOk f.unsegmented := by
  have hmodes (k : Nat) (m : MBModes) (hm : f.unsegmented.modes[k]? = some m) : ∃ m0, f.modes[k]? = some m0 ∧ m = { m0 with segmentIdUpdate := none } := by
    have hm' : (f.modes.map fun m => ({ m with segmentIdUpdate := none } : MBModes))[k]? = some m := hm
    rw [List.getElem?_map] at hm'
    cases h0 : f.modes[k]? with
    | none => rw [h0] at hm'; cases hm'
    | some m0 =>
      rw [h0] at hm'
      cases hm'
      exact ⟨m0, rfl, rfl⟩
  refine ⟨{ hf.header with updateSegmentation := fun _ h => (nomatch h) }, hf.width, hf.height, by
    show (f.modes.map _).length = _; rw [List.length_map]; exact hf.count, by
    show _ = (f.modes.map _).length; rw [List.length_map]; exact hf.countResidues, fun k m hm => ?_, fun k m r hm hr => ?_⟩
  · obtain ⟨m0, h0, rfl⟩ := hmodes k m hm
    have hm0 := hf.modes k m0 h0
    refine MBModes.InterFrameOk.transfer (h := f.header) (h' := f.unsegmented.header) (gridContext_alike _ _ ?_ k) rfl rfl rfl (skip := m0.skip) hm0.pre.skipPresent hm0
    show f.modes.map _ = (f.modes.map _).map _
    rw [List.map_map]
    rfl
  · obtain ⟨m0, h0, rfl⟩ := hmodes k m hm
    have := hf.residues k m0 r h0 hr
    exact ⟨this.skipped, this.noY2, this.y2, this.y, this.u, this.v, this.nonzero⟩

theorem updateStep_unsegmented (late : Nat → Raster → Raster) (q : Quantizer) (references : References) (old : List MBModes) (o : Raster) (w : Nat) (s : Coded) (k : Nat) :
    updateStep late q references (old.map fun m => { m with segmentIdUpdate := none }) o w s k = updateStep late q references old o w s k := by
  unfold updateStep
  rw [List.getElem?_map]
  cases old[k]? <;> rfl

theorem updatePass_unsegmented (late : Nat → Raster → Raster) (q : Quantizer) (references : References) (old : List MBModes) (o : Raster) (width height : Nat) (s : Raster) :
    updatePass late q references (old.map fun m => { m with segmentIdUpdate := none }) o width height s = updatePass late q references old o width height s := by
  unfold updatePass
  congr 1
  funext s k
  exact updateStep_unsegmented ..

theorem updateResidues_segmented {w : ReencodeWork} {e : Encoder} {o : Raster} {old : Frame InterFrameHeader} {i : QuantIndices} {last : Bool}
    {f : Frame InterFrameHeader} {s : Raster} (h : updateResidues w e o old.unsegmented i last = some (f, s)) :
    updateResidues w e o old i last = some ({ f with header := { f.header with updateSegmentation := old.header.updateSegmentation } }, s) := by
  unfold updateResidues at h ⊢
  dsimp only at h ⊢
  simp only [show old.unsegmented.modes = old.modes.map fun m => { m with segmentIdUpdate := none } from rfl, updatePass_unsegmented] at h
  simp only [Option.bind_eq_bind, Option.bind_eq_some_iff, Option.pure_def, Option.some.injEq, Prod.mk.injEq] at h ⊢
  obtain ⟨q, h1, c, h2, sk, h3, rf, h4, pr, h5, tk, h6, h7, h8⟩ := h
  refine ⟨q, h1, c, h2, sk, h3, rf, h4, pr, h5, tk, h6, ?_, h8⟩
  rw [← h7]
  rfl

/-- Segments are lost: if the prediction frame gives segments to its macroblocks then the new frame says that it does so too, but gives none.  There
are no bytes from which any decoder would take that frame. -/
theorem C74_segments_lost {e : Encoder} (hw : 0 < e.state.width ∧ e.state.width < 2 ^ 14) (hh : 0 < e.state.height ∧ e.state.height < 2 ^ 14)
    (hrefs : e.references.Ok e.state.width e.state.height) {w : ReencodeWork} (hd : w.Ok e.state.width e.state.height)
    {old : Frame InterFrameHeader} (hf : InterFrameOk old) (fw : old.width = e.state.width) (fh : old.height = e.state.height)
    {u : UpdateSegmentation} (hu : old.header.updateSegmentation = some u) (hm : u.updateMbSegmentationMap = true) {i : QuantIndices} (hi : i.InRange)
    {o : Raster} (ho : o.Ok e.state.width e.state.height) (last : Bool) :
    ∃ f s, updateResidues w e o old i last = some (f, s) ∧ f.header.updateSegmentation = some u ∧ ∀ d bytes, d.Ok → ¬ Decoder.ReadsInter d bytes f := by
  obtain ⟨f, s, f1, f2, f3, f4, -, f6, -⟩ := updateResidues_ok hw hh hrefs hd hf.unsegmented fw fh rfl hi ho last
  refine ⟨_, s, updateResidues_segmented f1, hu, ?_⟩
  rintro d bytes hd ⟨c, st, p, -, -, h3, h4⟩
  obtain ⟨-, t⟩ := C12_inter_frame_total d.state hd.state c
  rw [h3] at t
  rcases t with h' | h' | ⟨p', h', h1, -⟩
  · cases h'
  · cases h'
  · cases h'
    rw [h4] at h1
    have hc := h1.count
    have hpos : 0 < (f.width + 15) / 16 * ((f.height + 15) / 16) := Nat.mul_pos (by rw [f3]; omega) (by rw [f4]; omega)
    have hl : 0 < f.modes.length := by
      have : f.modes.length = (f.width + 15) / 16 * ((f.height + 15) / 16) := hc
      omega
    have hm0 := (h1.modes 0 _ (List.getElem?_eq_getElem hl)).pre.segmentPresent.2 ⟨u, hu, hm⟩
    have hm1 := (f2.modes 0 _ (List.getElem?_eq_getElem hl)).pre.segmentPresent
    rw [f6] at hm1
    obtain ⟨s, hs, -⟩ := hm1.1 hm0
    cases hs

/-! ### Examples -/

/-- The measurements of the examples. -/
def exampleReencodeWork : ReencodeWork := ⟨exampleInterChoices, grayRaster 17 20 0⟩

theorem exampleReencodeWork_ok : exampleReencodeWork.Ok 17 20 := ⟨exampleInterChoices_ok (by decide) (by decide), grayRaster_ok ..⟩

/-- A mean. -/
def exampleBlend (a b : Nat) : Nat := (a + b) / 2

theorem exampleBlend_ok : Blends exampleBlend := fun a b => by
  show min a b ≤ (a + b) / 2 ∧ (a + b) / 2 ≤ max a b
  omega

/-- A chunk of a key frame, an inter frame and another key frame for three pictures. -/
def exampleChunk (extra : Bool) : ReencodeChunk :=
  ⟨extra, [(grayRaster 17 20 50, exampleReencodeWork), (grayRaster 17 20 60, exampleReencodeWork), (grayRaster 17 20 70, exampleReencodeWork)],
    [(some exampleKeyFrame2, none), (none, some exampleInterFrame2), (some exampleKeyFrame2, none)]⟩

theorem exampleChunk_ok (extra : Bool) : (exampleChunk extra).Ok 17 20 where
  rasters x hx := by
    rcases List.mem_cons.1 hx with rfl | hx
    · exact ⟨grayRaster_ok .., exampleReencodeWork_ok⟩
    rcases List.mem_cons.1 hx with rfl | hx
    · exact ⟨grayRaster_ok .., exampleReencodeWork_ok⟩
    rcases List.mem_cons.1 hx with rfl | hx
    · exact ⟨grayRaster_ok .., exampleReencodeWork_ok⟩
    exact (nomatch hx)
  predictions p hp := by
    have k : PredictionFrame.Ok 17 20 (some exampleKeyFrame2, none) := ⟨exampleKeyFrame2_ok, rfl, rfl, rfl⟩
    rcases List.mem_cons.1 hp with rfl | hp
    · exact k
    rcases List.mem_cons.1 hp with rfl | hp
    · exact ⟨exampleInterFrame2_ok, rfl, rfl, rfl⟩
    rcases List.mem_cons.1 hp with rfl | hp
    · exact k
    exact (nomatch hp)
  count := rfl
  written := by cases extra <;> decide
  first _ := ⟨exampleKeyFrame2, none, rfl⟩

/-- Two chunks for the example decoder, the second with an extra picture: five frames. -/
example : ∃ d' frames, reencodeAll grayRenderer exampleBlend 17 20 (grayRaster 17 20 0) [exampleChunk false, exampleChunk true] exampleDecoder = some (d', frames) ∧
    (exampleDecoder.run grayRenderer frames).1 = d' ∧ frames.length = 5 := by
  obtain ⟨hlk, hli⟩ := C68_lengths_fit (width := 17) (height := 20) (by decide)
  obtain ⟨d', frames, h1, h2, -, h4⟩ := C74_any_chunks grayRenderer grayRenderer_ok exampleBlend exampleBlend_ok 17 20 hlk hli (grayRaster 17 20 0)
    [exampleChunk false, exampleChunk true] (fun c hc => by
      rcases List.mem_cons.1 hc with rfl | hc
      · exact exampleChunk_ok _
      rcases List.mem_cons.1 hc with rfl | hc
      · exact exampleChunk_ok _
      exact (nomatch hc)) exampleDecoder exampleDecoder_ok rfl rfl rfl
  exact ⟨d', frames, h1, h2, h4⟩

/-- The example inter frame is not to be shown, but what is written for it is. -/
example : ∃ e' bytes picture, writeUpdated grayRenderer exampleReencodeWork exampleEncoder (grayRaster 17 20 60) exampleInterFrame2
      exampleInterFrame2.header.quantIndices false = .ok (e', bytes) ∧
    exampleEncoder.exportDecoder.getFrameOutput grayRenderer bytes = (e'.exportDecoder, .ok (true, picture)) :=
  C74_hidden_frame_shown grayRenderer_ok (width := 17) (height := 20) (e := exampleEncoder) ⟨exampleDecoder_ok, rfl, rfl, rfl⟩ (C68_lengths_fit (by decide)).2 exampleReencodeWork_ok
    (grayRaster_ok ..) exampleInterFrame2_ok rfl rfl rfl rfl exampleInterFrame2_ok.header.quantIndices false

/-- The macroblocks of this frame have segments. -/
example : ∃ f s, updateResidues ⟨exampleInterChoices, grayRaster 32 16 0⟩
      ⟨{ width := 32, height := 16 }, ⟨grayRaster 32 16 9, grayRaster 32 16 8, grayRaster 32 16 7⟩⟩ (grayRaster 32 16 60) exampleInterFrame
      exampleInterFrame.header.quantIndices true = some (f, s) ∧
    f.header.updateSegmentation = some exampleSegmentation ∧ ∀ d bytes, d.Ok → ¬ Decoder.ReadsInter d bytes f :=
  C74_segments_lost (e := ⟨{ width := 32, height := 16 }, ⟨grayRaster 32 16 9, grayRaster 32 16 8, grayRaster 32 16 7⟩⟩) (by decide) (by decide)
    ⟨grayRaster_ok .., grayRaster_ok .., grayRaster_ok ..⟩ ⟨exampleInterChoices_ok (by decide) (by decide), grayRaster_ok ..⟩ exampleInterFrame_ok rfl rfl rfl rfl
    exampleInterFrame_ok.header.quantIndices (grayRaster_ok ..) true

end Alfalfa
