import Verif.Proof.RenderFilter
import Verif.Props.DecoderExamples

/-! C63: the picture of a frame depends on the frame, the state and the references only.  C64: it is the picture of the format.
C39: the loop filter over a frame. -/

namespace Alfalfa

open RenderSpec LoopFilterSpec QuantizerSpec

/-! ### What parsing gives -/

theorem KeyFrameOk.ready {f : ParsedFrame KeyFrameHeader} (h : KeyFrameOk f.frame) (hl : f.segmentIds.length = f.frame.modes.length)
    (hi : ∀ v ∈ f.segmentIds, v < 4) : Ready f := ⟨h.width, h.height, h.count, h.countResidues, hl, hi, h.residues⟩

theorem InterFrameOk.ready {f : ParsedFrame InterFrameHeader} (h : InterFrameOk f.frame) (hl : f.segmentIds.length = f.frame.modes.length)
    (hi : ∀ v ∈ f.segmentIds, v < 4) : Ready f := ⟨h.width, h.height, h.count, h.countResidues, hl, hi, h.residues⟩

theorem QuantIndices.InRange.differences {i : QuantIndices} (h : i.InRange) : Differences i := by
  have key : ∀ x : Option Int, IfPresent (FitsSigned 4) x → -15 ≤ x.getD 0 ∧ x.getD 0 ≤ 15 := by
    intro x hx
    cases x with
    | none => decide
    | some v =>
      have : v.natAbs < 2 ^ 4 := hx v rfl
      rw [Option.getD_some]; omega
  exact ⟨key _ h.yDc, key _ h.y2Dc, key _ h.y2Ac, key _ h.uvDc, key _ h.uvAc⟩

theorem macroblockQuantizer_total {i : QuantIndices} (h : i.InRange) (s : Option Segmentation) {id : Nat} (hid : id < 4) :
    ∃ q, macroblockQuantizer s i id = some q := by
  unfold macroblockQuantizer
  cases s with
  | none => exact ⟨_, C43_quantizer (by have := h.yAcQi; omega) h.differences⟩
  | some s =>
    dsimp only
    rw [dif_pos hid]
    obtain ⟨q, hq, _⟩ := C43_segment_total (s := s) (k := ⟨id, hid⟩) h.differences
    exact ⟨q, hq⟩

/-- The index of the quantizer that the format prescribes for a macroblock of a segment. -/
def prescribedIndex (s : Option Segmentation) (i : QuantIndices) (id : Nat) : Int :=
  match s with
  | none => i.yAcQi
  | some s => if h : id < 4 then segmentIndex s i ⟨id, h⟩ else i.yAcQi

theorem macroblockQuantizer_eq {i : QuantIndices} (h : i.InRange) {s : Option Segmentation} (hs : ∀ g, s = some g → ∀ k, g.quantizer k ≤ 127) {id : Nat}
    (hid : id < 4) (h0 : 0 ≤ prescribedIndex s i id) : macroblockQuantizer s i id = some (prescribed (prescribedIndex s i id) i) := by
  have hq := h.yAcQi
  unfold macroblockQuantizer
  unfold prescribedIndex at h0 ⊢
  cases s with
  | none => exact C43_quantizer (by omega) h.differences
  | some g =>
    dsimp only at h0 ⊢
    rw [dif_pos hid] at h0 ⊢
    rw [dif_pos hid]
    exact C43_segment_partial (by omega) (hs g rfl _) h.differences h0

theorem key_reference {h : KeyFrameHeader} {m : MBModes} (hm : m.KeyOk h) : m.reference = some (referenceIndex m) := by
  unfold MBModes.reference referenceIndex; rw [hm.noInter.isInter]; rfl

theorem inter_reference {h : InterFrameHeader} {c : MBContext} {m : MBModes} (hm : m.InterFrameOk h c) : m.reference = some (referenceIndex m) := by
  rcases hm.cases with ⟨_, hn⟩ | ⟨s, _, hi⟩
  · unfold MBModes.reference referenceIndex; rw [hn.isInter]; rfl
  · unfold MBModes.reference referenceIndex
    rw [hi.isInter]
    have h1 := hi.sel1
    have h2 := hi.sel2
    cases e1 : m.sel1 with
    | none => rw [e1] at h1; simp at h1
    | some b => cases b with
      | false => simp
      | true =>
        rw [e1] at h2
        cases e2 : m.sel2 with
        | none => rw [e2] at h2; simp at h2
        | some b => cases b <;> simp

theorem references_sized {w h : Nat} {refs : References} (hr : refs.Ok w h) (m : MBModes) : (reference refs m).Ok w h := by
  unfold reference
  split
  · split
    · exact hr.alternative
    · exact hr.golden
  · exact hr.last

/-! ### Reconstruction of a frame -/

theorem decodeKey_sums {f : ParsedFrame KeyFrameHeader} (hf : KeyFrameOk f.frame) (hr : Ready f) {segmentation : Option Segmentation} {Q : Nat → Quantizer}
    (hQ : ∀ id, id < 4 → macroblockQuantizer segmentation f.frame.header.quantIndices id = some (Q id)) (reference : MBModes → Raster) {s : Raster}
    (hs : s.Ok f.frame.width f.frame.height) : ∃ t, decodeKeyFrame segmentation f s = some t ∧ t.Ok f.frame.width f.frame.height ∧
      ∀ k, k < (f.frame.width + 15) / 16 * ((f.frame.height + 15) / 16) →
        Sums (reference (modeAt f k)) (modeAt f k) (codeResidues (Q (idAt f k)) (modeAt f k) (residueAt f k))
          (k % ((f.frame.width + 15) / 16)) (k / ((f.frame.width + 15) / 16)) t := by
  refine forMacroblocks_sums hr (fun s k m r id e1 e4 hs p1 p2 => ?_) hs
  have hm := hf.modes k m e1
  rw [hQ id e4, Option.bind_eq_bind, Option.bind_some]
  exact reconstructIntra_solved hs p1 p2 (reference m) (Q id) hm.intra hm.noInter.isInter r

theorem decodeInter_sums {f : ParsedFrame InterFrameHeader} (hf : InterFrameOk f.frame) (hr : Ready f) {segmentation : Option Segmentation}
    {Q : Nat → Quantizer} (hQ : ∀ id, id < 4 → macroblockQuantizer segmentation f.frame.header.quantIndices id = some (Q id)) {refs : References}
    (hrefs : refs.Ok f.frame.width f.frame.height) {s : Raster} (hs : s.Ok f.frame.width f.frame.height) :
    ∃ t, decodeInterFrame segmentation refs f s = some t ∧ t.Ok f.frame.width f.frame.height ∧
      ∀ k, k < (f.frame.width + 15) / 16 * ((f.frame.height + 15) / 16) →
        Sums (reference refs (modeAt f k)) (modeAt f k) (codeResidues (Q (idAt f k)) (modeAt f k) (residueAt f k))
          (k % ((f.frame.width + 15) / 16)) (k / ((f.frame.width + 15) / 16)) t := by
  refine forMacroblocks_sums (reference := reference refs) hr (fun s k m r id e1 e4 hs p1 p2 => ?_) hs
  have hm := hf.modes k m e1
  rw [hQ id e4, Option.bind_eq_bind, Option.bind_some]
  rcases hm.cases with ⟨hi, hn⟩ | ⟨sc, _, hi⟩
  · rw [if_neg (by rw [hn.isInter]; decide)]
    exact reconstructIntra_solved hs p1 p2 (reference refs m) (Q id) hi hn.isInter r
  · rw [if_pos hi.isInter]
    exact reconstructInter_solved hs p1 p2 ((references_sized hrefs m).sized hr.width hr.height) (Q id) hi r

/-! ### C63 -/

theorem quantizers_exist {i : QuantIndices} (h : i.InRange) (s : Option Segmentation) :
    ∃ Q : Nat → Quantizer, ∀ id, id < 4 → macroblockQuantizer s i id = some (Q id) := by
  have h' : ∀ id, ∃ q, id < 4 → macroblockQuantizer s i id = some q := fun id => by
    by_cases hid : id < 4
    · obtain ⟨q, hq⟩ := macroblockQuantizer_total h s hid; exact ⟨q, fun _ => hq⟩
    · exact ⟨(C43_segment_total (s := ⟨false, fun _ => 0, fun _ => 0, 0, 0, []⟩) (k := 0) h.differences).choose, fun hc => absurd hc hid⟩
  exact ⟨fun id => (h' id).choose, fun id => (h' id).choose_spec⟩

/-- **C63** (key frames): for every key frame that the parser accepts, every segmentation and all loop-filter adjustments, decoding into a
recycled picture of the right size succeeds, and the result has this size and does not depend on what the recycled picture held. -/
theorem C63_key_frame {f : ParsedFrame KeyFrameHeader} (hf : KeyFrameOk f.frame) (hl : f.segmentIds.length = f.frame.modes.length)
    (hi : ∀ v ∈ f.segmentIds, v < 4) (segmentation : Option Segmentation) (adjustments : Option FilterAdjustments) :
    ∃ t : Raster, t.Ok f.frame.width f.frame.height ∧
      ∀ scratch : Raster, scratch.Ok f.frame.width f.frame.height → renderKey segmentation adjustments f scratch = some t := by
  have hr := KeyFrameOk.ready hf hl hi
  obtain ⟨Q, hQ⟩ := quantizers_exist hf.header.quantIndices segmentation
  have key : ∀ scratch : Raster, scratch.Ok f.frame.width f.frame.height → ∃ s t, decodeKeyFrame segmentation f scratch = some s ∧
      renderKey segmentation adjustments f scratch = some t ∧ t.Ok f.frame.width f.frame.height ∧ s.Ok f.frame.width f.frame.height ∧
      (∀ k, k < (f.frame.width + 15) / 16 * ((f.frame.height + 15) / 16) →
        Sums scratch (modeAt f k) (codeResidues (Q (idAt f k)) (modeAt f k) (residueAt f k))
          (k % ((f.frame.width + 15) / 16)) (k / ((f.frame.width + 15) / 16)) s) := by
    intro scratch hs
    obtain ⟨s, e1, e2, e3⟩ := decodeKey_sums hf hr hQ (fun _ => scratch) hs
    obtain ⟨t, f1, f2, _⟩ := filterFrame_shows hr (fun k m hm => key_reference (hf.modes k m hm)) true (level := f.frame.header.loopFilterLevel)
      (Nat.le_of_lt_succ hf.header.sharpnessLevel) segmentation adjustments e2
    refine ⟨s, t, e1, ?_, f2, e2, e3⟩
    unfold renderKey
    rw [e1, Option.bind_eq_bind, Option.bind_some]
    dsimp only
    rw [hf.header.filterType]
    exact f1
  have hb : (blankRaster f.frame.width f.frame.height).Ok f.frame.width f.frame.height :=
    ⟨rfl, rfl, rfl, rfl, rfl, rfl, rfl, rfl, List.length_replicate, List.length_replicate, List.length_replicate⟩
  obtain ⟨s, t, e1, e2, e3, e4, e5⟩ := key _ hb
  refine ⟨t, e3, fun scratch hs => ?_⟩
  obtain ⟨s', e1', e4', e5'⟩ := decodeKey_sums hf hr hQ (fun _ => blankRaster f.frame.width f.frame.height) hs
  have : s' = s := frame_unique hr e4' e4 e5' e5
  rw [← e2]
  unfold renderKey
  rw [e1, e1', this]

/-- **C63** (inter frames): the same, for all references of the size of the frame. -/
theorem C63_inter_frame {f : ParsedFrame InterFrameHeader} (hf : InterFrameOk f.frame) (hl : f.segmentIds.length = f.frame.modes.length)
    (hi : ∀ v ∈ f.segmentIds, v < 4) (segmentation : Option Segmentation) (adjustments : Option FilterAdjustments) {refs : References}
    (hrefs : refs.Ok f.frame.width f.frame.height) :
    ∃ t : Raster, t.Ok f.frame.width f.frame.height ∧
      ∀ scratch : Raster, scratch.Ok f.frame.width f.frame.height → renderInter segmentation adjustments refs f scratch = some t := by
  have hr := InterFrameOk.ready hf hl hi
  obtain ⟨Q, hQ⟩ := quantizers_exist hf.header.quantIndices segmentation
  obtain ⟨s, e1, e2, e3⟩ := decodeInter_sums hf hr hQ hrefs hrefs.last
  obtain ⟨t, f1, f2, _⟩ := filterFrame_shows hr (fun k m hm => inter_reference (hf.modes k m hm)) false (level := f.frame.header.loopFilterLevel)
    (Nat.le_of_lt_succ hf.header.sharpnessLevel) segmentation adjustments e2
  refine ⟨t, f2, fun scratch hs => ?_⟩
  obtain ⟨s', e1', e2', e3'⟩ := decodeInter_sums hf hr hQ hrefs hs
  have : s' = s := frame_unique hr e2' e2 e3' e3
  unfold renderInter
  rw [e1', this, Option.bind_eq_bind, Option.bind_some]
  dsimp only
  rw [hf.header.filterType]
  exact f1

/-! ### C39 over a frame -/

/-- **C39** (frames): the loop filter over a frame succeeds; at level zero of the header it changes nothing; otherwise the planes show
what `RenderSpec.filtered` defines: macroblock after macroblock, none with level zero (`RenderSpec.filteredAt`), the others as
`LoopFilterSpec.block` with their level. -/
theorem C39_frame {H : Type} {f : ParsedFrame H} (hf : Ready f) (href : ∀ (k : Nat) m, f.frame.modes[k]? = some m → m.reference = some (referenceIndex m))
    (keyFrame : Bool) {level sharpness : Nat} (hsh : sharpness ≤ 7) (segmentation : Option Segmentation) (adjustments : Option FilterAdjustments)
    {s : Raster} (hs : s.Ok f.frame.width f.frame.height) :
    ∃ t, loopfilterFrame keyFrame false level sharpness segmentation adjustments f s = some t ∧ t.Ok f.frame.width f.frame.height ∧
      (level = 0 → t = s) ∧ (level ≠ 0 → s.Shows t (filtered keyFrame sharpness (usedLevel segmentation adjustments level) f)) :=
  filterFrame_shows hf href keyFrame hsh segmentation adjustments hs

theorem foldl_same {α β : Type} {g : α → β → α} : ∀ {l : List β}, (∀ k ∈ l, ∀ a, g a k = a) → ∀ a, l.foldl g a = a
  | [], _, _ => rfl
  | k :: l, h, a => by rw [List.foldl_cons, h k List.mem_cons_self]; exact foldl_same (fun k hk => h k (List.mem_cons_of_mem _ hk)) a

/-- **C39** (level zero): if the level is zero for all macroblocks the picture stays as it is. -/
theorem C39_level_zero {H : Type} {f : ParsedFrame H} (hf : Ready f)
    (href : ∀ (k : Nat) m, f.frame.modes[k]? = some m → m.reference = some (referenceIndex m)) (keyFrame : Bool) {level sharpness : Nat}
    (hsh : sharpness ≤ 7) {segmentation : Option Segmentation} {adjustments : Option FilterAdjustments} {s : Raster}
    (hs : s.Ok f.frame.width f.frame.height)
    (h0 : level = 0 ∨ ∀ (k : Nat) m id, f.frame.modes[k]? = some m → f.segmentIds[k]? = some id →
      baseLevel segmentation level id + adjustment adjustments m ≤ 0) :
    loopfilterFrame keyFrame false level sharpness segmentation adjustments f s = some s := by
  obtain ⟨t, h1, h2, h3, h4⟩ := C39_frame hf href keyFrame (level := level) hsh segmentation adjustments hs
  rw [h1]
  by_cases hl : level = 0
  · rw [h3 hl]
  · rcases h0 with h0 | h0
    · exact absurd h0 hl
    have e : ∀ n img, filtered keyFrame sharpness (usedLevel segmentation adjustments level) f n img = img := by
      intro n img
      refine foldl_same (fun k hk img => ?_) img
      obtain ⟨m, r, id, e1, e2, e3, _, _⟩ := hf.at (List.mem_range.1 hk)
      unfold filteredAt
      simp only [e1, e2, e3]
      rw [if_pos (show usedLevel segmentation adjustments level m id = 0 from (limit63_zero _).2 (h0 k m id e1 e3))]
    have sh := h4 hl
    have a := hs.sized hf.width hf.height
    refine congrArg some (Raster.ext sh.displayWidth sh.displayHeight ?_ ?_ ?_)
    · exact Plane.ext_px sh.y.full a.y.full sh.y.width sh.y.height fun x y _ _ => by rw [sh.y.px, e]
    · exact Plane.ext_px sh.u.full a.u.full sh.u.width sh.u.height fun x y _ _ => by rw [sh.u.px, e]
    · exact Plane.ext_px sh.v.full a.v.full sh.v.width sh.v.height fun x y _ _ => by rw [sh.v.px, e]

/-! ### C64 -/

/-- The level of a macroblock as the format defines it. -/
def prescribedLevel (segmentation : Option Segmentation) (adjustments : Option FilterAdjustments) (level : Nat) (m : MBModes) (id : Nat) : Nat :=
  formatLevel (baseLevel segmentation level id) adjustments (referenceIndex m) m.yMode

theorem usedLevel_eq {segmentation : Option Segmentation} {adjustments : Option FilterAdjustments} {level : Nat} {m : MBModes} {id : Nat}
    (h : adjustments = none ∨ (0 ≤ baseLevel segmentation level id ∧ baseLevel segmentation level id ≤ 63)) :
    usedLevel segmentation adjustments level m id = prescribedLevel segmentation adjustments level m id := by
  unfold usedLevel prescribedLevel formatLevel adjustment
  cases adjustments with
  | none => dsimp only; rw [Int.add_zero]
  | some a =>
    rcases h with h | h
    · exact nomatch h
    · dsimp only
      have e : (limit63 (baseLevel segmentation level id) : Int) = baseLevel segmentation level id := by unfold limit63; omega
      rw [e, Int.add_assoc]

theorem filtered_congr {H : Type} {f : ParsedFrame H} (hf : Ready f) (keyFrame : Bool) (sharpness : Nat) {level level' : MBModes → Nat → Nat}
    (h : ∀ m id, id < 4 → level m id = level' m id) : filtered keyFrame sharpness level f = filtered keyFrame sharpness level' f := by
  funext n img
  unfold filtered
  suffices hs : ∀ l : List Nat, (∀ k ∈ l, k < (f.frame.width + 15) / 16 * ((f.frame.height + 15) / 16)) → ∀ img,
      l.foldl (filteredAt keyFrame sharpness level f n) img = l.foldl (filteredAt keyFrame sharpness level' f n) img from
    hs _ (fun k hk => List.mem_range.1 hk) img
  intro l
  induction l with
  | nil => intro _ _; rfl
  | cons k l ih =>
    intro hk img
    rw [List.foldl_cons, List.foldl_cons, ih fun k hk' => hk k (List.mem_cons_of_mem _ hk')]
    obtain ⟨m, r, id, e1, e2, e3, e4, _⟩ := hf.at (hk k List.mem_cons_self)
    unfold filteredAt
    simp only [e1, e2, e3, h m id e4]

/-- The conditions under which the deviations C40, C41 and C43 do not show: the indices of the quantizers are not negative, the levels of the
segments are in 0 .. 63 or there are no adjustments to add, and all numbers fit in 16 bits. -/
structure WithinRange {H : Type} (segmentation : Option Segmentation) (adjustments : Option FilterAdjustments) (i : QuantIndices) (level : Nat)
    (f : ParsedFrame H) : Prop where
  bounded : ∀ g, segmentation = some g → ∀ k, g.quantizer k ≤ 127
  index : ∀ id, id < 4 → 0 ≤ prescribedIndex segmentation i id
  levels : ∀ id, id < 4 → adjustments = none ∨ (0 ≤ baseLevel segmentation level id ∧ baseLevel segmentation level id ≤ 63)
  fits : FrameFits (fun id => prescribed (prescribedIndex segmentation i id) i) f

/-- The picture `t` is what the format makes of the frame `f`: there is a picture `s` that satisfies the equations of prediction and residue
(`RenderSpec.Unfiltered`), no other picture of this size satisfies them, and `t` is `s` after the loop filter. -/
def IsPicture {H : Type} (keyFrame : Bool) (segmentation : Option Segmentation) (adjustments : Option FilterAdjustments) (i : QuantIndices)
    (level sharpness : Nat) (reference : MBModes → Raster) (f : ParsedFrame H) (t : Raster) : Prop :=
  ∃ s : Raster, s.Ok f.frame.width f.frame.height ∧ Unfiltered (fun id => prescribed (prescribedIndex segmentation i id) i) reference f s ∧
    (∀ s' : Raster, s'.Ok f.frame.width f.frame.height →
      Unfiltered (fun id => prescribed (prescribedIndex segmentation i id) i) reference f s' → s' = s) ∧
    (level = 0 → t = s) ∧ (level ≠ 0 → s.Shows t (filtered keyFrame sharpness (prescribedLevel segmentation adjustments level) f))

/-- **C64** (key frames): the picture is what the format makes of the frame, within the range of `WithinRange`.  The full statement has no
such hypothesis; it is false because of `C40_adjust_deviation`, `C41_idct_overflow` and `C43_segment_deviation`. -/
theorem C64_key_frame_partial {f : ParsedFrame KeyFrameHeader} (hf : KeyFrameOk f.frame) (hl : f.segmentIds.length = f.frame.modes.length)
    (hi : ∀ v ∈ f.segmentIds, v < 4) {segmentation : Option Segmentation} {adjustments : Option FilterAdjustments}
    (h : WithinRange segmentation adjustments f.frame.header.quantIndices f.frame.header.loopFilterLevel f) (reference : MBModes → Raster)
    {scratch : Raster} (hs : scratch.Ok f.frame.width f.frame.height) :
    ∃ t, renderKey segmentation adjustments f scratch = some t ∧ IsPicture true segmentation adjustments f.frame.header.quantIndices
      f.frame.header.loopFilterLevel f.frame.header.sharpnessLevel reference f t := by
  have hr := KeyFrameOk.ready hf hl hi
  obtain ⟨s, e1, e2, e3⟩ := decodeKey_sums hf hr (fun id hid => macroblockQuantizer_eq hf.header.quantIndices h.bounded hid (h.index id hid)) reference hs
  obtain ⟨t, f1, f2, f3, f4⟩ := filterFrame_shows hr (fun k m hm => key_reference (hf.modes k m hm)) true (level := f.frame.header.loopFilterLevel)
    (Nat.le_of_lt_succ hf.header.sharpnessLevel) segmentation adjustments e2
  refine ⟨t, ?_, s, e2, (sums_iff hr h.fits s).1 e3, fun s' hs' hu => frame_unique hr hs' e2 ((sums_iff hr h.fits s').2 hu) e3, f3, fun hl => ?_⟩
  · unfold renderKey
    rw [e1, Option.bind_eq_bind, Option.bind_some]
    dsimp only
    rw [hf.header.filterType]
    exact f1
  · rw [← filtered_congr hr true _ fun m id hid => usedLevel_eq (h.levels id hid)]
    exact f4 hl

/-- **C64** (inter frames). -/
theorem C64_inter_frame_partial {f : ParsedFrame InterFrameHeader} (hf : InterFrameOk f.frame) (hl : f.segmentIds.length = f.frame.modes.length)
    (hi : ∀ v ∈ f.segmentIds, v < 4) {segmentation : Option Segmentation} {adjustments : Option FilterAdjustments}
    (h : WithinRange segmentation adjustments f.frame.header.quantIndices f.frame.header.loopFilterLevel f) {refs : References}
    (hrefs : refs.Ok f.frame.width f.frame.height) {scratch : Raster} (hs : scratch.Ok f.frame.width f.frame.height) :
    ∃ t, renderInter segmentation adjustments refs f scratch = some t ∧ IsPicture false segmentation adjustments f.frame.header.quantIndices
      f.frame.header.loopFilterLevel f.frame.header.sharpnessLevel (reference refs) f t := by
  have hr := InterFrameOk.ready hf hl hi
  obtain ⟨s, e1, e2, e3⟩ := decodeInter_sums hf hr (fun id hid => macroblockQuantizer_eq hf.header.quantIndices h.bounded hid (h.index id hid)) hrefs hs
  obtain ⟨t, f1, f2, f3, f4⟩ := filterFrame_shows hr (fun k m hm => inter_reference (hf.modes k m hm)) false (level := f.frame.header.loopFilterLevel)
    (Nat.le_of_lt_succ hf.header.sharpnessLevel) segmentation adjustments e2
  refine ⟨t, ?_, s, e2, (sums_iff hr h.fits s).1 e3, fun s' hs' hu => frame_unique hr hs' e2 ((sums_iff hr h.fits s').2 hu) e3, f3, fun hl => ?_⟩
  · unfold renderInter
    rw [e1, Option.bind_eq_bind, Option.bind_some]
    dsimp only
    rw [hf.header.filterType]
    exact f1
  · rw [← filtered_congr hr false _ fun m id hid => usedLevel_eq (h.levels id hid)]
    exact f4 hl

/-! ### The decoder -/

theorem blank_ok (width height : Nat) : (blankRaster width height).Ok width height :=
  ⟨rfl, rfl, rfl, rfl, rfl, rfl, rfl, rfl, List.length_replicate, List.length_replicate, List.length_replicate⟩

theorem settled_ok (width height : Nat) (r : Option Raster) : (settled width height r).Ok width height := by
  unfold settled
  split
  · split
    · next h =>
      simp only [Raster.hasSize, Bool.and_eq_true, beq_iff_eq] at h
      exact ⟨h.1.1.1.1.1.1.1.1.1.1, h.1.1.1.1.1.1.1.1.1.2, h.1.1.1.1.1.1.1.1.2, h.1.1.1.1.1.1.1.2, h.1.1.1.1.1.1.2, h.1.1.1.1.1.2, h.1.1.1.1.2,
        h.1.1.1.2, h.1.1.2, h.1.2, h.2⟩
    · exact blank_ok width height
  · exact blank_ok width height

theorem settled_eq {width height : Nat} {r : Raster} (h : r.Ok width height) : settled width height (some r) = r := by
  unfold settled
  dsimp only
  rw [if_pos]
  simp only [Raster.hasSize, Bool.and_eq_true, beq_iff_eq]
  exact ⟨⟨⟨⟨⟨⟨⟨⟨⟨⟨h.displayWidth, h.displayHeight⟩, h.yWidth⟩, h.yHeight⟩, h.uWidth⟩, h.uHeight⟩, h.vWidth⟩, h.vHeight⟩, h.y⟩, h.u⟩, h.v⟩

/-- The decoding of pictures in the code meets what the theorems about decoders ask of it. -/
theorem C63_renderer : codeRenderer.Ok := ⟨fun _ _ _ => settled_ok _ _ _, fun _ _ _ _ => settled_ok _ _ _⟩

/-- **C63** (decoder): for every decoder and all bytes, the picture of an accepted frame is what decoding gives into any recycled
picture; in particular no part of decoding fails after the frame has been parsed. -/
theorem C63_decoder {d d' : Decoder} (hd : d.Ok) {bytes : List UInt8} {shown : Bool} {raster : Raster}
    (h : d.getFrameOutput codeRenderer bytes = (d', .ok (shown, raster))) :
    (∃ c st f, d.state.applyKey c = (st, .ok f) ∧ ∀ scratch : Raster, scratch.Ok f.frame.width f.frame.height →
        renderKey st.segmentation st.filterAdjustments f scratch = some raster) ∨
    (∃ c st f, d.state.applyInter c = (st, .ok f) ∧ ∀ scratch : Raster, scratch.Ok f.frame.width f.frame.height →
        renderInter st.segmentation st.filterAdjustments d.references f scratch = some raster) := by
  unfold Decoder.getFrameOutput at h
  cases hs : splitFrame bytes d.state.width d.state.height false with
  | error e => rw [hs] at h; simp at h
  | ok c =>
    rw [hs] at h
    dsimp only at h
    split at h
    · cases ha : d.state.applyKey c with
      | mk st r =>
        cases r with
        | error e => rw [ha] at h; simp at h
        | ok f =>
          rw [ha] at h
          refine Or.inl ⟨c, st, f, ha, fun scratch hsc => ?_⟩
          obtain ⟨_, hh⟩ := C12_key_frame_total d.state hd.state c
          rw [ha] at hh
          rcases hh with ⟨hh, _⟩ | hh | hh | ⟨p, hp, h1, h2, h3, h4, h5⟩
          · simp at hh
          · simp at hh
          · simp at hh
          · obtain rfl : f = p := by simpa using hp
            obtain ⟨t, t1, t2⟩ := C63_key_frame h1 h4 h5 st.segmentation st.filterAdjustments
            rw [t2 scratch hsc]
            have e : raster = codeRenderer.key st.segmentation st.filterAdjustments f := by
              simp only [Decoder.decodeKey, Prod.mk.injEq, Except.ok.injEq] at h; exact h.2.2.symm
            rw [e]
            show some t = some (settled _ _ (renderKey _ _ _ _))
            rw [t2 _ (blank_ok _ _), settled_eq t1]
    · split at h
      · cases ha : d.state.applyInter c with
        | mk st r =>
          cases r with
          | error e => rw [ha] at h; simp at h
          | ok f =>
            rw [ha] at h
            refine Or.inr ⟨c, st, f, ha, fun scratch hsc => ?_⟩
            obtain ⟨_, hh⟩ := C12_inter_frame_total d.state hd.state c
            rw [ha] at hh
            rcases hh with hh | hh | ⟨p, hp, h1, h2, h3, h4, h5⟩
            · simp at hh
            · simp at hh
            · obtain rfl : f = p := by simpa using hp
              have hrefs : d.references.Ok f.frame.width f.frame.height := by rw [h2, h3]; exact hd.references
              obtain ⟨t, t1, t2⟩ := C63_inter_frame h1 h4 h5 st.segmentation st.filterAdjustments hrefs
              rw [t2 scratch hsc]
              have e : raster = codeRenderer.inter st.segmentation st.filterAdjustments d.references f := by
                simp only [Decoder.decodeInter, Prod.mk.injEq, Except.ok.injEq] at h; exact h.2.2.symm
              rw [e]
              show some t = some (settled _ _ (renderInter _ _ _ _ _))
              rw [t2 _ (blank_ok _ _), settled_eq t1]
      · simp at h

/-! ### Examples -/

def moderateBlock : Block := { coeffs := fun i => if i.val = 1 then 9 else if i.val = 7 then -30 else 0, hasNonzero := true }

/-- A key frame of four macroblocks, the last of which has coefficients. -/
def exampleDrawnKey : Frame KeyFrameHeader :=
  { exampleKeyFrame2 with residues := [{}, {}, {}, { y2 := { coeffs := fun i => if i.val = 3 then -40 else 0, hasNonzero := true }
                                                     y := fun i => if i.val = 5 then moderateBlock else {}, nonzero := true }] }

theorem exampleDrawnKey_ok : KeyFrameOk exampleDrawnKey :=
  { exampleKeyFrame2_ok with
    countResidues := by decide
    residues := by
      intro k m r hm hr
      rcases k with _ | _ | _ | _ | k
      · cases hr; exact exampleKeyFrame2_ok.residues 0 m _ hm rfl
      · cases hr; exact exampleKeyFrame2_ok.residues 1 m _ hm rfl
      · cases hr; exact exampleKeyFrame2_ok.residues 2 m _ hm rfl
      · have h3 := exampleKeyFrame2_ok.residues 3 m _ hm rfl
        cases hr
        cases hm
        refine ⟨fun h => absurd h (by decide), fun h => absurd h (by decide), h3.y2, fun i => ?_, h3.u, h3.v, by decide +kernel⟩
        rw [if_neg (by decide)]
        show (if i.val = 5 then moderateBlock else {}).Representable _
        split
        · exact ⟨by decide +kernel, fun _ => by decide +kernel, by decide +kernel⟩
        · exact representable_default _
      · exact nomatch hm }

def exampleParsedKey : ParsedFrame KeyFrameHeader := ⟨exampleDrawnKey, [0, 0, 0, 0]⟩

theorem example_fits {q : Quantizer} {m : MBModes} : FitsIn16 q m {} := by
  have s0 : ∀ dc ac, scaled dc ac {} = fun _ => 0 := fun dc ac => funext fun i => Int.zero_mul _
  have l0 : ∀ k, lumaCoefficients q m {} k = fun _ => 0 := fun k => funext fun i => by
    unfold lumaCoefficients
    show (if _ then TransformSpec.walsh (scaled _ _ {}) _ _ else scaled _ _ {} i) = 0
    rw [s0, s0, walsh_zero, ite_self]
  constructor <;> first
    | (intro k; show TransformSpec.Fits _ (scaled _ _ {}); rw [s0]; unfold TransformSpec.Fits; decide +kernel)
    | (intro k; rw [l0]; unfold TransformSpec.Fits; decide +kernel)
    | (show TransformSpec.Fits _ (scaled _ _ {}); rw [s0]; unfold TransformSpec.Fits; decide +kernel)
    | (intro k i; show _ ≤ scaled _ _ {} i ∧ scaled _ _ {} i ≤ _; rw [s0]; show -32768 ≤ (0 : Int) ∧ (0 : Int) ≤ 32767; decide)
    | (intro i; show _ ≤ scaled _ _ {} i ∧ scaled _ _ {} i ≤ _; rw [s0]; show -32768 ≤ (0 : Int) ∧ (0 : Int) ≤ 32767; decide)

/-- The hypotheses of `C63_key_frame` and `C64_key_frame_partial` are met by a key frame with coefficients and filter adjustments, ... -/
example : KeyFrameOk exampleParsedKey.frame ∧ exampleParsedKey.segmentIds.length = exampleParsedKey.frame.modes.length ∧
    (∀ v ∈ exampleParsedKey.segmentIds, v < 4) ∧ exampleDrawnKey.header.loopFilterLevel ≠ 0 ∧
    WithinRange none (some ⟨![2, 0, -2, -2], ![4, -2, 2, 4]⟩) exampleDrawnKey.header.quantIndices exampleDrawnKey.header.loopFilterLevel exampleParsedKey := by
  refine ⟨exampleDrawnKey_ok, rfl, by decide, by decide, fun _ h => (nomatch h), fun id _ => ?_, fun id _ => Or.inr ?_, ?_⟩
  · show (0 : Int) ≤ (exampleDrawnKey.header.quantIndices.yAcQi : Int); decide
  · show (0 : Int) ≤ (exampleDrawnKey.header.loopFilterLevel : Int) ∧ (exampleDrawnKey.header.loopFilterLevel : Int) ≤ 63; decide
  · intro k m r id hm hr hid
    rcases k with _ | _ | _ | _ | k
    · cases hr; exact example_fits
    · cases hr; exact example_fits
    · cases hr; exact example_fits
    · cases hr; cases hm; cases hid
      constructor <;> (try unfold TransformSpec.Fits) <;> decide +kernel
    · exact nomatch hm

def exampleDrawnInter : Frame InterFrameHeader :=
  { exampleInterFrame2 with residues := List.replicate 3 {} ++ [{ y := fun i => if i.val = 5 then moderateBlock else {}, nonzero := true }] }

theorem exampleDrawnInter_ok : InterFrameOk exampleDrawnInter :=
  { exampleInterFrame2_ok with
    countResidues := by decide
    residues := by
      intro k m r hm hr
      rcases k with _ | _ | _ | _ | k
      · cases hr; exact exampleInterFrame2_ok.residues 0 m _ hm rfl
      · cases hr; exact exampleInterFrame2_ok.residues 1 m _ hm rfl
      · cases hr; exact exampleInterFrame2_ok.residues 2 m _ hm rfl
      · have h3 := exampleInterFrame2_ok.residues 3 m _ hm rfl
        cases hr
        cases hm
        refine ⟨fun h => absurd h (by decide), fun h => absurd h (by decide), h3.y2, fun i => ?_, h3.u, h3.v, by decide +kernel⟩
        rw [if_neg (by decide)]
        show (if i.val = 5 then moderateBlock else {}).Representable _
        split
        · exact ⟨by decide +kernel, fun _ => by decide +kernel, by decide +kernel⟩
        · exact representable_default _
      · exact nomatch hm }

def exampleParsedInter : ParsedFrame InterFrameHeader := ⟨exampleDrawnInter, [0, 3, 1, 2]⟩

/-- ... and those of `C63_inter_frame` and `C64_inter_frame_partial` by an inter frame with coefficients and segments. -/
example : InterFrameOk exampleParsedInter.frame ∧ exampleParsedInter.segmentIds.length = exampleParsedInter.frame.modes.length ∧
    (∀ v ∈ exampleParsedInter.segmentIds, v < 4) ∧
    (⟨blankRaster 17 20, blankRaster 17 20, blankRaster 17 20⟩ : References).Ok exampleParsedInter.frame.width exampleParsedInter.frame.height ∧
    WithinRange (some ⟨true, ![5, 10, 15, 20], ![0, 7, 63, 32], 2, 2, [0, 3, 1, 2]⟩) none exampleDrawnInter.header.quantIndices exampleDrawnInter.header.loopFilterLevel
      exampleParsedInter := by
  refine ⟨exampleDrawnInter_ok, rfl, by decide, ⟨blank_ok _ _, blank_ok _ _, blank_ok _ _⟩, ?_, ?_, ?_, ?_⟩
  · intro g hg k; cases hg; revert k; decide
  · intro id hid; revert id; decide
  · intro id hid; revert id; decide
  · intro k m r id hm hr hid
    rcases k with _ | _ | _ | _ | k
    · cases hr; exact example_fits
    · cases hr; exact example_fits
    · cases hr; exact example_fits
    · cases hr; cases hm; cases hid
      constructor <;> (try unfold TransformSpec.Fits) <;> decide +kernel
    · exact nomatch hm

end Alfalfa
