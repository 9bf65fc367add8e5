import Verif.Proof.Encode

/-! C67: whatever the encoder chooses, its frame can be carried by the format, and the picture by which it judges the frame is the one that
the decoder will show. -/

namespace Alfalfa

open RenderSpec QuantizerSpec

/-! ### What is asked of the choices -/

/-- `t` differs from `s` in macroblock `k` only; the pictures are `w` macroblocks wide. -/
def OnlyMacroblock (w k : Nat) (s t : Raster) : Prop :=
  (∀ x y, ¬ (x / 16 = k % w ∧ y / 16 = k / w) → t.y.px x y = s.y.px x y) ∧
  (∀ x y, ¬ (x / 8 = k % w ∧ y / 8 = k / w) → t.u.px x y = s.u.px x y ∧ t.v.px x y = s.v.px x y)

/-- The trials of modes keep the size of the picture and write to the macroblock that is being coded only. -/
structure Trials.Confined (width height : Nat) (t : Trials) : Prop where
  size : ∀ k s, Raster.Ok width height s → (t.early k s).Ok width height ∧ (t.late k s).Ok width height
  place : ∀ k s, Raster.Ok width height s → OnlyMacroblock ((width + 15) / 16) k s (t.early k s) ∧ OnlyMacroblock ((width + 15) / 16) k s (t.late k s)

/-- Counts of branches that `unsigned int` can hold. -/
def CountsFit (n : BranchCounts) : Prop := ∀ i j k l, (n i j k l).1 + (n i j k l).2 < 2 ^ 32

structure SecondChoices.Ok (width height : Nat) (e : SecondChoices) : Prop where
  trials : e.trials.Confined width height
  counts : CountsFit e.counts
  /-- `update_rd_multipliers` gives 1 or 100. -/
  costs : ∀ t, (e.costs t).distortion ≤ 100

structure KeyChoices.Ok (width height : Nat) (d : KeyChoices) : Prop where
  trials : d.trials.Confined width height
  counts : CountsFit d.counts
  second : ∀ e, d.second = some e → e.Ok width height

/-- A search for a new vector takes place in pictures of at most 248 by 248 macroblocks (3968 by 3968 pixels); see `C66_wide`. -/
structure InterChoices.Ok (width height : Nat) (d : InterChoices) : Prop where
  trials : d.trials.Confined width height
  counts : CountsFit d.counts
  vectors : ∀ k cost, d.modes k = .new cost → (width + 15) / 16 ≤ 248 ∧ (height + 15) / 16 ≤ 248

/-! ### Key frames -/

theorem Trials.Confined.local {width height : Nat} (hw : 0 < width ∧ width < 2 ^ 14) (hh : 0 < height ∧ height < 2 ^ 14) {t : Trials}
    (h : t.Confined width height) : t.Local width height ((width + 15) / 16) ((height + 15) / 16) := by
  refine ⟨fun k s hs => (h.size k s hs.ok).1.sized hw hh, fun k s hs => ⟨(h.size k s hs.ok).2.sized hw hh, fun x hx => ?_⟩⟩
  obtain ⟨e1, e2⟩ := (h.place k s hs.ok).2
  obtain ⟨i, u, v⟩ := x
  match i with
  | 0 => exact e1 u v hx
  | 1 => exact (e2 u v hx).1
  | 2 => exact (e2 u v hx).2

theorem optimizeTables_range {u v : TokenProbUpdate} (hu : ∀ i j k l, IfPresent (· < 256) (u i j k l)) {t : CoeffProbs} {n : BranchCounts}
    (h : optimizeTables u t n = some v) : ∀ i j k l, IfPresent (· < 256) (v i j k l) := by
  intro i j k l
  have he := optimizeTables_at h i j k l
  unfold optimizeEntry at he
  cases hc : countedProb (n i j k l).1 (n i j k l).2 with
  | none => rw [hc] at he; exact nomatch he
  | some p =>
    rw [hc, Option.bind_eq_bind, Option.bind_some] at he
    by_cases h1 : p > 255
    · rw [if_pos h1] at he; exact nomatch he
    · rw [if_neg h1] at he
      by_cases h2 : p > 0 ∧ p ≠ (t i j k l).toNat
      · rw [if_pos h2] at he
        intro y hy
        have := (Option.some.inj he).trans hy
        have := Option.some.inj this
        omega
      · rw [if_neg h2] at he
        rw [← Option.some.inj he]
        exact hu i j k l

theorem keyPass_ok {pass : Option SecondPass} (hpass : ∀ s, pass = some s → s.Fits) {trials : Trials} {q : Quantizer} (hq : q.InRange)
    (choices : Nat → IntraChoice) {width height : Nat} (hw : 0 < width ∧ width < 2 ^ 14) (hh : 0 < height ∧ height < 2 ^ 14)
    (hT : trials.Confined width height) {o s : Raster} (ho : o.Ok width height) (hs : s.Ok width height) {hd : KeyFrameHeader}
    (h1 : hd.updateSegmentation = none) (h2 : hd.probSkipFalse.isSome = true) (reference : MBModes → Raster) :
    ∃ c, keyPass pass trials q choices o width height s = some c ∧
      CodedUpTo width height ((width + 15) / 16) ((height + 15) / 16) q reference (fun _ _ m => m.KeyOk hd) ((width + 15) / 16 * ((height + 15) / 16)) c := by
  unfold keyPass macroblockDimension
  exact coded_loop (Inv := CodedUpTo width height ((width + 15) / 16) ((height + 15) / 16) q reference (fun _ _ m => m.KeyOk hd))
    (fun k s hk hs => keyStep_ok hpass hq choices (hT.local hw hh) (ho.sized hw hh) h1 h2 reference hk hs)
    (empty_coded q reference _ (hs.sized hw hh))

theorem keyPasses_ok {d : KeyChoices} {q : Quantizer} (hq : q.InRange) {width height : Nat} (hw : 0 < width ∧ width < 2 ^ 14)
    (hh : 0 < height ∧ height < 2 ^ 14) (hd : d.Ok width height) {u : TokenProbUpdate} (hu : ∀ i j k l, IfPresent (· < 256) (u i j k l)) {o s : Raster}
    (ho : o.Ok width height) (hs : s.Ok width height) {h : KeyFrameHeader} (h1 : h.updateSegmentation = none) (h2 : h.probSkipFalse.isSome = true)
    (reference : MBModes → Raster) :
    ∃ c v, keyPasses d q u o width height s = some (c, v) ∧ (∀ i j k l, IfPresent (· < 256) (v i j k l)) ∧
      CodedUpTo width height ((width + 15) / 16) ((height + 15) / 16) q reference (fun _ _ m => m.KeyOk h) ((width + 15) / 16 * ((height + 15) / 16)) c := by
  obtain ⟨c, c1, c2⟩ := keyPass_ok (pass := none) (fun _ h => nomatch h) hq d.modes hw hh hd.trials ho hs h1 h2 reference
  obtain ⟨v, v1⟩ := C44_total u ({} : ProbabilityTables).coeffProbs hd.counts
  have v2 := optimizeTables_range hu v1
  unfold keyPasses
  rw [c1, Option.bind_eq_bind, Option.bind_some, v1, Option.bind_eq_bind, Option.bind_some]
  cases he : d.second with
  | none => exact ⟨c, v, rfl, v2, c2⟩
  | some e =>
    have hs' := hd.second e he
    obtain ⟨c', d1, d2⟩ := keyPass_ok (pass := some { costs := e.costs, contexts := e.contexts, staleType := fun k =>
      if (d.modes k).yMode.val = B_PRED then .yWithoutY2 else .yAfterY2 }) (fun s hs => by cases hs; exact hs'.costs) hq e.modes hw hh hs'.trials ho c2.sized.ok h1 h2 reference
    obtain ⟨v', v1'⟩ := C44_total v ({} : ProbabilityTables).coeffProbs hs'.counts
    refine ⟨c', v', ?_, optimizeTables_range v2 v1', d2⟩
    dsimp only
    rw [d1, Option.bind_some]
    exact Option.bind_eq_some_iff.2 ⟨v', v1', rfl⟩

theorem zeroAdjustments_range : IfPresent (IfPresent ModeRefLFDeltaUpdate.InRange) zeroAdjustments := by
  intro y hy z hz
  unfold zeroAdjustments at hy
  cases hy
  cases hz
  exact ⟨fun _ v hv => by cases hv; unfold FitsSigned; decide, fun _ v hv => by cases hv; unfold FitsSigned; decide⟩

theorem mbs_bound {width height : Nat} (hw : 0 < width ∧ width < 2 ^ 14) (hh : 0 < height ∧ height < 2 ^ 14) :
    0 < (width + 15) / 16 * ((height + 15) / 16) ∧ (width + 15) / 16 * ((height + 15) / 16) < 2 ^ 24 := by
  have h1 : 0 < (width + 15) / 16 ∧ (width + 15) / 16 ≤ 2 ^ 10 := by omega
  have h2 : 0 < (height + 15) / 16 ∧ (height + 15) / 16 ≤ 2 ^ 10 := by omega
  exact ⟨Nat.mul_pos h1.1 h2.1, lt_of_le_of_lt (Nat.mul_le_mul h1.2 h2.2) (by decide)⟩

/-- **C67** (key frames): for every original and every content of the recycled picture, every header left by earlier pictures and all
choices, encoding succeeds; the frame is one that the format can carry, without segmentation, shown, of the size asked for; and the
picture that the encoder judges is the one that decoding the frame gives, into any recycled picture. -/
theorem C67_key {width height : Nat} (hw : 0 < width ∧ width < 2 ^ 14) (hh : 0 < height ∧ height < 2 ^ 14) {d : KeyChoices} (hd : d.Ok width height)
    {h : KeyFrameHeader} (hr : h.InRange) (hs : h.updateSegmentation = none) {i : QuantIndices} (hi : i.InRange) {o s : Raster}
    (ho : o.Ok width height) (hsc : s.Ok width height) :
    ∃ f shown, encodeKey d h i o width height s = some (f, shown) ∧ KeyFrameOk f ∧ f.width = width ∧ f.height = height ∧ f.show' = true ∧
      f.header.updateSegmentation = none ∧ f.header.quantIndices = i ∧ f.header.log2Partitions = h.log2Partitions ∧
      f.header.modeLfAdjustments = zeroAdjustments ∧ f.header.refreshEntropyProbs = true ∧ shown.Ok width height ∧
      ∀ scratch : Raster, scratch.Ok width height →
        renderKey none (some {}) { frame := f, segmentIds := f.modes.map fun _ => 0 } scratch = some shown := by
  have hq := C43_quantizer (by have := hi.yAcQi; omega) hi.differences
  have hqr := C43_range (by have := hi.yAcQi; omega) hi.differences hq
  obtain ⟨m1, m2⟩ := mbs_bound hw hh
  -- what is coded does not depend on the probability for the skip flags
  obtain ⟨c, v, e1, e2, -⟩ := keyPasses_ok hqr hw hh hd hr.tokenProbUpdate ho hsc (h := { h with probSkipFalse := some 0 }) hs rfl (fun _ => o)
  have len : c.residues.length = (width + 15) / 16 * ((height + 15) / 16) := by
    obtain ⟨c', v', e1', -, e3'⟩ := keyPasses_ok hqr hw hh hd hr.tokenProbUpdate ho hsc (h := { h with probSkipFalse := some 0 }) hs rfl (fun _ => o)
    rw [e1] at e1'
    cases e1'
    exact e3'.residues
  obtain ⟨p, p1, p2, -⟩ := C44_skip (r := c.residues) (fun e => by rw [e] at len; simp at len; omega) (by rw [len]; exact m2)
  let header : KeyFrameHeader := { h with quantIndices := i, refreshEntropyProbs := true, tokenProbUpdate := v, probSkipFalse := some p,
                                          modeLfAdjustments := zeroAdjustments, loopFilterLevel := d.level.val }
  let f : Frame KeyFrameHeader := { show' := true, width, height, header, modes := c.modes, residues := c.residues }
  have e3 : CodedUpTo width height ((width + 15) / 16) ((height + 15) / 16) (prescribed i.yAcQi i) (fun _ => o) (fun _ _ m => m.KeyOk header)
      ((width + 15) / 16 * ((height + 15) / 16)) c := by
    obtain ⟨c', v', e1', -, e3'⟩ := keyPasses_ok hqr hw hh hd hr.tokenProbUpdate ho hsc (h := header) hs rfl (fun _ => o)
    rw [e1] at e1'
    cases e1'
    exact e3'
  have hrange : header.InRange :=
    ⟨hr.colorSpace, hr.clampingType, hr.filterType, hr.updateSegmentation, d.level.2, hr.sharpnessLevel, zeroAdjustments_range, hr.log2Partitions, hi, e2,
      fun y hy => by cases hy; omega⟩
  have hf : KeyFrameOk f := ⟨hrange, hw, hh, e3.modes, e3.residues.trans e3.modes.symm, fun k m hm => e3.good k m hm, e3.residueOk⟩
  have hids : ∀ v ∈ f.modes.map fun _ => 0, v < 4 := fun v hv => by
    obtain ⟨_, _, rfl⟩ := List.mem_map.1 hv; decide
  obtain ⟨t, t1, t2⟩ := C63_key_frame (f := { frame := f, segmentIds := f.modes.map fun _ => 0 }) hf (List.length_map ..) hids none (some {})
  have hready := KeyFrameOk.ready (f := { frame := f, segmentIds := f.modes.map fun _ => 0 }) hf (List.length_map ..) hids
  obtain ⟨s', g1, g2, g3⟩ := decodeKey_sums (f := { frame := f, segmentIds := f.modes.map fun _ => 0 }) hf hready (segmentation := none)
    (Q := fun _ => prescribed i.yAcQi i) (fun _ _ => hq) (fun _ => o) hsc
  have hsame : s' = c.raster := by
    refine frame_unique (f := { frame := f, segmentIds := f.modes.map fun _ => 0 }) hready g2 e3.sized.ok g3 fun k hk => ?_
    have hk' : k < (width + 15) / 16 * ((height + 15) / 16) := hk
    have a1 : c.modes[k]? = some (c.modes[k]'(by rw [e3.modes]; exact hk')) := List.getElem?_eq_getElem _
    have a2 : c.residues[k]? = some (c.residues[k]'(by rw [e3.residues]; exact hk')) := List.getElem?_eq_getElem _
    have := e3.sums k _ _ a1 a2
    show Sums o (c.modes[k]?.getD {}) (codeResidues _ (c.modes[k]?.getD {}) (c.residues[k]?.getD {})) _ _ _
    rw [a1, a2]
    exact this
  have hshown := t2 s hsc
  unfold renderKey at hshown
  rw [g1, hsame, Option.bind_eq_bind, Option.bind_some] at hshown
  refine ⟨f, t, ?_, hf, rfl, rfl, rfl, hs, rfl, rfl, rfl, rfl, t1, t2⟩
  unfold encodeKey
  rw [hq, Option.bind_eq_bind, Option.bind_some, e1, Option.bind_eq_bind, Option.bind_some]
  dsimp only
  rw [p1, Option.bind_eq_bind, Option.bind_some]
  rw [Option.bind_eq_bind]
  refine Option.bind_eq_some_iff.2 ⟨t, hshown, rfl⟩

/-! ### Inter frames -/

theorem interPass_ok {trials : Trials} {q : Quantizer} (hq : q.InRange) {choices : Nat → InterChoice} {width height : Nat}
    (hw : 0 < width ∧ width < 2 ^ 14) (hh : 0 < height ∧ height < 2 ^ 14)
    (hch : ∀ k cost, choices k = .new cost → (width + 15) / 16 ≤ 248 ∧ (height + 15) / 16 ≤ 248) (hT : trials.Confined width height) {o s : Raster}
    (ho : o.Ok width height) (hs : s.Ok width height) {references : References} (hrefs : references.Ok width height) {hd : InterFrameHeader}
    (h1 : hd.updateSegmentation = none) (h2 : hd.probSkipFalse.isSome = true) :
    ∃ c, interPass trials q choices references o width height s = some c ∧
      CodedUpTo width height ((width + 15) / 16) ((height + 15) / 16) q (reference references)
        (fun l j m => m.InterFrameOk hd (gridContext ((width + 15) / 16) ((height + 15) / 16) l j) ∧ m.yMode ≠ SPLITMV) ((width + 15) / 16 * ((height + 15) / 16)) c := by
  have href := hrefs.last.sized hw hh
  obtain ⟨rows, hrows, -⟩ := C35_padded href.y.full
  unfold interPass macroblockDimension
  rw [hrows, Option.bind_eq_bind, Option.bind_some]
  refine coded_loop (Inv := CodedUpTo width height ((width + 15) / 16) ((height + 15) / 16) q (reference references)
    (fun l j m => m.InterFrameOk hd (gridContext ((width + 15) / 16) ((height + 15) / 16) l j) ∧ m.yMode ≠ SPLITMV))
    (fun k s hk hs => interStep_ok hq (fun k => ?_) (hT.local hw hh) (ho.sized hw hh) href hrows h1 h2 hk hs)
    (empty_coded q _ _ (hs.sized hw hh))
  cases hc : choices k with
  | new cost => exact hch k cost hc
  | _ => trivial

/-- **C67** (inter frames): the same for every state of the encoder without segmentation, with references of its size. -/
theorem C67_inter {e : Encoder} (hw : 0 < e.state.width ∧ e.state.width < 2 ^ 14) (hh : 0 < e.state.height ∧ e.state.height < 2 ^ 14)
    (hseg : e.state.segmentation = none) (hrefs : e.references.Ok e.state.width e.state.height) {d : InterChoices} (hd : d.Ok e.state.width e.state.height)
    {h : InterFrameHeader} (hr : h.InRange) (hs : h.updateSegmentation = none) {i : QuantIndices} (hi : i.InRange) {o s : Raster}
    (ho : o.Ok e.state.width e.state.height) (hsc : s.Ok e.state.width e.state.height) :
    ∃ f shown, encodeInter d e h i o s = some (f, shown) ∧ InterFrameOk f ∧ f.width = e.state.width ∧ f.height = e.state.height ∧ f.show' = true ∧
      f.header.updateSegmentation = none ∧ f.header.quantIndices = i ∧ f.header.log2Partitions = h.log2Partitions ∧
      f.header.modeLfAdjustments = zeroAdjustments ∧ f.header.refreshEntropyProbs = true ∧ f.header.refreshLast = true ∧ (∀ m ∈ f.modes, m.yMode ≠ SPLITMV) ∧
      shown.Ok e.state.width e.state.height ∧ ∀ scratch : Raster, scratch.Ok e.state.width e.state.height →
        renderInter none (some {}) e.references { frame := f, segmentIds := f.modes.map fun _ => 0 } scratch = some shown := by
  have hq := C43_quantizer (by have := hi.yAcQi; omega) hi.differences
  have hqr := C43_range (by have := hi.yAcQi; omega) hi.differences hq
  obtain ⟨m1, m2⟩ := mbs_bound hw hh
  obtain ⟨c, e1, e2⟩ := interPass_ok (hd := { h with probSkipFalse := some 0 }) hqr hw hh hd.vectors hd.trials ho hsc hrefs hs rfl
  obtain ⟨v, v1⟩ := C44_total h.tokenProbUpdate e.state.tables.coeffProbs hd.counts
  have v2 := optimizeTables_range hr.tokenProbUpdate v1
  obtain ⟨p, p1, p2, -⟩ := C44_skip (r := c.residues) (fun e => by have := e2.residues; rw [e] at this; simp at this; omega) (by rw [e2.residues]; exact m2)
  obtain ⟨r, r1, r2, r3, r4⟩ := C44_references (old := (h.probInter, h.probReferencesLast, h.probReferencesGolden))
    ⟨hr.probInter, hr.probReferencesLast, hr.probReferencesGolden⟩ (l := codedReferences c.modes)
    (by unfold codedReferences; rw [List.length_map, e2.modes]; omega)
  let header : InterFrameHeader := { h with quantIndices := i, refreshEntropyProbs := true, refreshLast := true, tokenProbUpdate := v, probSkipFalse := some p,
                                            probInter := r.1, probReferencesLast := r.2.1, probReferencesGolden := r.2.2,
                                            modeLfAdjustments := zeroAdjustments, loopFilterLevel := d.level.val }
  let f : Frame InterFrameHeader := { show' := true, width := e.state.width, height := e.state.height, header, modes := c.modes, residues := c.residues }
  obtain ⟨c', e1', e3⟩ := interPass_ok (hd := header) hqr hw hh hd.vectors hd.trials ho hsc hrefs hs rfl
  rw [e1] at e1'
  cases e1'
  have hrange : header.InRange :=
    ⟨hr.filterType, hr.updateSegmentation, d.level.2, hr.sharpnessLevel, zeroAdjustments_range, hr.log2Partitions, hi, hr.copyGolden, hr.copyGoldenRange,
      hr.copyAlternate, hr.copyAlternateRange, v2, fun y hy => by cases hy; omega, r2, r3, r4, hr.intra16x16Prob, hr.intraChromaProb, hr.mvProbUpdate⟩
  have hf : InterFrameOk f := ⟨hrange, hw, hh, e3.modes, e3.residues.trans e3.modes.symm, fun k m hm => (e3.good k m hm).1, e3.residueOk⟩
  have hids : ∀ v ∈ f.modes.map fun _ => 0, v < 4 := fun v hv => by
    obtain ⟨_, _, rfl⟩ := List.mem_map.1 hv; decide
  obtain ⟨t, t1, t2⟩ := C63_inter_frame (f := { frame := f, segmentIds := f.modes.map fun _ => 0 }) hf (List.length_map ..) hids none (some {}) hrefs
  have hready := InterFrameOk.ready (f := { frame := f, segmentIds := f.modes.map fun _ => 0 }) hf (List.length_map ..) hids
  obtain ⟨s', g1, g2, g3⟩ := decodeInter_sums (f := { frame := f, segmentIds := f.modes.map fun _ => 0 }) hf hready (segmentation := none)
    (Q := fun _ => prescribed i.yAcQi i) (fun _ _ => hq) hrefs hsc
  have hsame : s' = c.raster := by
    refine frame_unique (f := { frame := f, segmentIds := f.modes.map fun _ => 0 }) hready g2 e3.sized.ok g3 fun k hk => ?_
    have hk' : k < (e.state.width + 15) / 16 * ((e.state.height + 15) / 16) := hk
    have a1 : c.modes[k]? = some (c.modes[k]'(by rw [e3.modes]; exact hk')) := List.getElem?_eq_getElem _
    have a2 : c.residues[k]? = some (c.residues[k]'(by rw [e3.residues]; exact hk')) := List.getElem?_eq_getElem _
    have := e3.sums k _ _ a1 a2
    show Sums (reference e.references (c.modes[k]?.getD {})) (c.modes[k]?.getD {}) (codeResidues _ (c.modes[k]?.getD {}) (c.residues[k]?.getD {})) _ _ _
    rw [a1, a2]
    exact this
  have hshown := t2 s hsc
  unfold renderInter at hshown
  rw [g1, hsame, Option.bind_eq_bind, Option.bind_some] at hshown
  refine ⟨f, t, ?_, hf, rfl, rfl, rfl, hs, rfl, rfl, rfl, rfl, rfl, fun m hm => ?_, t1, t2⟩
  rotate_left
  · obtain ⟨k, hk⟩ := List.mem_iff_getElem?.1 hm
    exact (e3.good k m hk).2
  unfold encodeInter
  rw [hq, Option.bind_eq_bind, Option.bind_some, e1, Option.bind_eq_bind, Option.bind_some, p1, Option.bind_eq_bind, Option.bind_some, r1,
    Option.bind_eq_bind, Option.bind_some, v1, Option.bind_eq_bind, Option.bind_some]
  dsimp only
  rw [Option.bind_eq_bind, hseg]
  exact Option.bind_eq_some_iff.2 ⟨t, hshown, rfl⟩

/-! ### Examples -/

/-- Trials that leave nothing behind. -/
def tidyTrials : Trials := ⟨fun _ s => s, fun _ s => s⟩

theorem tidyTrials_confined (w h : Nat) : tidyTrials.Confined w h :=
  ⟨fun _ _ hs => ⟨hs, hs⟩, fun _ _ _ => ⟨⟨fun _ _ _ => rfl, fun _ _ _ => ⟨rfl, rfl⟩⟩, ⟨fun _ _ _ => rfl, fun _ _ _ => ⟨rfl, rfl⟩⟩⟩⟩

/-- Trials that paint the first pixel of macroblock 0. -/
def untidyTrials : Trials :=
  let paint (k : Nat) (s : Raster) : Raster := if k = 0 then { s with y := { s.y with cells := s.y.cells.set 0 200 } } else s
  ⟨paint, paint⟩

theorem untidyTrials_confined (w h : Nat) : untidyTrials.Confined w h := by
  have size (k : Nat) (s : Raster) (hs : s.Ok w h) : (untidyTrials.early k s).Ok w h := by
    show Raster.Ok w h (if k = 0 then _ else s)
    split
    · exact ⟨hs.displayWidth, hs.displayHeight, hs.yWidth, hs.yHeight, hs.uWidth, hs.uHeight, hs.vWidth, hs.vHeight,
        (List.length_set ..).trans hs.y, hs.u, hs.v⟩
    · exact hs
  have place (k : Nat) (s : Raster) (hs : s.Ok w h) : OnlyMacroblock ((w + 15) / 16) k s (untidyTrials.early k s) := by
    show OnlyMacroblock _ k s (if k = 0 then _ else s)
    split
    · next hk =>
      subst hk
      refine ⟨fun x y hxy => ?_, fun _ _ _ => ⟨rfl, rfl⟩⟩
      rw [Nat.zero_mod, Nat.zero_div] at hxy
      unfold Plane.px
      dsimp only
      by_cases hx : x < s.y.width
      · rw [if_pos hx, if_pos hx, List.getD_eq_getElem?_getD, List.getD_eq_getElem?_getD, List.getElem?_set_ne]
        have : 0 < x ∨ 0 < y := by omega
        rcases this with h | h
        · omega
        · have : 0 < y * s.y.width := Nat.mul_pos h (by omega)
          omega
      · rw [if_neg hx, if_neg hx]
    · exact ⟨fun _ _ _ => rfl, fun _ _ _ => ⟨rfl, rfl⟩⟩
  exact ⟨fun k s hs => ⟨size k s hs, size k s hs⟩, fun k s hs => ⟨place k s hs, place k s hs⟩⟩

theorem uniformIndices_range {qi : Nat} (h : qi ≤ 127) : (uniformIndices qi).InRange where
  yAcQi := Nat.lt_succ_of_le h
  yDc := fun _ h => nomatch h
  y2Dc := fun _ h => nomatch h
  y2Ac := fun _ h => nomatch h
  uvDc := fun _ h => nomatch h
  uvAc := fun _ h => nomatch h

theorem emptyKeyHeader_range : emptyKeyHeader.InRange where
  colorSpace := rfl
  clampingType := rfl
  filterType := rfl
  updateSegmentation := fun _ h => nomatch h
  loopFilterLevel := by decide
  sharpnessLevel := by decide
  modeLfAdjustments := fun _ h => nomatch h
  log2Partitions := by decide
  quantIndices := uniformIndices_range (qi := 0) (by decide)
  tokenProbUpdate := fun _ _ _ _ _ h => nomatch h
  probSkipFalse := fun _ h => nomatch h

theorem emptyInterHeader_range : emptyInterHeader.InRange where
  filterType := rfl
  updateSegmentation := fun _ h => nomatch h
  loopFilterLevel := by decide
  sharpnessLevel := by decide
  modeLfAdjustments := fun _ h => nomatch h
  log2Partitions := by decide
  quantIndices := uniformIndices_range (qi := 0) (by decide)
  copyGolden := rfl
  copyGoldenRange := fun _ h => by cases h; decide
  copyAlternate := rfl
  copyAlternateRange := fun _ h => by cases h; decide
  tokenProbUpdate := fun _ _ _ _ _ h => nomatch h
  probSkipFalse := fun _ h => nomatch h
  probInter := by decide
  probReferencesLast := by decide
  probReferencesGolden := by decide
  intra16x16Prob := fun _ h => nomatch h
  intraChromaProb := fun _ h => nomatch h
  mvProbUpdate := fun _ _ _ h => nomatch h

/-- Choices for a key frame in two passes, with all kinds of modes. -/
def exampleKeyChoices : KeyChoices where
  trials := untidyTrials
  modes k := ⟨Fin.ofNat 5 k, Fin.ofNat 4 k, fun i => Fin.ofNat 10 (i.val + k)⟩
  counts := fun _ _ _ l => (3, l.val)
  second := some { trials := tidyTrials, costs := fun _ => { token := fun _ _ t => 300 * t.val, base := fun _ => 256, rate := 55, distortion := 100 }
                   contexts := fun _ _ => 1, modes := fun k => ⟨Fin.ofNat 5 (k + 4), 0, fun _ => 2⟩, counts := fun _ _ k _ => (k.val, 7) }
  level := 20

theorem exampleKeyChoices_ok (w h : Nat) : exampleKeyChoices.Ok w h :=
  ⟨untidyTrials_confined w h, fun _ _ _ l => by show 3 + l.val < 2 ^ 32; omega, fun e he => by
    cases he
    exact ⟨tidyTrials_confined w h, fun _ _ k _ => by show k.val + 7 < 2 ^ 32; omega, fun _ => Nat.le_refl 100⟩⟩

/-- Choices for an inter frame, with a search for a new vector in macroblock 4. -/
def exampleInterChoices : InterChoices where
  trials := untidyTrials
  modes k := if k = 0 then .zero else if k = 1 then .nearest else if k = 2 then .near else if k = 4 then .new fun mv _ => mv.x.natAbs
    else .intra ⟨Fin.ofNat 5 k, Fin.ofNat 4 k, fun i => Fin.ofNat 10 i.val⟩
  counts := fun _ _ _ l => (3, l.val)
  level := 5

theorem exampleInterChoices_ok {w h : Nat} (hw : (w + 15) / 16 ≤ 248) (hh : (h + 15) / 16 ≤ 248) : exampleInterChoices.Ok w h :=
  ⟨untidyTrials_confined w h, fun _ _ _ l => by show 3 + l.val < 2 ^ 32; omega, fun _ _ _ => ⟨hw, hh⟩⟩

/-- A picture of 40 by 30 pixels, in a key frame and, after that, in an inter frame. -/
example : (∃ f shown, encodeKey exampleKeyChoices emptyKeyHeader (uniformIndices 30) (grayRaster 40 30 77) 40 30 (grayRaster 40 30 0) = some (f, shown) ∧ KeyFrameOk f) ∧
    (∃ f shown, encodeInter exampleInterChoices ⟨{ width := 40, height := 30 }, ⟨grayRaster 40 30 9, grayRaster 40 30 8, grayRaster 40 30 7⟩⟩ emptyInterHeader
      (uniformIndices 30) (grayRaster 40 30 77) (grayRaster 40 30 0) = some (f, shown) ∧ InterFrameOk f) := by
  obtain ⟨f, shown, h1, h2, -⟩ := C67_key (width := 40) (height := 30) (by decide) (by decide) (exampleKeyChoices_ok 40 30) emptyKeyHeader_range rfl
    (uniformIndices_range (qi := 30) (by decide)) (grayRaster_ok 40 30 77) (grayRaster_ok 40 30 0)
  obtain ⟨g, shown', g1, g2, -⟩ := C67_inter (e := ⟨{ width := 40, height := 30 }, ⟨grayRaster 40 30 9, grayRaster 40 30 8, grayRaster 40 30 7⟩⟩)
    (by decide) (by decide) rfl ⟨grayRaster_ok .., grayRaster_ok .., grayRaster_ok ..⟩ (exampleInterChoices_ok (by decide) (by decide)) emptyInterHeader_range rfl
    (uniformIndices_range (qi := 30) (by decide)) (grayRaster_ok 40 30 77) (grayRaster_ok 40 30 0)
  exact ⟨⟨f, shown, h1, h2⟩, ⟨g, shown', g1, g2⟩⟩

end Alfalfa
