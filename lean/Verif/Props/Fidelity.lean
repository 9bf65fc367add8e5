import Verif.Proof.FidelityFrame
import Verif.Proof.FilterReach
import Verif.Props.Reencode

/-! C75: what is coded resembles what was given to be coded, pixel by pixel, as nearly as the steps of the quantizer allow: whatever the
modes, the vectors and the references are, and however badly they predict. -/

namespace Alfalfa

open RenderSpec QuantizerSpec FidelitySpec

/-! ### Passes -/

theorem keyPass_close {pass : Option SecondPass} (hpass : ∀ s, pass = some s → s.Fits) {trials : Trials} {q Q : Quantizer} (hQ : Coarse q pass Q) (hq : q.InRange)
    (choices : Nat → IntraChoice) (hkept : ∀ k, TypeKept pass k (choices k)) {width height : Nat} (hw : 0 < width ∧ width < 2 ^ 14) (hh : 0 < height ∧ height < 2 ^ 14) (hT : trials.Confined width height) {o s : Raster} (ho : o.Ok width height)
    (hs : s.Ok width height) {c : Coded} (hc : keyPass pass trials q choices o width height s = some c) : Resembles Q o c.raster := by
  have hd : ∃ hd : KeyFrameHeader, hd.updateSegmentation = none ∧ hd.probSkipFalse.isSome = true := ⟨{ emptyKeyHeader with probSkipFalse := some 0 }, rfl, rfl⟩
  obtain ⟨hd, h1, h2⟩ := hd
  obtain ⟨c', e1, -, e2⟩ := coded_loop (n := (width + 15) / 16 * ((height + 15) / 16))
    (Inv := fun k s => CodedUpTo width height ((width + 15) / 16) ((height + 15) / 16) q (fun _ => o) (fun _ _ m => m.KeyOk hd) k s ∧
      CloseUpTo Q o ((width + 15) / 16) k s.raster)
    (fun k s hk hs => by
      obtain ⟨t, t1, t2⟩ := keyStep_ok hpass hq choices (hT.local hw hh) (ho.sized hw hh) h1 h2 (fun _ => o) hk hs.1
      exact ⟨t, t1, t2, keyStep_close hpass hQ hq choices hkept (hT.local hw hh) hT.early (ho.sized hw hh) hk hs.1.sized t1 hs.2⟩)
    (s := { raster := s, modes := [], residues := [] })
    ⟨empty_coded q (fun _ => o) _ (hs.sized hw hh), fun j hj => absurd hj (Nat.not_lt_zero j)⟩
  have : some c = some c' := hc.symm.trans e1
  cases this
  exact e2.resembles (ho.sized hw hh)

theorem interPass_close {trials : Trials} {q : Quantizer} (hq : q.InRange) {choices : Nat → InterChoice} {width height : Nat}
    (hw : 0 < width ∧ width < 2 ^ 14) (hh : 0 < height ∧ height < 2 ^ 14)
    (hch : ∀ k cost, choices k = .new cost → (width + 15) / 16 ≤ 248 ∧ (height + 15) / 16 ≤ 248) (hT : trials.Confined width height) {o s : Raster}
    (ho : o.Ok width height) (hs : s.Ok width height) {references : References} (hrefs : references.Ok width height) {c : Coded}
    (hc : interPass trials q choices references o width height s = some c) : Resembles q o c.raster := by
  have hd : ∃ hd : InterFrameHeader, hd.updateSegmentation = none ∧ hd.probSkipFalse.isSome = true := ⟨{ emptyInterHeader with probSkipFalse := some 0 }, rfl, rfl⟩
  obtain ⟨hd, h1, h2⟩ := hd
  have href := hrefs.last.sized hw hh
  obtain ⟨rows, hrows, -⟩ := C35_padded href.y.full
  have fits (k : Nat) : (choices k).Fits ((width + 15) / 16) ((height + 15) / 16) := by
    cases hc : choices k with
    | new cost => exact hch k cost hc
    | _ => trivial
  obtain ⟨c', e1, -, e2⟩ := coded_loop (n := (width + 15) / 16 * ((height + 15) / 16))
    (Inv := fun k s => CodedUpTo width height ((width + 15) / 16) ((height + 15) / 16) q (reference references)
      (fun l j m => m.InterFrameOk hd (gridContext ((width + 15) / 16) ((height + 15) / 16) l j) ∧ m.yMode ≠ SPLITMV) k s ∧ CloseUpTo q o ((width + 15) / 16) k s.raster)
    (fun k s hk hs => by
      obtain ⟨t, t1, t2⟩ := interStep_ok hq fits (hT.local hw hh) (ho.sized hw hh) href hrows h1 h2 hk hs.1
      exact ⟨t, t1, t2, interStep_close hq fits (hT.local hw hh) hT.early (ho.sized hw hh) href hrows hd hk hs.1.sized t1 hs.2⟩)
    (s := { raster := s, modes := [], residues := [] })
    ⟨empty_coded q (reference references) _ (hs.sized hw hh), fun j hj => absurd hj (Nat.not_lt_zero j)⟩
  unfold interPass macroblockDimension at hc
  rw [hrows, Option.bind_eq_bind, Option.bind_some] at hc
  have : some c = some c' := hc.symm.trans e1
  cases this
  exact e2.resembles (ho.sized hw hh)

theorem reference_sized {references : References} {width height : Nat} (hw : 0 < width ∧ width < 2 ^ 14) (hh : 0 < height ∧ height < 2 ^ 14)
    (hrefs : references.Ok width height) (m : MBModes) : (reference references m).Sized width height ((width + 15) / 16) ((height + 15) / 16) := by
  unfold reference
  split
  · split
    · exact hrefs.alternative.sized hw hh
    · exact hrefs.golden.sized hw hh
  · exact hrefs.last.sized hw hh

theorem updatePass_close {trials : Trials} {q : Quantizer} (hq : q.InRange) {width height : Nat} (hw : 0 < width ∧ width < 2 ^ 14)
    (hh : 0 < height ∧ height < 2 ^ 14) (hT : trials.Confined width height) {o s : Raster} (ho : o.Ok width height) (hs : s.Ok width height)
    {references : References} (hrefs : references.Ok width height) {hd : InterFrameHeader} {old : List MBModes}
    (hlen : old.length = (width + 15) / 16 * ((height + 15) / 16))
    (hold : ∀ (k : Nat) (m : MBModes), old[k]? = some m → m.InterFrameOk hd (gridContext ((width + 15) / 16) ((height + 15) / 16) old k) ∧ m.segmentIdUpdate = none)
    {c : Coded} (hc : updatePass trials.late q references old o width height s = some c) : Resembles q o c.raster := by
  have href := reference_sized hw hh hrefs
  obtain ⟨c', e1, -, e2⟩ := coded_loop (n := (width + 15) / 16 * ((height + 15) / 16))
    (Inv := fun k s => CodedUpTo width height ((width + 15) / 16) ((height + 15) / 16) q (reference references) (Kept old) k s ∧
      CloseUpTo q o ((width + 15) / 16) k s.raster)
    (fun k s hk hs => by
      obtain ⟨t, t1, t2⟩ := updateStep_ok hq (hT.local hw hh) (ho.sized hw hh) href hlen hold hk hs.1
      exact ⟨t, t1, t2, updateStep_close hq (hT.local hw hh) (ho.sized hw hh) href hlen hold hk hs.1.sized t1 hs.2⟩)
    (s := { raster := s, modes := [], residues := [] })
    ⟨empty_coded q (reference references) _ (hs.sized hw hh), fun j hj => absurd hj (Nat.not_lt_zero j)⟩
  have : some c = some c' := hc.symm.trans e1
  cases this
  exact e2.resembles (ho.sized hw hh)

/-! ### What is coded is what is decoded -/

theorem decodeKey_coded {f : Frame KeyFrameHeader} (hf : KeyFrameOk f) (hq : quantizer f.header.quantIndices = some q) {o : Raster} {P : List MBModes → Nat → MBModes → Prop}
    {c : Coded} (hm : f.modes = c.modes) (hr : f.residues = c.residues)
    (hc : CodedUpTo f.width f.height ((f.width + 15) / 16) ((f.height + 15) / 16) q (fun _ => o) P ((f.width + 15) / 16 * ((f.height + 15) / 16)) c)
    {s : Raster} (hs : s.Ok f.width f.height) : decodeKeyFrame none { frame := f, segmentIds := f.modes.map fun _ => 0 } s = some c.raster := by
  have hids : ∀ v ∈ f.modes.map fun _ => 0, v < 4 := fun v hv => by
    obtain ⟨_, _, rfl⟩ := List.mem_map.1 hv; decide
  have hready := KeyFrameOk.ready (f := { frame := f, segmentIds := f.modes.map fun _ => 0 }) hf (List.length_map ..) hids
  obtain ⟨s', g1, g2, g3⟩ := decodeKey_sums (f := { frame := f, segmentIds := f.modes.map fun _ => 0 }) hf hready (segmentation := none)
    (Q := fun _ => q) (fun _ _ => hq) (fun _ => o) hs
  rw [g1]
  refine congrArg some (frame_unique (f := { frame := f, segmentIds := f.modes.map fun _ => 0 }) hready g2 hc.sized.ok g3 fun k hk => ?_)
  have hk' : k < (f.width + 15) / 16 * ((f.height + 15) / 16) := hk
  have a1 : c.modes[k]? = some (c.modes[k]'(by rw [hc.modes]; exact hk')) := List.getElem?_eq_getElem _
  have a2 : c.residues[k]? = some (c.residues[k]'(by rw [hc.residues]; exact hk')) := List.getElem?_eq_getElem _
  have := hc.sums k _ _ a1 a2
  show Sums o (f.modes[k]?.getD {}) (codeResidues _ (f.modes[k]?.getD {}) (f.residues[k]?.getD {})) _ _ _
  rw [hm, hr, a1, a2]
  exact this

theorem decodeInter_coded {f : Frame InterFrameHeader} (hf : InterFrameOk f) (hq : quantizer f.header.quantIndices = some q) {references : References}
    (hrefs : references.Ok f.width f.height) {P : List MBModes → Nat → MBModes → Prop} {c : Coded} (hm : f.modes = c.modes) (hr : f.residues = c.residues)
    (hc : CodedUpTo f.width f.height ((f.width + 15) / 16) ((f.height + 15) / 16) q (reference references) P ((f.width + 15) / 16 * ((f.height + 15) / 16)) c)
    {s : Raster} (hs : s.Ok f.width f.height) :
    decodeInterFrame none references { frame := f, segmentIds := f.modes.map fun _ => 0 } s = some c.raster := by
  have hids : ∀ v ∈ f.modes.map fun _ => 0, v < 4 := fun v hv => by
    obtain ⟨_, _, rfl⟩ := List.mem_map.1 hv; decide
  have hready := InterFrameOk.ready (f := { frame := f, segmentIds := f.modes.map fun _ => 0 }) hf (List.length_map ..) hids
  obtain ⟨s', g1, g2, g3⟩ := decodeInter_sums (f := { frame := f, segmentIds := f.modes.map fun _ => 0 }) hf hready (segmentation := none)
    (Q := fun _ => q) (fun _ _ => hq) hrefs hs
  rw [g1]
  refine congrArg some (frame_unique (f := { frame := f, segmentIds := f.modes.map fun _ => 0 }) hready g2 hc.sized.ok g3 fun k hk => ?_)
  have hk' : k < (f.width + 15) / 16 * ((f.height + 15) / 16) := hk
  have a1 : c.modes[k]? = some (c.modes[k]'(by rw [hc.modes]; exact hk')) := List.getElem?_eq_getElem _
  have a2 : c.residues[k]? = some (c.residues[k]'(by rw [hc.residues]; exact hk')) := List.getElem?_eq_getElem _
  have := hc.sums k _ _ a1 a2
  show Sums (reference references (f.modes[k]?.getD {})) (f.modes[k]?.getD {}) (codeResidues _ (f.modes[k]?.getD {}) (f.residues[k]?.getD {})) _ _ _
  rw [hm, hr, a1, a2]
  exact this

/-! ### The theorems -/

theorem keyPasses_close {d : KeyChoices} {q : Quantizer} (hq : q.InRange) {width height : Nat} (hw : 0 < width ∧ width < 2 ^ 14)
    (hh : 0 < height ∧ height < 2 ^ 14) (hd : d.Ok width height) (hkept : d.TypesKept) {u v : TokenProbUpdate} {o s : Raster} (ho : o.Ok width height)
    (hs : s.Ok width height) {c : Coded} (h : keyPasses d q u o width height s = some (c, v)) : Resembles (effective d.second.isSome q) o c.raster := by
  unfold keyPasses at h
  obtain ⟨c1, g1, h⟩ := Option.bind_eq_some_iff.1 h
  obtain ⟨v1, g2, h⟩ := Option.bind_eq_some_iff.1 h
  cases h2 : d.second with
  | none =>
    rw [h2] at h
    cases h
    exact keyPass_close (pass := none) (fun _ h => nomatch h) rfl hq d.modes (fun k => .first _ _) hw hh hd.trials ho hs g1
  | some e =>
    rw [h2] at h
    obtain ⟨c2, g3, h⟩ := Option.bind_eq_some_iff.1 h
    obtain ⟨v2, g4, h⟩ := Option.bind_eq_some_iff.1 h
    cases h
    obtain ⟨c1', k1, k2⟩ := keyPass_ok (pass := none) (fun _ h => nomatch h) hq d.modes hw hh hd.trials ho hs (hd := { emptyKeyHeader with probSkipFalse := some 0 }) rfl rfl (fun _ => o)
    rw [g1] at k1
    cases k1
    exact keyPass_close (pass := some { costs := e.costs, contexts := e.contexts, staleType := fun k => if (d.modes k).yMode.val = B_PRED then .yWithoutY2 else .yAfterY2 })
      (fun s' hs' => by cases hs'; exact (hd.second e h2).costs) rfl hq e.modes (typeKept_second hkept h2) hw hh (hd.second e h2).trials ho k2.sized.ok g3

/-- **C75** (key frames): for every original and all choices, with the quantizer that the indices prescribe, what the decoder makes of
the frame before its loop filter resembles the original; the filter then makes of it the picture that is shown.  If there is a second pass it
may lose as much as if the steps were twice as wide, and macroblocks that only it predicts in sixteen blocks are left out (see C70). -/
theorem C75_key {width height : Nat} (hw : 0 < width ∧ width < 2 ^ 14) (hh : 0 < height ∧ height < 2 ^ 14) {d : KeyChoices} (hd : d.Ok width height)
    (hkept : d.TypesKept) {h : KeyFrameHeader} (hr : h.InRange) (hs : h.updateSegmentation = none) {i : QuantIndices} (hi : i.InRange) {o s : Raster}
    (ho : o.Ok width height) (hsc : s.Ok width height) :
    ∃ f shown picture, encodeKey d h i o width height s = some (f, shown) ∧
      (∀ scratch : Raster, scratch.Ok width height → decodeKeyFrame none { frame := f, segmentIds := f.modes.map fun _ => 0 } scratch = some picture) ∧
      loopfilterFrame true f.header.filterType d.level.val f.header.sharpnessLevel none (some {}) { frame := f, segmentIds := f.modes.map fun _ => 0 } picture
        = some shown ∧
      Resembles (effective d.second.isSome (prescribed i.yAcQi i)) o picture := by
  have hq := C43_quantizer (by have := hi.yAcQi; omega) hi.differences
  have hqr := C43_range (by have := hi.yAcQi; omega) hi.differences hq
  obtain ⟨f, shown, h1, h2, h3, h4, h5, h6, h7, -⟩ := C67_key hw hh hd hr hs hi ho hsc
  have h1' := h1
  unfold encodeKey at h1
  rw [hq, Option.bind_eq_bind, Option.bind_some] at h1
  obtain ⟨⟨c, v⟩, e1, h1⟩ := Option.bind_eq_some_iff.1 h1
  dsimp only at h1
  obtain ⟨p, e2, h1⟩ := Option.bind_eq_some_iff.1 h1
  obtain ⟨r, e3, h1⟩ := Option.bind_eq_some_iff.1 h1
  cases h1
  obtain ⟨c', v', k1, -, k2⟩ := keyPasses_ok hqr hw hh hd hr.tokenProbUpdate ho hsc (h := { h with probSkipFalse := some 0 }) hs rfl (fun _ => o)
  rw [e1] at k1
  cases k1
  exact ⟨_, _, c.raster, h1', fun scratch hscr => decodeKey_coded h2 hq rfl rfl k2 hscr, e3, keyPasses_close hqr hw hh hd hkept ho hsc e1⟩

/-- **C75** (inter frames): the same, whatever the references show. -/
theorem C75_inter {e : Encoder} (hw : 0 < e.state.width ∧ e.state.width < 2 ^ 14) (hh : 0 < e.state.height ∧ e.state.height < 2 ^ 14)
    (hseg : e.state.segmentation = none) (hrefs : e.references.Ok e.state.width e.state.height) {d : InterChoices} (hd : d.Ok e.state.width e.state.height)
    {h : InterFrameHeader} (hr : h.InRange) (hs : h.updateSegmentation = none) {i : QuantIndices} (hi : i.InRange) {o s : Raster}
    (ho : o.Ok e.state.width e.state.height) (hsc : s.Ok e.state.width e.state.height) :
    ∃ f shown picture, encodeInter d e h i o s = some (f, shown) ∧
      (∀ scratch : Raster, scratch.Ok e.state.width e.state.height →
        decodeInterFrame none e.references { frame := f, segmentIds := f.modes.map fun _ => 0 } scratch = some picture) ∧
      loopfilterFrame false f.header.filterType d.level.val f.header.sharpnessLevel none (some {}) { frame := f, segmentIds := f.modes.map fun _ => 0 } picture
        = some shown ∧
      Resembles (prescribed i.yAcQi i) o picture := by
  have hq := C43_quantizer (by have := hi.yAcQi; omega) hi.differences
  have hqr := C43_range (by have := hi.yAcQi; omega) hi.differences hq
  obtain ⟨f, shown, h1, h2, -⟩ := C67_inter hw hh hseg hrefs hd hr hs hi ho hsc
  have h1' := h1
  unfold encodeInter at h1
  rw [hq, Option.bind_eq_bind, Option.bind_some] at h1
  obtain ⟨c, e1, h1⟩ := Option.bind_eq_some_iff.1 h1
  obtain ⟨p, e2, h1⟩ := Option.bind_eq_some_iff.1 h1
  obtain ⟨r, e3, h1⟩ := Option.bind_eq_some_iff.1 h1
  obtain ⟨v, e4, h1⟩ := Option.bind_eq_some_iff.1 h1
  dsimp only at h1
  obtain ⟨t, e5, h1⟩ := Option.bind_eq_some_iff.1 h1
  cases h1
  rw [hseg] at e5
  obtain ⟨c', k1, k2⟩ := interPass_ok (hd := { h with probSkipFalse := some 0 }) hqr hw hh hd.vectors hd.trials ho hsc hrefs hs rfl
  rw [e1] at k1
  cases k1
  exact ⟨_, _, c.raster, h1', fun scratch hscr => decodeInter_coded h2 hq hrefs rfl rfl k2 hscr, e5, interPass_close hqr hw hh hd.vectors hd.trials ho hsc hrefs e1⟩

/-- **C75** (re-encoding): a frame whose residues are made anew for another original, against other references and with another quantizer: its
modes and vectors are those chosen for the old original, and yet what is decoded resembles the new one as nearly. -/
theorem C75_reencoded {e : Encoder} (hw : 0 < e.state.width ∧ e.state.width < 2 ^ 14) (hh : 0 < e.state.height ∧ e.state.height < 2 ^ 14)
    (hrefs : e.references.Ok e.state.width e.state.height) {w : ReencodeWork} (hd : w.Ok e.state.width e.state.height)
    {old : Frame InterFrameHeader} (hf : InterFrameOk old) (fw : old.width = e.state.width) (fh : old.height = e.state.height)
    (hs : old.header.updateSegmentation = none) {i : QuantIndices} (hi : i.InRange) {o : Raster} (ho : o.Ok e.state.width e.state.height) (last : Bool) :
    ∃ f picture, updateResidues w e o old i last = some (f, picture) ∧
      (∀ scratch : Raster, scratch.Ok e.state.width e.state.height →
        decodeInterFrame none e.references { frame := f, segmentIds := f.modes.map fun _ => 0 } scratch = some picture) ∧
      Resembles (prescribed i.yAcQi i) o picture := by
  have hq := C43_quantizer (by have := hi.yAcQi; omega) hi.differences
  have hqr := C43_range (by have := hi.yAcQi; omega) hi.differences hq
  obtain ⟨f, picture, h1, h2, -⟩ := updateResidues_ok hw hh hrefs hd hf fw fh hs hi ho last
  have h1' := h1
  have hold : ∀ (k : Nat) (m : MBModes), old.modes[k]? = some m →
      m.InterFrameOk old.header (gridContext ((e.state.width + 15) / 16) ((e.state.height + 15) / 16) old.modes k) ∧ m.segmentIdUpdate = none := fun k m hm => by
    have h := hf.modes k m hm
    rw [fw, fh] at h
    refine ⟨h, ?_⟩
    have h1 := h.pre.segmentPresent
    rw [hs] at h1
    cases hsi : m.segmentIdUpdate with
    | none => rfl
    | some v => rw [hsi] at h1; simp at h1
  have hlen : old.modes.length = (e.state.width + 15) / 16 * ((e.state.height + 15) / 16) := by rw [hf.count, fw, fh]
  unfold updateResidues at h1
  dsimp only at h1
  rw [hq, Option.bind_eq_bind, Option.bind_some] at h1
  obtain ⟨c, e1, h1⟩ := Option.bind_eq_some_iff.1 h1
  obtain ⟨p, e2, h1⟩ := Option.bind_eq_some_iff.1 h1
  obtain ⟨l, e3, h1⟩ := Option.bind_eq_some_iff.1 h1
  obtain ⟨r, e4, h1⟩ := Option.bind_eq_some_iff.1 h1
  obtain ⟨v, e5, h1⟩ := Option.bind_eq_some_iff.1 h1
  cases h1
  obtain ⟨c', k1, k2⟩ := updatePass_ok (trials := w.inter.trials) hqr hw hh hd.inter.trials ho hd.scratch hrefs hlen hold
  rw [e1] at k1
  cases k1
  exact ⟨_, _, h1', fun scratch hscr => decodeInter_coded h2 hq hrefs rfl rfl k2 hscr, updatePass_close hqr hw hh hd.inter.trials ho hd.scratch hrefs hlen hold e1⟩

/-! ### C76: the loop filter -/

theorem NearBy.trans {a b c d : Nat} {o s t : Raster} (ho : s.y.width = o.y.width ∧ s.y.height = o.y.height ∧ s.u.width = o.u.width ∧ s.u.height = o.u.height ∧
    s.v.width = o.v.width ∧ s.v.height = o.v.height) (h1 : NearBy a b o s) (h2 : NearBy c d s t) : NearBy (a + c) (b + d) o t where
  y u v hu hv := by
    have := h1.y u v hu hv
    have := h2.y u v (by omega) (by omega)
    have := apart_trans (t.y.px u v) (s.y.px u v) (o.y.px u v)
    omega
  u u v hu hv := by
    have := h1.u u v hu hv
    have := h2.u u v (by omega) (by omega)
    have := apart_trans (t.u.px u v) (s.u.px u v) (o.u.px u v)
    omega
  v u v hu hv := by
    have := h1.v u v hu hv
    have := h2.v u v (by omega) (by omega)
    have := apart_trans (t.v.px u v) (s.v.px u v) (o.v.px u v)
    omega

/-- **C76**: for every frame, picture, segmentation and all adjustments, if no macroblock is filtered at a level above `L` then the loop filter
succeeds and moves no pixel by more than `reach L`, although each macroblock is filtered after its neighbours and on top of what they left. -/
theorem C76_filter_reach {H : Type} {f : ParsedFrame H} (hf : Ready f) (href : ∀ (k : Nat) m, f.frame.modes[k]? = some m → m.reference = some (referenceIndex m))
    (keyFrame : Bool) {level sharpness : Nat} (hsh : sharpness ≤ 7) (segmentation : Option Segmentation) (adjustments : Option FilterAdjustments) {L : Nat}
    (hL : ∀ (k : Nat) m id, f.frame.modes[k]? = some m → f.segmentIds[k]? = some id → baseLevel segmentation level id + adjustment adjustments m ≤ L)
    {s : Raster} (hs : s.Ok f.frame.width f.frame.height) :
    ∃ t, loopfilterFrame keyFrame false level sharpness segmentation adjustments f s = some t ∧ NearBy (reach L) (reach L) s t := by
  obtain ⟨t, h1, h2, h3, h4⟩ := C39_frame hf href keyFrame (level := level) hsh segmentation adjustments hs
  refine ⟨t, h1, ?_⟩
  by_cases h0 : level = 0
  · rw [h3 h0]
    exact ⟨fun _ _ _ _ => by rw [apart_self]; exact Nat.zero_le _, fun _ _ _ _ => by rw [apart_self]; exact Nat.zero_le _,
      fun _ _ _ _ => by rw [apart_self]; exact Nat.zero_le _⟩
  · have sh := h4 h0
    have hu : ∀ (k : Nat) m id, f.frame.modes[k]? = some m → f.segmentIds[k]? = some id → usedLevel segmentation adjustments level m id ≤ L := fun k m id e1 e2 => by
      have := hL k m id e1 e2
      unfold usedLevel LoopFilterSpec.limit63
      omega
    have m16 := fun img => filtered_moves (n := 16) (.inr rfl) keyFrame sharpness hu img
    have m8 := fun img => filtered_moves (n := 8) (.inl rfl) keyFrame sharpness hu img
    exact ⟨fun u v _ _ => by rw [sh.y.px]; exact m16 s.y.px u v, fun u v _ _ => by rw [sh.u.px]; exact m8 s.u.px u v,
      fun u v _ _ => by rw [sh.v.px]; exact m8 s.v.px u v⟩

/-- **C76** (in figures): nothing at level 0, at most 6 at level 1, and never more than 54. -/
theorem C76_figures : reach 0 = 0 ∧ reach 1 = 6 ∧ reach 5 = 16 ∧ ∀ L, reach L ≤ 54 := by
  refine ⟨by decide, by decide, by decide, fun L => ?_⟩
  unfold reach swing
  split <;> omega

/-- **C76** (without conditions): no filter, whatever the levels, moves a pixel by more than 54. -/
theorem C76_always {H : Type} {f : ParsedFrame H} (hf : Ready f) (href : ∀ (k : Nat) m, f.frame.modes[k]? = some m → m.reference = some (referenceIndex m))
    (keyFrame : Bool) {level sharpness : Nat} (hsh : sharpness ≤ 7) (segmentation : Option Segmentation) (adjustments : Option FilterAdjustments)
    {s : Raster} (hs : s.Ok f.frame.width f.frame.height) :
    ∃ t, loopfilterFrame keyFrame false level sharpness segmentation adjustments f s = some t ∧ NearBy 54 54 s t := by
  obtain ⟨t, h1, h2, h3, h4⟩ := C39_frame hf href keyFrame (level := level) hsh segmentation adjustments hs
  refine ⟨t, h1, ?_⟩
  by_cases h0 : level = 0
  · rw [h3 h0]
    exact ⟨fun _ _ _ _ => by rw [apart_self]; exact Nat.zero_le _, fun _ _ _ _ => by rw [apart_self]; exact Nat.zero_le _,
      fun _ _ _ _ => by rw [apart_self]; exact Nat.zero_le _⟩
  · have sh := h4 h0
    have hu : ∀ (k : Nat) m id, f.frame.modes[k]? = some m → f.segmentIds[k]? = some id → usedLevel segmentation adjustments level m id ≤ 63 := fun k m id _ _ =>
      limit63_le _
    have m16 := fun img => filtered_moves (n := 16) (.inr rfl) keyFrame sharpness hu img
    have m8 := fun img => filtered_moves (n := 8) (.inl rfl) keyFrame sharpness hu img
    exact ⟨fun u v _ _ => by rw [sh.y.px]; exact m16 s.y.px u v, fun u v _ _ => by rw [sh.u.px]; exact m8 s.u.px u v,
      fun u v _ _ => by rw [sh.v.px]; exact m8 s.v.px u v⟩

/-- Half of this is moved across one edge: the step from 0 to 77 is flattened by 27 on both sides. -/
example : LoopFilterSpec.macroblock 63 193 2 ![0, 0, 0, 0, 77, 77, 77, 77] = ![0, 9, 18, 27, 50, 59, 68, 77] := by decide

/-- What the encoder uses: one level for the whole frame. -/
theorem plain_level {H : Type} (f : ParsedFrame H) (level : Nat) : ∀ (k : Nat) (m : MBModes) (id : Nat), f.frame.modes[k]? = some m → f.segmentIds[k]? = some id →
    baseLevel none level id + adjustment (some {}) m ≤ level := fun k m id _ _ => by
  show (level : Int) + ((0 : Int) + _) ≤ level
  have : (if referenceIndex m = 0 then (if m.yMode = B_PRED then (0 : Int) else 0) else if m.yMode = ZEROMV then 0 else if m.yMode = SPLITMV then 0 else 0) = 0 := by
    split <;> split <;> first | rfl | (split <;> rfl)
  have e := this
  change _ + (0 + (if referenceIndex m = 0 then (if m.yMode = B_PRED then (0 : Int) else 0) else if m.yMode = ZEROMV then 0 else if m.yMode = SPLITMV then 0 else 0)) ≤ _
  omega

theorem sizes_eq {o s : Raster} {width height : Nat} (ho : o.Ok width height) (hs : s.Ok width height) : s.y.width = o.y.width ∧ s.y.height = o.y.height ∧
    s.u.width = o.u.width ∧ s.u.height = o.u.height ∧ s.v.width = o.v.width ∧ s.v.height = o.v.height :=
  ⟨hs.yWidth.trans ho.yWidth.symm, hs.yHeight.trans ho.yHeight.symm, hs.uWidth.trans ho.uWidth.symm, hs.uHeight.trans ho.uHeight.symm,
    hs.vWidth.trans ho.vWidth.symm, hs.vHeight.trans ho.vHeight.symm⟩

theorem C76_encoder {H : Type} {f : ParsedFrame H} (hf : Ready f) (href : ∀ (k : Nat) m, f.frame.modes[k]? = some m → m.reference = some (referenceIndex m))
    (keyFrame : Bool) {level sharpness : Nat} (hsh : sharpness ≤ 7) {s t : Raster} (hs : s.Ok f.frame.width f.frame.height)
    (ht : loopfilterFrame keyFrame false level sharpness none (some {}) f s = some t) : NearBy (reach level) (reach level) s t := by
  obtain ⟨t', h1, h2⟩ := C76_filter_reach hf href keyFrame hsh none (some {}) (plain_level f level) hs
  rw [ht] at h1
  cases h1
  exact h2

/-- **C75** with **C76** (key frames): what is shown, by the encoder and by every decoder, is near the original for any loop filter. -/
theorem C75_key_shown {width height : Nat} (hw : 0 < width ∧ width < 2 ^ 14) (hh : 0 < height ∧ height < 2 ^ 14) {d : KeyChoices} (hd : d.Ok width height)
    (hkept : d.TypesKept) {h : KeyFrameHeader} (hr : h.InRange) (hs : h.updateSegmentation = none) {i : QuantIndices} (hi : i.InRange) {o s : Raster}
    (ho : o.Ok width height) (hsc : s.Ok width height) :
    ∃ f shown, encodeKey d h i o width height s = some (f, shown) ∧
      (∀ scratch : Raster, scratch.Ok width height → renderKey none (some {}) { frame := f, segmentIds := f.modes.map fun _ => 0 } scratch = some shown) ∧
      NearBy (luma (effective d.second.isSome (prescribed i.yAcQi i)) + reach d.level) (chroma (effective d.second.isSome (prescribed i.yAcQi i)) + reach d.level)
        o shown := by
  obtain ⟨f, shown, picture, h1, h2, h3, h4⟩ := C75_key hw hh hd hkept hr hs hi ho hsc
  obtain ⟨f', shown', g1, g2, g3, g4, -, -, -, -, -, -, -, g5⟩ := C67_key hw hh hd hr hs hi ho hsc
  rw [h1] at g1
  cases g1
  have hids : ∀ v ∈ f.modes.map fun _ => 0, v < 4 := fun v hv => by
    obtain ⟨_, _, rfl⟩ := List.mem_map.1 hv; decide
  have hready := KeyFrameOk.ready (f := { frame := f, segmentIds := f.modes.map fun _ => 0 }) g2 (List.length_map ..) hids
  obtain ⟨Q, hQ⟩ := quantizers_exist g2.header.quantIndices none
  obtain ⟨s', e1, e2, -⟩ := decodeKey_sums (f := { frame := f, segmentIds := f.modes.map fun _ => 0 }) g2 hready hQ (fun _ => o) (s := s)
    (by show s.Ok f.width f.height; rw [g3, g4]; exact hsc)
  have : some picture = some s' := (h2 s hsc).symm.trans e1
  cases this
  refine ⟨f, shown, h1, g5, NearBy.trans (sizes_eq ho (by have h : picture.Ok f.width f.height := e2; rw [g3, g4] at h; exact h)) h4 ?_⟩
  rw [g2.header.filterType] at h3
  exact C76_encoder hready (fun k m hm => key_reference (g2.modes k m hm)) true (Nat.le_of_lt_succ g2.header.sharpnessLevel) e2 h3

/-- **C75** with **C76** (inter frames). -/
theorem C75_inter_shown {e : Encoder} (hw : 0 < e.state.width ∧ e.state.width < 2 ^ 14) (hh : 0 < e.state.height ∧ e.state.height < 2 ^ 14)
    (hseg : e.state.segmentation = none) (hrefs : e.references.Ok e.state.width e.state.height) {d : InterChoices} (hd : d.Ok e.state.width e.state.height)
    {h : InterFrameHeader} (hr : h.InRange) (hs : h.updateSegmentation = none) {i : QuantIndices} (hi : i.InRange) {o s : Raster}
    (ho : o.Ok e.state.width e.state.height) (hsc : s.Ok e.state.width e.state.height) :
    ∃ f shown, encodeInter d e h i o s = some (f, shown) ∧
      (∀ scratch : Raster, scratch.Ok e.state.width e.state.height →
        renderInter none (some {}) e.references { frame := f, segmentIds := f.modes.map fun _ => 0 } scratch = some shown) ∧
      NearBy (luma (prescribed i.yAcQi i) + reach d.level) (chroma (prescribed i.yAcQi i) + reach d.level) o shown := by
  obtain ⟨f, shown, picture, h1, h2, h3, h4⟩ := C75_inter hw hh hseg hrefs hd hr hs hi ho hsc
  obtain ⟨f', shown', g1, g2, g3, g4, -, -, -, -, -, -, -, -, -, g5⟩ := C67_inter hw hh hseg hrefs hd hr hs hi ho hsc
  rw [h1] at g1
  cases g1
  have hids : ∀ v ∈ f.modes.map fun _ => 0, v < 4 := fun v hv => by
    obtain ⟨_, _, rfl⟩ := List.mem_map.1 hv; decide
  have hready := InterFrameOk.ready (f := { frame := f, segmentIds := f.modes.map fun _ => 0 }) g2 (List.length_map ..) hids
  obtain ⟨Q, hQ⟩ := quantizers_exist g2.header.quantIndices none
  obtain ⟨s', e1, e2, -⟩ := decodeInter_sums (f := { frame := f, segmentIds := f.modes.map fun _ => 0 }) g2 hready hQ (refs := e.references)
    (by show e.references.Ok f.width f.height; rw [g3, g4]; exact hrefs) (s := s) (by show s.Ok f.width f.height; rw [g3, g4]; exact hsc)
  have : some picture = some s' := (h2 s hsc).symm.trans e1
  cases this
  refine ⟨f, shown, h1, g5, NearBy.trans (sizes_eq ho (by have h : picture.Ok f.width f.height := e2; rw [g3, g4] at h; exact h)) h4 ?_⟩
  rw [g2.header.filterType] at h3
  exact C76_encoder hready (fun k m hm => inter_reference (g2.modes k m hm)) false (Nat.le_of_lt_succ g2.header.sharpnessLevel) e2 h3

/-! ### Figures and examples -/

/-- **C75** (in figures): with the finest quantizer a pixel is off by at most 10 (luma) and 8 (chroma); with index 20 by 52 and 45; from index 84 on the
bound for luma says nothing any more, as it exceeds the range of a pixel. -/
theorem C75_figures : (luma (prescribed 0 (uniformIndices 0)), chroma (prescribed 0 (uniformIndices 0))) = (10, 8) ∧
    (luma (prescribed 20 (uniformIndices 20)), chroma (prescribed 20 (uniformIndices 20))) = (52, 45) ∧
    (∀ i : Fin 128, luma (prescribed i.val (uniformIndices i.val)) < 255 ↔ i.val < 84) := by decide +kernel

/-- The hypotheses are met: a key frame without a second pass, at level 20 of the loop filter. -/
example : ∃ f shown, encodeKey { exampleKeyChoices with second := none } emptyKeyHeader (uniformIndices 20) (grayRaster 40 30 77) 40 30 (grayRaster 40 30 0)
    = some (f, shown) ∧ NearBy (52 + 54) (45 + 54) (grayRaster 40 30 77) shown := by
  have hok : KeyChoices.Ok 40 30 { exampleKeyChoices with second := none } :=
    ⟨(exampleKeyChoices_ok 40 30).trials, (exampleKeyChoices_ok 40 30).counts, fun _ h => (nomatch h)⟩
  obtain ⟨f, shown, h1, -, h2⟩ := C75_key_shown (width := 40) (height := 30) (by decide) (by decide) hok (fun _ h => nomatch h) emptyKeyHeader_range rfl
    (uniformIndices_range (by decide : 20 ≤ 127)) (grayRaster_ok 40 30 77) (grayRaster_ok 40 30 0)
  exact ⟨f, shown, h1, h2⟩

/-- An inter frame after pictures of another gray, at level 5. -/
example : ∃ f shown, encodeInter exampleInterChoices ⟨{ width := 40, height := 30 }, ⟨grayRaster 40 30 9, grayRaster 40 30 8, grayRaster 40 30 7⟩⟩ emptyInterHeader
    (uniformIndices 0) (grayRaster 40 30 77) (grayRaster 40 30 0) = some (f, shown) ∧ NearBy (10 + 16) (8 + 16) (grayRaster 40 30 77) shown := by
  obtain ⟨f, shown, h1, -, h2⟩ := C75_inter_shown (e := ⟨{ width := 40, height := 30 }, ⟨grayRaster 40 30 9, grayRaster 40 30 8, grayRaster 40 30 7⟩⟩)
    (by decide) (by decide) rfl ⟨grayRaster_ok .., grayRaster_ok .., grayRaster_ok ..⟩ (exampleInterChoices_ok (by decide) (by decide)) emptyInterHeader_range rfl
    (uniformIndices_range (by decide : 0 ≤ 127)) (grayRaster_ok 40 30 77) (grayRaster_ok 40 30 0)
  exact ⟨f, shown, h1, h2⟩

/-- A frame made for one picture, updated for another. -/
example : ∃ f picture, updateResidues exampleReencodeWork exampleEncoder (grayRaster 17 20 60) exampleInterFrame2 (uniformIndices 0) false = some (f, picture) ∧
    NearBy 10 8 (grayRaster 17 20 60) picture := by
  obtain ⟨f, picture, h1, -, h2⟩ := C75_reencoded (e := exampleEncoder) (by decide) (by decide) exampleDecoder_ok.references exampleReencodeWork_ok exampleInterFrame2_ok rfl rfl rfl
    (uniformIndices_range (by decide : 0 ≤ 127)) (grayRaster_ok 17 20 60) false
  exact ⟨f, picture, h1, h2⟩

/-- Choices for a key frame in two passes, in which the macroblocks that are predicted in sixteen blocks are the same. -/
def exampleTwoPasses : KeyChoices :=
  { exampleKeyChoices with
    second := some { trials := tidyTrials, costs := fun _ => { token := fun _ _ t => 300 * t.val, base := fun _ => 256, rate := 55, distortion := 100 }
                     contexts := fun _ _ => 1, modes := fun k => ⟨Fin.ofNat 5 k, 0, fun _ => 2⟩, counts := fun _ _ k _ => (k.val, 7) } }

theorem exampleTwoPasses_ok : exampleTwoPasses.Ok 40 30 :=
  ⟨(exampleKeyChoices_ok 40 30).trials, (exampleKeyChoices_ok 40 30).counts, fun e he => by
    cases he
    exact ⟨tidyTrials_confined 40 30, fun _ _ k _ => by show k.val + 7 < 2 ^ 32; omega, fun _ => Nat.le_refl 100⟩⟩

theorem exampleTwoPasses_kept : exampleTwoPasses.TypesKept := fun e he k hk => by
  cases he
  exact hk

/-- A key frame in two passes: the bound is about twice that of one pass. -/
example : ∃ f shown, encodeKey exampleTwoPasses emptyKeyHeader (uniformIndices 20) (grayRaster 40 30 77) 40 30 (grayRaster 40 30 0)
    = some (f, shown) ∧ NearBy (103 + 54) (90 + 54) (grayRaster 40 30 77) shown := by
  obtain ⟨f, shown, h1, -, h2⟩ := C75_key_shown (width := 40) (height := 30) (by decide) (by decide) exampleTwoPasses_ok exampleTwoPasses_kept emptyKeyHeader_range rfl
    (uniformIndices_range (by decide : 20 ≤ 127)) (grayRaster_ok 40 30 77) (grayRaster_ok 40 30 0)
  exact ⟨f, shown, h1, h2⟩

end Alfalfa
