import Verif.Props.DecoderExamples

/-! C58: segmentation and loop-filter adjustments after a frame. -/

namespace Alfalfa

/-- The segment that the decoder has on record for the macroblock at the given column and row; 3 if there is no record. -/
def DecoderState.segmentOnRecord (st : DecoderState) (column row : Nat) : Nat :=
  match st.segmentation with
  | some s => s.map.getD (row * s.mapWidth + column) 0
  | none => 3

/-- What a header with the segmentation part `u` makes of the adjustments `absolute`, `quantizer`, `filter` of the segments: those it sends
replace them all, with zero for segments it leaves out; if it sends none they stay. -/
def SegmentAdjustments (u : UpdateSegmentation) (absolute : Bool) (quantizer filter : Fin 4 → Int) (s : Segmentation) : Prop :=
  (∀ d, u.segmentFeatureData = some d → s.absolute = d.segmentFeatureMode ∧
    (∀ i v, d.quantizerUpdate i = some v → s.quantizer i = v) ∧ (∀ i, d.quantizerUpdate i = none → s.quantizer i = 0) ∧
    (∀ i v, d.loopFilterUpdate i = some v → s.filter i = v) ∧ (∀ i, d.loopFilterUpdate i = none → s.filter i = 0)) ∧
  (u.segmentFeatureData = none → s.absolute = absolute ∧ s.quantizer = quantizer ∧ s.filter = filter)

theorem Segmentation.update_spec (s : Segmentation) (u : UpdateSegmentation) : SegmentAdjustments u s.absolute s.quantizer s.filter (s.update u) ∧
    (s.update u).map = s.map ∧ (s.update u).mapWidth = s.mapWidth := by
  unfold SegmentAdjustments Segmentation.update
  cases u.segmentFeatureData with
  | none => exact ⟨⟨fun _ h => (nomatch h), fun _ => ⟨rfl, rfl, rfl⟩⟩, rfl, rfl⟩
  | some d =>
    refine ⟨⟨fun d' h => ?_, fun h => (nomatch h)⟩, rfl, rfl⟩
    cases h
    refine ⟨rfl, ?_, ?_, ?_, ?_⟩ <;> (intros; dsimp only; simp [*])

/-- The position of macroblock `k` of a grid `w` wide in a map `W` wide. -/
def mapCell (w W k : Nat) : Nat := k / w * W + k % w

theorem mapCell_injective {w W a b : Nat} (hw : 0 < w) (hW : w ≤ W) (h : mapCell w W a = mapCell w W b) : a = b := by
  unfold mapCell at h
  have ha := lt_of_lt_of_le (Nat.mod_lt a hw) hW
  have hb := lt_of_lt_of_le (Nat.mod_lt b hw) hW
  have e1 := congrArg (· / W) h
  have e2 := congrArg (· % W) h
  beta_reduce at e1 e2
  rw [Nat.mul_comm, Nat.mul_add_div (by omega), Nat.div_eq_of_lt ha, Nat.mul_comm, Nat.mul_add_div (by omega), Nat.div_eq_of_lt hb] at e1
  rw [Nat.mul_comm, Nat.mul_add_mod, Nat.mod_eq_of_lt ha, Nat.mul_comm, Nat.mul_add_mod, Nat.mod_eq_of_lt hb] at e2
  have h1 := Nat.div_add_mod a w
  have h2 := Nat.div_add_mod b w
  rw [← h1, ← h2, show a / w = b / w from e1, e2]

theorem setCell_get (s : Segmentation) (i j : Nat) (o : Option Nat) : (s.setCell i o).map[j]? = if i = j then (o.or s.map[j]?).filter (fun _ => j < s.map.length) else s.map[j]? := by
  cases o with
  | none =>
    show s.map[j]? = _
    split
    · by_cases hj : j < s.map.length
      · simp [hj, Option.filter]
      · simp [hj]
    · rfl
  | some v =>
    show (s.map.set i v)[j]? = _
    rw [List.getElem?_set]
    by_cases hij : i = j
    · subst hij
      rw [if_pos rfl, if_pos rfl]
      by_cases hj : i < s.map.length <;> simp [hj, Option.filter]
    · rw [if_neg hij, if_neg hij]

theorem applyMap_cells {w : Nat} (hw : 0 < w) : ∀ (ms : List MBModes) (k : Nat) (s s' : Segmentation) (ids : List Nat), w ≤ s.mapWidth →
    s.applyMap w k ms = some (s', ids) →
    (s'.absolute = s.absolute ∧ s'.quantizer = s.quantizer ∧ s'.filter = s.filter ∧ s'.mapWidth = s.mapWidth ∧ s'.mapHeight = s.mapHeight) ∧
    (∀ i, (∀ n, k ≤ n → n < k + ms.length → i ≠ mapCell w s.mapWidth n) → s'.map[i]? = s.map[i]?) ∧
    (∀ j m, ms[j]? = some m → ids[j]? = s'.map[mapCell w s.mapWidth (k + j)]? ∧
      ∃ old, s.map[mapCell w s.mapWidth (k + j)]? = some old ∧ ids[j]? = some (m.segmentIdUpdate.getD old))
  | [], k, s, s', ids, _, h => by
    cases h
    exact ⟨⟨rfl, rfl, rfl, rfl, rfl⟩, fun _ _ => rfl, fun j m hj => by simp at hj⟩
  | m :: rest, k, s, s', ids, hW, h => by
    unfold Segmentation.applyMap at h
    by_cases hc : s.mapWidth ≤ k % w ∨ s.mapHeight ≤ k / w
    · rw [if_pos hc] at h; exact nomatch h
    rw [if_neg hc] at h
    simp only [bind, pure] at h
    change ((s.setCell (mapCell w s.mapWidth k) m.segmentIdUpdate).map[mapCell w s.mapWidth k]?).bind _ = _ at h
    obtain ⟨id, h1, h⟩ := Option.bind_eq_some_iff.mp h
    obtain ⟨⟨s2, ids2⟩, h2, h⟩ := Option.bind_eq_some_iff.mp h
    simp only [Option.some.injEq, Prod.mk.injEq] at h
    obtain ⟨rfl, rfl⟩ := h
    change Segmentation.applyMap w (k + 1) rest (s.setCell (mapCell w s.mapWidth k) m.segmentIdUpdate) = _ at h2
    have hsame : (s.setCell (mapCell w s.mapWidth k) m.segmentIdUpdate).mapWidth = s.mapWidth := by cases m.segmentIdUpdate <;> rfl
    obtain ⟨i1, i2, i3⟩ := applyMap_cells hw rest (k + 1) _ _ _ (by rw [hsame]; exact hW) h2
    rw [hsame] at i2 i3
    refine ⟨?_, fun i hi => ?_, fun j m' hj => ?_⟩
    · revert i1
      cases m.segmentIdUpdate <;> exact fun i1 => i1
    · rw [i2 i (fun n hn1 hn2 => hi n (by omega) (by rw [List.length_cons]; omega)), setCell_get, if_neg]
      exact fun hh => hi k (le_refl _) (by rw [List.length_cons]; omega) hh.symm
    · cases j with
      | zero =>
        have hm : m = m' := Option.some.inj hj
        subst hm
        constructor
        · rw [Nat.add_zero, i2 _ (fun n hn1 _ hh => by have := mapCell_injective hw hW hh; omega), h1]; rfl
        · rw [setCell_get, if_pos rfl] at h1
          rw [Nat.add_zero]
          obtain ⟨h3, h4⟩ := Option.filter_eq_some_iff.mp h1
          have hlt : mapCell w s.mapWidth k < s.map.length := of_decide_eq_true h4
          refine ⟨s.map[mapCell w s.mapWidth k], List.getElem?_eq_getElem hlt, ?_⟩
          rw [List.getElem?_eq_getElem hlt] at h3
          show some id = _
          rw [← h3]
          cases m.segmentIdUpdate <;> rfl
      | succ j =>
        obtain ⟨j1, old, j2, j3⟩ := i3 j m' hj
        rw [show k + 1 + j = k + (j + 1) by omega] at j1 j2
        refine ⟨j1, old, ?_, j3⟩
        rw [← j2, setCell_get, if_neg (fun hh => by have := mapCell_injective hw hW hh; omega)]

/-- The segments on record and used for macroblock `k` after a frame with the given modes. -/
def SegmentsUpdated (width : Nat) (before : Nat → Nat → Nat) (modes : List MBModes) (ids : List Nat) (after : DecoderState) : Prop :=
  ∀ k m, modes[k]? = some m → ∃ id, ids[k]? = some id ∧
    after.segmentOnRecord (k % ((width + 15) / 16)) (k / ((width + 15) / 16)) = id ∧
    (∀ v, m.segmentIdUpdate = some v → id = v) ∧
    (m.segmentIdUpdate = none → id = before (k % ((width + 15) / 16)) (k / ((width + 15) / 16)))

theorem parseBody_segmentation {H : Type} (K : FrameKind H) {st st' : DecoderState} {t : ProbabilityTables} {c : FrameParts} {h : H} {d : BoolDecoder}
    {p : ParsedFrame H} (hb : parseBody K st t c h d = (st', .ok p)) :
    applySegmentation st.width p.frame.modes st.segmentation = some (st'.segmentation, p.segmentIds) ∧ st'.filterAdjustments = st.filterAdjustments ∧
      p.frame.header = h := by
  unfold parseBody at hb
  cases hm : K.parseModes h t st.width st.height d with
  | none => rw [hm] at hb; exact nomatch congrArg Prod.snd hb
  | some x =>
    obtain ⟨modes, d'⟩ := x
    rw [hm] at hb; simp only at hb
    cases hs : applySegmentation st.width modes st.segmentation with
    | none => rw [hs] at hb; exact nomatch congrArg Prod.snd hb
    | some y =>
      obtain ⟨seg, ids⟩ := y
      rw [hs] at hb; simp only at hb
      cases hd : dctPartitions c.rest (K.partitionCount h) with
      | error e => rw [hd] at hb; exact nomatch congrArg Prod.snd hb
      | ok parts =>
        rw [hd] at hb; simp only at hb
        cases ht : parseFrameTokens t st.width modes parts with
        | none => rw [ht] at hb; exact nomatch congrArg Prod.snd hb
        | some r =>
          rw [ht] at hb
          simp only [Prod.mk.injEq, Except.ok.injEq] at hb
          obtain ⟨rfl, rfl⟩ := hb
          exact ⟨hs, rfl, rfl⟩

theorem applySegmentation_updates {st : DecoderState} {s : Segmentation} (hs : s.Ok st.width st.height) (hw : 0 < st.width) {modes : List MBModes}
    {seg' : Option Segmentation} {ids : List Nat} (h : applySegmentation st.width modes (some s) = some (seg', ids)) (after : DecoderState)
    (ha : after.segmentation = seg') :
    ∃ s', seg' = some s' ∧ s'.absolute = s.absolute ∧ s'.quantizer = s.quantizer ∧ s'.filter = s.filter ∧
      SegmentsUpdated st.width (fun c r => s.map.getD (r * s.mapWidth + c) 0) modes ids after := by
  unfold applySegmentation at h
  obtain ⟨⟨s', ids'⟩, h1, h2⟩ := Option.bind_eq_some_iff.mp h
  simp only [pure, Option.some.injEq, Prod.mk.injEq] at h2
  obtain ⟨rfl, rfl⟩ := h2
  obtain ⟨⟨e1, e2, e3, e4, -⟩, -, e6⟩ := applyMap_cells (macroblockDimension_pos hw) modes 0 s s' ids'
    (by rw [hs.mapWidth]; exact macroblockDimension_le) h1
  refine ⟨s', rfl, e1, e2, e3, fun k m hm => ?_⟩
  obtain ⟨f1, old, f2, f3⟩ := e6 k m hm
  rw [Nat.zero_add] at f1 f2
  refine ⟨m.segmentIdUpdate.getD old, f3, ?_, fun v hv => by rw [hv]; rfl, fun hn => ?_⟩
  · unfold DecoderState.segmentOnRecord
    rw [ha]
    simp only
    rw [List.getD_eq_getElem?_getD, e4]
    change (s'.map[mapCell (macroblockDimension st.width) s.mapWidth k]?).getD 0 = _
    rw [← f1, f3]; rfl
  · rw [hn]
    show old = s.map.getD _ 0
    rw [List.getD_eq_getElem?_getD]
    change _ = (s.map[mapCell (macroblockDimension st.width) s.mapWidth k]?).getD 0
    rw [f2]; rfl

theorem new_record (u : UpdateSegmentation) {w h : Nat} (hw : 0 < w) {k : Nat} (hk : k < (w + 15) / 16 * ((h + 15) / 16)) :
    (Segmentation.new u w h).map.getD (k / ((w + 15) / 16) * (Segmentation.new u w h).mapWidth + k % ((w + 15) / 16)) 0 = 3 := by
  obtain ⟨-, e2, e3⟩ := Segmentation.update_spec { mapWidth := w, mapHeight := h, map := List.replicate (w * h) 3 } u
  unfold Segmentation.new
  rw [e2, e3]
  have h1 : k / ((w + 15) / 16) < h := by
    rw [Nat.div_lt_iff_lt_mul (show 0 < (w + 15) / 16 from macroblockDimension_pos hw), Nat.mul_comm]
    exact lt_of_lt_of_le hk (Nat.mul_le_mul_left _ macroblockDimension_le)
  have h2 : k % ((w + 15) / 16) < w := lt_of_lt_of_le (Nat.mod_lt _ (macroblockDimension_pos hw)) macroblockDimension_le
  have hlt : k / ((w + 15) / 16) * w + k % ((w + 15) / 16) < w * h := by
    calc _ < k / ((w + 15) / 16) * w + w := by omega
      _ = (k / ((w + 15) / 16) + 1) * w := by rw [Nat.add_mul, Nat.one_mul]
      _ ≤ h * w := Nat.mul_le_mul_right _ h1
      _ = _ := Nat.mul_comm _ _
  show (List.replicate (w * h) 3).getD (k / ((w + 15) / 16) * w + k % ((w + 15) / 16)) 0 = 3
  rw [List.getD_eq_getElem?_getD, List.getElem?_replicate, if_pos hlt]
  rfl

theorem new_adjustments (u : UpdateSegmentation) (w h : Nat) : SegmentAdjustments u false (fun _ => 0) (fun _ => 0) (Segmentation.new u w h) :=
  (Segmentation.update_spec { mapWidth := w, mapHeight := h, map := List.replicate (w * h) 3 } u).1

/-- **C58**, inter frames: segmentation is off after a frame whose header turns it off; otherwise the adjustments of the segments are as the
header prescribes, and each macroblock has the segment it carries, or else the one on record. -/
theorem C58_inter_frame_segmentation (st st' : DecoderState) (hst : st.Ok) (c : FrameParts) (p : ParsedFrame InterFrameHeader)
    (h : st.applyInter c = (st', .ok p)) :
    (p.frame.header.updateSegmentation = none → st'.segmentation = none ∧ ∀ id ∈ p.segmentIds, id = 0) ∧
    ∀ u, p.frame.header.updateSegmentation = some u → ∃ s', st'.segmentation = some s' ∧
      (∀ s, st.segmentation = some s → SegmentAdjustments u s.absolute s.quantizer s.filter s') ∧
      (st.segmentation = none → SegmentAdjustments u false (fun _ => 0) (fun _ => 0) s') ∧
      SegmentsUpdated st.width st.segmentOnRecord p.frame.modes p.segmentIds st' := by
  have hcount : p.frame.modes.length = (st.width + 15) / 16 * ((st.height + 15) / 16) := by
    have := (C12_inter_frame_total st hst c).2
    rw [h] at this
    rcases this with this | this | ⟨q, h4, h5, h6, h7, -⟩
    · exact nomatch this
    · exact nomatch this
    · injection h4 with h4; subst h4
      have := h5.count
      rw [h6, h7] at this
      exact this
  unfold DecoderState.applyInter at h
  cases hp : parseInterFrameHeader (BoolDecoder.init c.firstPartition false) with
  | none => rw [hp] at h; exact nomatch congrArg Prod.snd h
  | some x =>
    rw [hp] at h
    have hr : x.1.InRange := yields_interHeader _ _ _ hp
    obtain ⟨h1, -, h3⟩ := parseBody_segmentation _ h
    have hok := (applyInterHeader_ok hst hr).segmentation
    refine ⟨fun hn => ?_, fun u hu => ?_⟩
    · rw [h3] at hn
      have : (st.applyInterHeader x.1).segmentation = none := by
        show x.1.updateSegmentation.map _ = none
        rw [hn]; rfl
      rw [this] at h1
      simp only [applySegmentation, Option.some.injEq, Prod.mk.injEq] at h1
      refine ⟨h1.1.symm, fun id hid => ?_⟩
      rw [← h1.2] at hid
      obtain ⟨_, _, rfl⟩ := List.mem_map.mp hid
      rfl
    · rw [h3] at hu
      have hseg : (st.applyInterHeader x.1).segmentation = some (match st.segmentation with
          | some s => s.update u
          | none => Segmentation.new u st.width st.height) := by
        show x.1.updateSegmentation.map _ = _
        rw [hu]; rfl
      rw [hseg] at h1
      obtain ⟨s', g1, g2, g3, g4, g5⟩ := applySegmentation_updates (st := st.applyInterHeader x.1) (hok _ hseg) hst.width.1 h1 st' rfl
      refine ⟨s', g1, fun s hs => ?_, fun hs => ?_, ?_⟩
      · rw [hs] at g2 g3 g4
        have := (Segmentation.update_spec s u).1
        unfold SegmentAdjustments at this ⊢
        rw [g2, g3, g4]; exact this
      · rw [hs] at g2 g3 g4
        have := new_adjustments u st.width st.height
        unfold SegmentAdjustments at this ⊢
        rw [g2, g3, g4]; exact this
      · intro k m hm
        obtain ⟨id, k1, k2, k3, k4⟩ := g5 k m hm
        refine ⟨id, k1, k2, k3, fun hn => (k4 hn).trans ?_⟩
        unfold DecoderState.segmentOnRecord
        cases hs : st.segmentation with
        | some s =>
          simp only
          rw [(Segmentation.update_spec s u).2.1, (Segmentation.update_spec s u).2.2]
          rfl
        | none =>
          simp only
          have hk : k < p.frame.modes.length := (List.getElem?_eq_some_iff.mp hm).1
          rw [hcount] at hk
          exact new_record u hst.width.1 hk

/-- **C58**, key frames: the same with nothing on record. -/
theorem C58_key_frame_segmentation (st st' : DecoderState) (hst : st.Ok) (c : FrameParts) (p : ParsedFrame KeyFrameHeader)
    (h : st.applyKey c = (st', .ok p)) :
    (p.frame.header.updateSegmentation = none → st'.segmentation = none ∧ ∀ id ∈ p.segmentIds, id = 0) ∧
    ∀ u, p.frame.header.updateSegmentation = some u → ∃ s', st'.segmentation = some s' ∧
      SegmentAdjustments u false (fun _ => 0) (fun _ => 0) s' ∧
      SegmentsUpdated st.width (fun _ _ => 3) p.frame.modes p.segmentIds st' := by
  have hcount : p.frame.modes.length = (st.width + 15) / 16 * ((st.height + 15) / 16) := by
    have := (C12_key_frame_total st hst c).2
    rw [h] at this
    rcases this with ⟨this, -⟩ | this | this | ⟨q, h4, h5, h6, h7, -⟩
    · exact nomatch this
    · exact nomatch this
    · exact nomatch this
    · injection h4 with h4; subst h4
      have := h5.count
      rw [h6, h7] at this
      exact this
  unfold DecoderState.applyKey at h
  by_cases hx : c.experimental = true
  · rw [if_pos hx] at h; exact nomatch congrArg Prod.snd h
  rw [if_neg hx] at h
  cases hp : parseKeyFrameHeader (BoolDecoder.init c.firstPartition false) with
  | none => rw [hp] at h; exact nomatch congrArg Prod.snd h
  | some x =>
    rw [hp] at h
    have hr : x.1.InRange := yields_keyHeader _ _ _ hp
    obtain ⟨h1, -, h3⟩ := parseBody_segmentation (st := keyStart x.1 st.width st.height) _ h
    have hok := (keyStart_ok hst hr).segmentation
    have hdef : (keyStart x.1 st.width st.height).segmentation = x.1.updateSegmentation.map (Segmentation.new · st.width st.height) := by
      unfold keyStart
      split <;> rfl
    have hwd := keyStart_dims x.1 st.width st.height
    refine ⟨fun hn => ?_, fun u hu => ?_⟩
    · rw [h3] at hn
      rw [hdef, hn] at h1
      simp only [Option.map_none, applySegmentation, Option.some.injEq, Prod.mk.injEq] at h1
      refine ⟨h1.1.symm, fun id hid => ?_⟩
      rw [← h1.2] at hid
      obtain ⟨_, _, rfl⟩ := List.mem_map.mp hid
      rfl
    · rw [h3] at hu
      rw [hu, Option.map_some] at hdef
      rw [hdef] at h1
      obtain ⟨s', g1, g2, g3, g4, g5⟩ := applySegmentation_updates (st := keyStart x.1 st.width st.height) (hok _ hdef)
        (by rw [hwd.1]; exact hst.width.1) h1 st' rfl
      rw [hwd.1] at g5
      refine ⟨s', g1, ?_, ?_⟩
      · have := new_adjustments u st.width st.height
        unfold SegmentAdjustments at this ⊢
        rw [g2, g3, g4]; exact this
      · intro k m hm
        obtain ⟨id, k1, k2, k3, k4⟩ := g5 k m hm
        have hk : k < p.frame.modes.length := (List.getElem?_eq_some_iff.mp hm).1
        rw [hcount] at hk
        exact ⟨id, k1, k2, k3, fun hn => (k4 hn).trans (new_record u hst.width.1 hk)⟩

/-- What a header prescribes for the loop-filter adjustments: those it sends are replaced and the others keep their value. -/
def FilterAdjustmentsPrescribed (d : ModeRefLFDeltaUpdate) (old new : FilterAdjustments) : Prop :=
  (∀ i v, d.refUpdate i = some v → new.ref i = v) ∧ (∀ i, d.refUpdate i = none → new.ref i = old.ref i) ∧
  (∀ i v, d.modeUpdate i = some v → new.mode i = v) ∧ (∀ i, d.modeUpdate i = none → new.mode i = old.mode i)

theorem filter_update_prescribed (a : FilterAdjustments) (d : ModeRefLFDeltaUpdate) : FilterAdjustmentsPrescribed d a (a.update (some d)) ↔
    (∀ i, d.refUpdate i = none → a.ref i = 0) ∧ (∀ i, d.modeUpdate i = none → a.mode i = 0) := by
  unfold FilterAdjustmentsPrescribed FilterAdjustments.update
  constructor
  · rintro ⟨-, h1, -, h2⟩
    refine ⟨fun i hi => ?_, fun i hi => ?_⟩
    · have := h1 i hi; rw [← this]; simp [hi]
    · have := h2 i hi; rw [← this]; simp [hi]
  · rintro ⟨h1, h2⟩
    refine ⟨fun i v hi => by simp [hi], fun i hi => by simp [hi, h1 i hi], fun i v hi => by simp [hi], fun i hi => by simp [hi, h2 i hi]⟩

/-- **C58**, loop-filter adjustments of an inter frame: absent if the header turns them off, kept if it sends none; if it sends some, what
results is what the format prescribes exactly if the adjustments not sent were zero before.  Missing: the claim without that
condition, which is false (`C58_unsent_adjustments_are_lost`). -/
theorem C58_filter_adjustments_partial (st st' : DecoderState) (c : FrameParts) (p : ParsedFrame InterFrameHeader)
    (h : st.applyInter c = (st', .ok p)) :
    (p.frame.header.modeLfAdjustments = none → st'.filterAdjustments = none) ∧
    (p.frame.header.modeLfAdjustments = some none → st'.filterAdjustments = some (st.filterAdjustments.getD {})) ∧
    ∀ d, p.frame.header.modeLfAdjustments = some (some d) → ∃ new, st'.filterAdjustments = some new ∧
      (FilterAdjustmentsPrescribed d (st.filterAdjustments.getD {}) new ↔
        (∀ i, d.refUpdate i = none → (st.filterAdjustments.getD {}).ref i = 0) ∧ (∀ i, d.modeUpdate i = none → (st.filterAdjustments.getD {}).mode i = 0)) := by
  unfold DecoderState.applyInter at h
  cases hp : parseInterFrameHeader (BoolDecoder.init c.firstPartition false) with
  | none => rw [hp] at h; exact nomatch congrArg Prod.snd h
  | some x =>
    rw [hp] at h
    obtain ⟨-, h2, h3⟩ := parseBody_segmentation _ h
    rw [h2, h3]
    refine ⟨fun hn => ?_, fun hn => ?_, fun d hd => ⟨_, ?_, filter_update_prescribed _ d⟩⟩
    · show x.1.modeLfAdjustments.map _ = _; rw [hn]; rfl
    · show x.1.modeLfAdjustments.map _ = _; rw [hn]; rfl
    · show x.1.modeLfAdjustments.map _ = _; rw [hd]; rfl

/-- A frame that sends only one adjustment. -/
def exampleInterFrame3 : Frame InterFrameHeader :=
  { exampleInterFrame2 with header := { exampleInterFrame2.header with
      modeLfAdjustments := some (some { refUpdate := fun i => if i = 0 then some 9 else none, modeUpdate := fun _ => none }) } }

theorem exampleInterFrame3_ok : InterFrameOk exampleInterFrame3 where
  header := { exampleInterFrame2_ok.header with
    modeLfAdjustments := by
      rintro _ ⟨⟩ _ ⟨⟩
      refine ⟨fun i => ?_, fun i => ?_⟩ <;> intro v hv
      · dsimp only at hv
        split at hv
        · cases hv; unfold FitsSigned; decide
        · exact nomatch hv
      · exact nomatch hv }
  width := by decide
  height := by decide
  count := by decide
  countResidues := by decide
  modes := fun k m hm => by
    have h := exampleInterFrame2_ok.modes k m hm
    exact ⟨⟨h.pre.segmentPresent, h.pre.segmentRange, h.pre.skipPresent⟩, h.2.imp id (fun ⟨s, h1, h2⟩ => ⟨s, h1, ⟨h2.1, h2.2, h2.3, h2.4, h2.5, h2.6,
      h2.7, h2.8, h2.9, h2.10, h2.11, h2.12, h2.13⟩⟩)⟩
  residues := exampleInterFrame2_ok.residues

theorem exampleInterFrame3_bits : (writeMBs (interKind.writeMB exampleInterFrame3.header (interKind.tables {} exampleInterFrame3.header))
    (macroblockDimension exampleInterFrame3.width) (macroblockDimension exampleInterFrame3.height) exampleInterFrame3.modes 0 exampleInterFrame3.modes).all
    (fun b => decide ((interKind.writeHeader exampleInterFrame3.header).length + b.length < 10000)) = true := by decide +kernel

theorem exampleInterFrame3_tokens : (interKind.serializeTokens (interKind.tables {} exampleInterFrame3.header)
    exampleInterFrame3).all (fun bs => bs.all fun b => decide (b.length < 2 ^ 24)) = true := by decide +kernel

/-- **C58** is false as stated for the loop-filter adjustments: a decoder that has an adjustment of 5 on record decodes a frame that does
not send that one, and loses it. -/
theorem C58_unsent_adjustments_are_lost : ∃ (st st' : DecoderState) (c : FrameParts) (p : ParsedFrame InterFrameHeader) (a a' : FilterAdjustments)
    (d : ModeRefLFDeltaUpdate), st.Ok ∧ st.applyInter c = (st', .ok p) ∧ p.frame.header.modeLfAdjustments = some (some d) ∧ d.refUpdate 1 = none ∧
    st.filterAdjustments = some a ∧ a.ref 1 = 5 ∧ st'.filterAdjustments = some a' ∧ a'.ref 1 = 0 := by
  obtain ⟨b2, c2, i1, i2, i3, i4⟩ := C09_inter_frame_round_trip exampleInterFrame3 exampleInterFrame3_ok {}
    (serializeFirst_short exampleInterFrame3_bits) (shorter_of_all_list exampleInterFrame3_tokens)
  have hok : ({ width := 17, height := 20, filterAdjustments := some { ref := fun _ => 5 } } : DecoderState).Ok :=
    ⟨by decide, by decide, fun _ h => (nomatch h), fun a h => by
      cases h; exact ⟨fun _ => (by decide : (-63 : Int) ≤ 5 ∧ (5 : Int) ≤ 63), fun _ => (by decide : (-63 : Int) ≤ 0 ∧ (0 : Int) ≤ 63)⟩⟩
  obtain ⟨st2, p2, i5, i6⟩ := i4 _ hok rfl rfl rfl
  have h := C58_filter_adjustments_partial _ _ _ _ i5
  have hh : p2.frame.header = exampleInterFrame3.header := by rw [i6]
  have e : st2.filterAdjustments = some (({ ref := fun _ => 5 } : FilterAdjustments).update
      (some { refUpdate := fun i => if i = 0 then some 9 else none, modeUpdate := fun _ => none })) := by
    unfold DecoderState.applyInter at i5
    cases hp : parseInterFrameHeader (BoolDecoder.init c2.firstPartition false) with
    | none => rw [hp] at i5; exact nomatch congrArg Prod.snd i5
    | some x =>
      rw [hp] at i5
      obtain ⟨-, h2, h3⟩ := parseBody_segmentation _ i5
      rw [h2]
      show x.1.modeLfAdjustments.map _ = _
      rw [← h3, hh]
      rfl
  exact ⟨_, st2, c2, p2, _, _, _, hok, i5, by rw [hh]; rfl, rfl, rfl, rfl, e, rfl⟩

/-- The hypotheses of the segmentation theorems are met by the example frames with segmentation. -/
example : ∃ (c₁ c₂ : FrameParts) (st₁ st₁' st₂ st₂' : DecoderState) (p₁ : ParsedFrame KeyFrameHeader) (p₂ : ParsedFrame InterFrameHeader),
    st₁.Ok ∧ st₁.applyKey c₁ = (st₁', .ok p₁) ∧ p₁.frame.header.updateSegmentation ≠ none ∧
    st₂.Ok ∧ st₂.applyInter c₂ = (st₂', .ok p₂) ∧ p₂.frame.header.updateSegmentation ≠ none := by
  obtain ⟨b1, c1, h1, h2, h3, h4⟩ := C09_key_frame_round_trip exampleKeyFrame exampleKeyFrame_ok exampleKeyFrame_first (shorter_of_all_list exampleKeyFrame_tokens)
  obtain ⟨st1, p1, h5, h6⟩ := h4 exampleDecoder.state rfl rfl
  obtain ⟨b2, c2, i1, i2, i3, i4⟩ := C09_inter_frame_round_trip exampleInterFrame exampleInterFrame_ok {} exampleInterFrame_first
    (shorter_of_all_list exampleInterFrame_tokens)
  have hok : ({ width := 32, height := 16 } : DecoderState).Ok := ⟨by decide, by decide, (fun _ h => nomatch h), fun _ h => nomatch h⟩
  obtain ⟨st2, p2, i5, i6⟩ := i4 _ hok rfl rfl rfl
  exact ⟨c1, c2, _, st1, _, st2, p1, p2, exampleDecoder_ok.state, h5, by rw [h6]; exact fun h => (nomatch h), hok, i5, by rw [i6]; exact fun h => (nomatch h)⟩

end Alfalfa
