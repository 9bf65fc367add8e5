import Verif.Model.DecoderState
import Verif.Spec.DecoderState
import Verif.Proof.Frame
import Verif.Proof.InterMacroblock
import Verif.Proof.Header
import Verif.Props.Container

/-! Lemmas about whole frames and the decoder state. -/

namespace Alfalfa

/-! ### The two kinds of frame -/

/-- What the proofs need to know about a kind of frame. -/
structure FrameKind.Lawful {H : Type} (K : FrameKind H) (headerOk : H → Prop) (mbOk : H → MBContext → MBModes → Prop) : Prop where
  header : ∀ h, headerOk h → Parses K.parseHeader (K.writeHeader h) h
  headerYields : Yields K.parseHeader headerOk
  partitions : ∀ h, headerOk h → K.log2Partitions h < 4
  mb : ∀ h t c m, mbOk h c m → (∀ n, c.above = some n → ∃ c', mbOk h c' n) → (∀ n, c.left = some n → ∃ c', mbOk h c' n) →
    ∃ bits, K.writeMB h t c m = some bits ∧ Parses (K.parseMB h t c) bits m
  mbTotal : ∀ h t c, (∀ n, c.above = some n → ∃ c', mbOk h c' n) → (∀ n, c.left = some n → ∃ c', mbOk h c' n) →
    Produces (K.parseMB h t c) (mbOk h c)
  segments : ∀ h c m v, mbOk h c m → m.segmentIdUpdate = some v → v < 4

theorem yields_keyHeader : Yields parseKeyFrameHeader KeyFrameHeader.InRange := by
  intro d h d' e
  obtain ⟨x, d1, h1, h2⟩ := produces_keyFields d
  have e2 : parseKeyFrameHeader d = (if x.colorSpace || x.clampingType then failure
      else if x.filterType then failure else pure x : Parser KeyFrameHeader) d1 := by
    show (parseKeyFrameFields d >>= fun x => _) = _
    rw [h1]; rfl
  rw [e2] at e
  cases ha : x.colorSpace <;> cases hb : x.clampingType <;> cases hc : x.filterType <;> rw [ha, hb, hc] at e <;> cases e
  exact h2 ha hb hc

theorem yields_interHeader : Yields parseInterFrameHeader InterFrameHeader.InRange := by
  intro d h d' e
  obtain ⟨x, d1, h1, h2⟩ := produces_interFields d
  have e2 : parseInterFrameHeader d = (if x.filterType then failure else pure x : Parser InterFrameHeader) d1 := by
    show (parseInterFrameFields d >>= fun x => _) = _
    rw [h1]; rfl
  rw [e2] at e
  cases hc : x.filterType <;> rw [hc] at e <;> cases e
  exact h2 hc

theorem keyKind_lawful : keyKind.Lawful KeyFrameHeader.InRange (fun h _ m => m.KeyOk h) where
  header := fun _ h => parses_keyHeader h
  headerYields := yields_keyHeader
  partitions := fun _ h => h.log2Partitions
  mb := fun h _ c m hm ha hl => parses_keyMB hm ⟨fun n hn => (ha n hn).choose_spec.intra, fun n hn => (hl n hn).choose_spec.intra⟩
  mbTotal := fun h _ c ha hl => produces_keyMB h ⟨fun n hn => (ha n hn).choose_spec.intra, fun n hn => (hl n hn).choose_spec.intra⟩
  segments := fun _ _ _ v hm => hm.pre.segmentRange v

theorem interKind_lawful : interKind.Lawful InterFrameHeader.InRange (fun h c m => m.InterFrameOk h c) where
  header := fun _ h => parses_interHeader h
  headerYields := yields_interHeader
  partitions := fun _ h => h.log2Partitions
  mb := fun _ t _ _ hm _ _ => parses_interMB t hm
  mbTotal := fun h t c _ _ => produces_interMB h t c
  segments := fun _ _ _ v hm => hm.pre.segmentRange v

theorem partitionCount_pos {H : Type} (K : FrameKind H) (h : H) : 0 < K.partitionCount h := by
  unfold FrameKind.partitionCount
  rw [Nat.one_shiftLeft]
  exact Nat.two_pow_pos _

theorem macroblockDimension_pos {n : Nat} (h : 0 < n) : 0 < macroblockDimension n := by
  unfold macroblockDimension; omega

theorem macroblockDimension_le {n : Nat} : macroblockDimension n ≤ n := by
  unfold macroblockDimension; omega

/-! ### The first partition -/

section
variable {H : Type} {K : FrameKind H} {headerOk : H → Prop} {mbOk : H → MBContext → MBModes → Prop}

theorem first_round_trip (hK : K.Lawful headerOk mbOk) {f : Frame H} (hf : f.Ok headerOk mbOk) (t : ProbabilityTables) :
    ∃ first, K.serializeFirst t f = some first ∧ ∀ c, ∃ d d', K.parseHeader (BoolDecoder.init first c) = some (f.header, d) ∧
      K.parseModes f.header t f.width f.height d = some (f.modes, d') := by
  have hw : 0 < macroblockDimension f.width := macroblockDimension_pos hf.width.1
  obtain ⟨b, hb, pb⟩ := parses_MBs (f := K.writeMB f.header t) (p := K.parseMB f.header t) (h := macroblockDimension f.height) hw f.modes
    (fun k m hm => hK.mb f.header t _ m (hf.modes k m hm)
      (fun n hn => by obtain ⟨j, hj⟩ := gridAbove_mem hn; exact ⟨_, hf.modes j n hj⟩)
      (fun n hn => by obtain ⟨j, hj⟩ := gridLeft_mem hn; exact ⟨_, hf.modes j n hj⟩)) f.modes [] rfl
  rw [List.length_nil] at hb
  obtain ⟨first, h1, -, h2⟩ := encode_reads (K.writeHeader f.header ++ b)
  refine ⟨first, ?_, fun c => ?_⟩
  · unfold FrameKind.serializeFirst
    rw [hb]; exact h1
  · obtain ⟨r1, r2⟩ := (reads_append _ _ _).mp (h2.same (sameReader_init first true c))
    refine ⟨_, after (after (BoolDecoder.init first c) (K.writeHeader f.header)) b, hK.header _ hf.header _ r1, ?_⟩
    unfold FrameKind.parseModes
    rw [show macroblockDimension f.width * macroblockDimension f.height = f.modes.length from hf.count.symm]
    exact pb _ r2

theorem modes_total (hK : K.Lawful headerOk mbOk) (h : H) (t : ProbabilityTables) {width height : Nat} (hw : 0 < width) :
    Produces (K.parseModes h t width height) (fun all => all.length = (width + 15) / 16 * ((height + 15) / 16) ∧
      ∀ k m, all[k]? = some m → mbOk h (gridContext ((width + 15) / 16) ((height + 15) / 16) all k) m) := by
  unfold FrameKind.parseModes
  refine (produces_MBs (P := mbOk h) (macroblockDimension_pos hw) (fun c ha hl => hK.mbTotal h t c ha hl) _ []
    (fun k m hm => nomatch hm)).mono fun all hall => ⟨?_, hall.2⟩
  rw [hall.1, List.length_nil, Nat.zero_add]; rfl

/-! ### The coefficient partitions -/

theorem mapM_encode : ∀ (parts : List Bits), ∃ out, parts.mapM encodeBits = some out ∧ out.length = parts.length ∧
    ∀ (j : Nat) p bytes, parts[j]? = some p → out[j]? = some bytes → bytes ≠ [] ∧ Reads (BoolDecoder.init bytes) p
  | [] => ⟨[], rfl, rfl, fun j p b h => nomatch h⟩
  | p :: ps => by
    obtain ⟨b, h1, h2, h3⟩ := encode_reads p
    obtain ⟨out, e1, e2, e3⟩ := mapM_encode ps
    refine ⟨b :: out, ?_, by simp [e2], ?_⟩
    · rw [List.mapM_cons, h1, e1]; rfl
    · intro j q bytes hq hb
      cases j with
      | zero => cases hq; cases hb; exact ⟨h2, h3⟩
      | succ j => exact e3 j q bytes hq hb

theorem zip_getElem {α β : Type} {a : List α} {b : List β} {j : Nat} {e : α × β} (h : (a.zip b)[j]? = some e) :
    a[j]? = some e.1 ∧ b[j]? = some e.2 := by
  rw [List.getElem?_zip_eq_some] at h
  exact h

theorem tokens_round_trip {f : Frame H} (hf : f.Ok headerOk mbOk) (t : ProbabilityTables) :
    ∃ parts, K.serializeTokens t f = some parts ∧ parts.length = K.partitionCount f.header ∧ (∀ p ∈ parts, p ≠ []) ∧
      parseFrameTokens t f.width f.modes parts = some f.residues := by
  have hw : 0 < macroblockDimension f.width := macroblockDimension_pos hf.width.1
  have hP := partitionCount_pos K f.header
  have hne : List.replicate (K.partitionCount f.header) ([] : Bits) ≠ [] := by
    rw [← List.length_pos_iff, List.length_replicate]; exact hP
  have hlen : (y2Links (macroblockDimension f.width) f.modes).length = f.modes.length := relinkY2_length _ _ _ _ _
  obtain ⟨bss, final, h1, h2, h3, h4⟩ := writeResidues_spec t.coeffProbs hw f.residues
    (f.modes.zip (y2Links (macroblockDimension f.width) f.modes)) f.residues [] (List.replicate (K.partitionCount f.header) []) hne rfl
    (by rw [List.length_zip, hlen, Nat.min_self, hf.countResidues])
    (relinkY2_below _ _ _ _ _ (fun _ _ h => nomatch h) (fun _ _ h => nomatch h))
    (fun j e r he hr => hf.residues j e.1 r (zip_getElem he).1 hr)
  rw [List.length_nil] at h1 h3 h4
  rw [List.length_replicate] at h2 h3 h4
  obtain ⟨parts, e1, e2, e3⟩ := mapM_encode final
  refine ⟨parts, ?_, by rw [e2, h2], ?_, ?_⟩
  · unfold FrameKind.serializeTokens
    simp only
    rw [h1]; exact e1
  · intro p hp
    obtain ⟨j, hj⟩ := List.getElem?_of_mem hp
    obtain ⟨hlt, -⟩ := List.getElem?_eq_some_iff.mp hj
    exact (e3 j final[j] p (List.getElem?_eq_getElem (by omega)) hj).1
  · unfold parseFrameTokens
    simp only
    refine h4 _ (by rw [List.length_map, e2, h2]) fun j d hd => ?_
    rw [List.getElem?_map] at hd
    obtain ⟨bytes, hb, rfl⟩ := Option.map_eq_some_iff.mp hd
    obtain ⟨hlt, -⟩ := List.getElem?_eq_some_iff.mp hb
    have := h3 j [] (by rw [List.getElem?_replicate, if_pos (by omega)])
    exact (e3 j _ bytes this hb).2

theorem tokens_total (t : ProbabilityTables) (width : Nat) (modes : List MBModes) {parts : List (List UInt8)} (h : parts ≠ []) :
    ∃ residues, parseFrameTokens t width modes parts = some residues ∧ residues.length = modes.length ∧
      ∀ (k : Nat) m (r : Residue), modes[k]? = some m → residues[k]? = some r → r.Ok m := by
  unfold parseFrameTokens
  simp only
  have hlen : (y2Links (macroblockDimension width) modes).length = modes.length := relinkY2_length _ _ _ _ _
  obtain ⟨rest, h1, h2, h3⟩ := produces_residues t.coeffProbs (macroblockDimension width)
    (modes.zip (y2Links (macroblockDimension width) modes)) [] (parts.map (BoolDecoder.init ·)) (by simpa using h)
  rw [List.length_zip, hlen, Nat.min_self] at h2
  refine ⟨rest, by rw [h1]; rfl, h2, fun k m r hm hr => ?_⟩
  obtain ⟨hlt, -⟩ := List.getElem?_eq_some_iff.mp hm
  refine h3 k (m, (y2Links (macroblockDimension width) modes)[k]'(by omega)) r ?_ hr
  rw [List.getElem?_zip_eq_some]
  exact ⟨hm, List.getElem?_eq_getElem _⟩

end

/-! ### Segmentation -/

theorem applyMap_ok {width height w : Nat} (hw : 0 < w) (hww : w ≤ width) :
    ∀ (ms : List MBModes) (k : Nat) (s : Segmentation), s.Ok width height → (k + ms.length ≤ w * height) →
      (∀ m ∈ ms, ∀ v, m.segmentIdUpdate = some v → v < 4) →
      ∃ s' ids, s.applyMap w k ms = some (s', ids) ∧ s'.Ok width height ∧ ids.length = ms.length ∧ ∀ v ∈ ids, v < 4
  | [], k, s, h, _, _ => ⟨s, [], rfl, h, rfl, fun v hv => nomatch hv⟩
  | m :: rest, k, s, h, hk, hv => by
    rw [List.length_cons] at hk
    have h1 : k % w < width := lt_of_lt_of_le (Nat.mod_lt _ hw) hww
    have h2 : k / w < height := by rw [Nat.div_lt_iff_lt_mul hw, Nat.mul_comm]; omega
    have hi : k / w * s.mapWidth + k % w < s.map.length := by
      rw [h.mapWidth, h.size]
      calc k / w * width + k % w < k / w * width + width := by omega
        _ = (k / w + 1) * width := by rw [Nat.add_mul, Nat.one_mul]
        _ ≤ height * width := Nat.mul_le_mul_right _ h2
        _ = width * height := Nat.mul_comm _ _
    unfold Segmentation.applyMap
    rw [if_neg (by rw [h.mapWidth, h.mapHeight]; omega)]
    simp only [bind, pure]
    generalize hs1 : s.setCell (k / w * s.mapWidth + k % w) m.segmentIdUpdate = s1
    have hs1ok : s1.Ok width height ∧ s1.mapWidth = s.mapWidth := by
      cases hm : m.segmentIdUpdate with
      | none => rw [hm] at hs1; subst hs1; exact ⟨h, rfl⟩
      | some v =>
        rw [hm] at hs1; subst hs1
        refine ⟨⟨h.mapWidth, h.mapHeight, ?_, ?_, h.quantizer, h.filter⟩, rfl⟩
        · show (s.map.set _ v).length = _
          rw [List.length_set]; exact h.size
        · intro x hx
          rcases List.mem_or_eq_of_mem_set hx with hx | rfl
          · exact h.cells x hx
          · exact hv m List.mem_cons_self _ hm
    obtain ⟨hok, hmw⟩ := hs1ok
    obtain ⟨s', ids, e1, e2, e3, e4⟩ := applyMap_ok hw hww rest (k + 1) s1 hok (by omega) (fun m' hm' => hv m' (List.mem_cons_of_mem _ hm'))
    have hlt : k / w * s.mapWidth + k % w < s1.map.length := by rw [hok.size, ← h.size]; exact hi
    refine ⟨s', s1.map[k / w * s.mapWidth + k % w]'hlt :: ids, ?_, e2, by rw [List.length_cons, e3, List.length_cons], ?_⟩
    · show (Option.bind (s1.map[k / w * s.mapWidth + k % w]?) _) = _
      rw [List.getElem?_eq_getElem hlt, Option.bind_some]
      show (Option.bind (s1.applyMap w (k + 1) rest) _) = _
      rw [e1]; rfl
    · intro v hv'
      rcases List.mem_cons.mp hv' with rfl | hv'
      · exact hok.cells _ (List.getElem_mem _)
      · exact e4 v hv'

theorem applySegmentation_ok {width height : Nat} (hw : 0 < width) {modes : List MBModes} {seg : Option Segmentation}
    (hs : ∀ s, seg = some s → s.Ok width height) (hl : modes.length = (width + 15) / 16 * ((height + 15) / 16))
    (hv : ∀ m ∈ modes, ∀ v, m.segmentIdUpdate = some v → v < 4) :
    ∃ seg' ids, applySegmentation width modes seg = some (seg', ids) ∧ (∀ s, seg' = some s → s.Ok width height) ∧
      ids.length = modes.length ∧ ∀ v ∈ ids, v < 4 := by
  cases seg with
  | none =>
    refine ⟨none, modes.map fun _ => 0, rfl, (fun s h => nomatch h), List.length_map _, ?_⟩
    intro v h
    obtain ⟨_, _, rfl⟩ := List.mem_map.mp h
    decide
  | some s =>
    have hle : modes.length ≤ macroblockDimension width * height := by
      rw [hl]; exact Nat.mul_le_mul_left _ macroblockDimension_le
    obtain ⟨s', ids, e1, e2, e3, e4⟩ := applyMap_ok (macroblockDimension_pos hw) macroblockDimension_le modes 0 s (hs s rfl)
      (by omega) hv
    refine ⟨some s', ids, ?_, fun s h => by cases h; exact e2, e3, e4⟩
    unfold applySegmentation
    simp only
    rw [e1]; rfl

theorem Segmentation.update_ok {width height : Nat} {s : Segmentation} {u : UpdateSegmentation} (h : s.Ok width height) (hu : u.InRange) :
    (s.update u).Ok width height := by
  unfold Segmentation.update
  cases hd : u.segmentFeatureData with
  | none => exact h
  | some d =>
    have hr := hu.segmentFeatureData d hd
    refine ⟨h.mapWidth, h.mapHeight, h.size, h.cells, fun i => ?_, fun i => ?_⟩
    · show -127 ≤ (d.quantizerUpdate i).getD 0 ∧ (d.quantizerUpdate i).getD 0 ≤ 127
      cases hq : d.quantizerUpdate i with
      | none => exact (by decide : (-127 : Int) ≤ 0 ∧ (0 : Int) ≤ 127)
      | some v =>
        have := hr.quantizerUpdate i v hq
        unfold FitsSigned at this
        rw [Option.getD_some]; omega
    · show -63 ≤ (d.loopFilterUpdate i).getD 0 ∧ (d.loopFilterUpdate i).getD 0 ≤ 63
      cases hq : d.loopFilterUpdate i with
      | none => exact (by decide : (-63 : Int) ≤ 0 ∧ (0 : Int) ≤ 63)
      | some v =>
        have := hr.loopFilterUpdate i v hq
        unfold FitsSigned at this
        rw [Option.getD_some]; omega

theorem Segmentation.new_ok {width height : Nat} {u : UpdateSegmentation} (hu : u.InRange) : (Segmentation.new u width height).Ok width height := by
  refine Segmentation.update_ok ⟨rfl, rfl, List.length_replicate, ?_, fun _ => ?_, fun _ => ?_⟩ hu
  · intro v hv; rw [List.eq_of_mem_replicate hv]; decide
  · exact (by decide : (-127 : Int) ≤ 0 ∧ (0 : Int) ≤ 127)
  · exact (by decide : (-63 : Int) ≤ 0 ∧ (0 : Int) ≤ 63)

theorem FilterAdjustments.default_ok : ({} : FilterAdjustments).Ok :=
  ⟨fun _ => (by decide : (-63 : Int) ≤ 0 ∧ (0 : Int) ≤ 63), fun _ => (by decide : (-63 : Int) ≤ 0 ∧ (0 : Int) ≤ 63)⟩

theorem FilterAdjustments.update_ok {a : FilterAdjustments} {u : Option ModeRefLFDeltaUpdate} (h : a.Ok)
    (hu : IfPresent ModeRefLFDeltaUpdate.InRange u) : (a.update u).Ok := by
  cases u with
  | none => exact h
  | some d =>
    have hr := hu d rfl
    refine ⟨fun i => ?_, fun i => ?_⟩
    · show -63 ≤ (d.refUpdate i).getD 0 ∧ (d.refUpdate i).getD 0 ≤ 63
      cases hq : d.refUpdate i with
      | none => exact (by decide : (-63 : Int) ≤ 0 ∧ (0 : Int) ≤ 63)
      | some v =>
        have := hr.refUpdate i v hq
        unfold FitsSigned at this
        rw [Option.getD_some]; omega
    · show -63 ≤ (d.modeUpdate i).getD 0 ∧ (d.modeUpdate i).getD 0 ≤ 63
      cases hq : d.modeUpdate i with
      | none => exact (by decide : (-63 : Int) ≤ 0 ∧ (0 : Int) ≤ 63)
      | some v =>
        have := hr.modeUpdate i v hq
        unfold FitsSigned at this
        rw [Option.getD_some]; omega

end Alfalfa
