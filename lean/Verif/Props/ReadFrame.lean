import Verif.Spec.ReadFrame
import Verif.Props.WholeFrame

/-! C112: a frame of the format is read, whoever wrote it. -/

namespace Alfalfa

open FrameSpec

theorem reads_of_getAll : ∀ {s : Bits} {d : BoolDecoder}, d.getAll (s.map Prod.snd) = s.map Prod.fst → Reads d s
  | [], _, _ => trivial
  | (b, p) :: s, d, h => by
    simp only [List.map_cons, BoolDecoder.getAll, List.cons.injEq] at h
    exact ⟨h.1, reads_of_getAll h.2⟩

theorem holds_reads {bits : Bits} {bytes : List UInt8} (h : Holds bits bytes) : Reads (BoolDecoder.init bytes) bits :=
  reads_of_getAll (by rw [C110_reading bytes _ h.1]; exact h.2)

section
variable {H : Type} {K : FrameKind H} {headerOk : H → Prop} {mbOk : H → MBContext → MBModes → Prop}

theorem first_read (hK : K.Lawful headerOk mbOk) {f : Frame H} (hf : f.Ok headerOk mbOk) (t : ProbabilityTables) {header : Bits}
    {mb : MBContext → MBModes → Bits} (hh : K.writeHeader f.header = header)
    (hmb : ∀ k m, f.modes[k]? = some m → K.writeMB f.header t (gridContext (macroblocks f.width) (macroblocks f.height) f.modes k) m =
      some (mb (gridContext (macroblocks f.width) (macroblocks f.height) f.modes k) m)) {one : List UInt8}
    (ho : Holds (firstBits header mb f.width f.height f.modes) one) (c : Bool) :
    ∃ d d', K.parseHeader (BoolDecoder.init one c) = some (f.header, d) ∧ K.parseModes f.header t f.width f.height d = some (f.modes, d') := by
  have hw : 0 < macroblocks f.width := by have := hf.width.1; unfold macroblocks; omega
  have hmbs := writeMBs_spec (f := K.writeMB f.header t) (g := mb) (macroblocks f.width) (macroblocks f.height) f.modes f.modes 0
    (fun j m hj => by rw [Nat.zero_add]; exact hmb j m hj)
  simp only [gridContext_around hw] at hmbs
  obtain ⟨b, hb, pb⟩ := parses_MBs (f := K.writeMB f.header t) (p := K.parseMB f.header t) (h := macroblocks f.height) hw f.modes
    (fun k m hm => hK.mb f.header t _ m (hf.modes k m hm)
      (fun n hn => by obtain ⟨j, hj⟩ := gridAbove_mem hn; exact ⟨_, hf.modes j n hj⟩)
      (fun n hn => by obtain ⟨j, hj⟩ := gridLeft_mem hn; exact ⟨_, hf.modes j n hj⟩)) f.modes [] rfl
  rw [List.length_nil, hmbs] at hb
  cases hb
  have hr := holds_reads ho
  unfold firstBits at hr
  rw [← hh] at hr
  obtain ⟨r1, r2⟩ := (reads_append _ _ _).mp (hr.same (sameReader_init one true c))
  have h2 := pb _ r2
  rw [hf.count] at h2
  exact ⟨_, _, hK.header _ hf.header _ r1, h2⟩

theorem tokens_read {f : Frame H} (hf : f.Ok headerOk mbOk) (t : ProbabilityTables) {n : Nat} (hn : 0 < n) {parts : List (List UInt8)}
    (hlen : parts.length = n)
    (hp : ∀ i p, parts[i]? = some p → Holds (partitionBits t.coeffProbs (macroblocks f.width) n i f.modes f.residues) p) :
    parseFrameTokens t f.width f.modes parts = some f.residues := by
  have hw : 0 < macroblocks f.width := by have := hf.width.1; unfold macroblocks; omega
  have hne : List.replicate n ([] : Bits) ≠ [] := by rw [← List.length_pos_iff, List.length_replicate]; exact hn
  have hl : (y2Links (macroblocks f.width) f.modes).length = f.modes.length := relinkY2_length _ _ _ _ _
  obtain ⟨bss, final, h1, h2, h3, h4⟩ := writeResidues_spec t.coeffProbs hw f.residues
    (f.modes.zip (y2Links (macroblocks f.width) f.modes)) f.residues [] (List.replicate n []) hne rfl
    (by rw [List.length_zip, hl, Nat.min_self, hf.countResidues])
    (relinkY2_below _ _ _ _ _ (fun _ _ h => nomatch h) (fun _ _ h => nomatch h))
    (fun j e r he hr => hf.residues j e.1 r (zip_getElem he).1 hr)
  obtain ⟨final', f1, -, f3⟩ := writeResidues_sel (probs := t.coeffProbs) (w := macroblocks f.width) (all := f.residues)
    (g := coefficientBits t.coeffProbs (macroblocks f.width) f.modes f.residues)
    (f.modes.zip (y2Links (macroblocks f.width) f.modes)) f.residues 0 (List.replicate n [])
    (by rw [List.length_zip, hl, Nat.min_self, hf.countResidues]) (by rw [List.length_replicate]; exact hn)
    (fun j m la ll r hj hr => by
      obtain ⟨z1, z2⟩ := zip_getElem hj
      rw [Nat.zero_add, gridAbove_over hw, gridLeft_before, (C107_macroblock _ m _ _ _ _ r (hf.residues j m r z1 hr)).1]
      obtain ⟨ya, yl⟩ := C57_y2_neighbours (macroblocks f.width) f.modes j la ll z2
      unfold coefficientBits
      rw [linkFlag_earlier (same := fun i => i % macroblocks f.width == j % macroblocks f.width) (by simpa only [beq_iff_eq] using ya),
        linkFlag_earlier (same := fun i => i / macroblocks f.width == j / macroblocks f.width) (by simpa only [beq_iff_eq] using yl)])
  rw [List.length_nil, f1] at h1
  cases h1
  rw [List.length_nil] at h3 h4
  rw [List.length_replicate] at h2 h3 h4 f3
  unfold parseFrameTokens
  simp only
  refine h4 _ (by rw [List.length_map, hlen]) fun j d hd => ?_
  rw [List.getElem?_map] at hd
  obtain ⟨bytes, hb, rfl⟩ := Option.map_eq_some_iff.mp hd
  obtain ⟨hlt, -⟩ := List.getElem?_eq_some_iff.mp hb
  have e1 := h3 j [] (by rw [List.getElem?_replicate, if_pos (by omega)])
  have e2 := f3 j [] (by rw [List.getElem?_replicate, if_pos (by omega)])
  rw [e1, List.nil_append, List.nil_append, List.map_fst_zip (by rw [hl])] at e2
  rw [Option.some.inj e2]
  exact holds_reads (hp j bytes hb)

theorem frame_read (hK : K.Lawful headerOk mbOk) {f : Frame H} (hf : f.Ok headerOk mbOk) (t : ProbabilityTables) {header : Bits}
    {mb : MBContext → MBModes → Bits} (hh : K.writeHeader f.header = header)
    (hmb : ∀ k m, f.modes[k]? = some m → K.writeMB f.header (K.tables t f.header) (gridContext (macroblocks f.width) (macroblocks f.height) f.modes k) m =
      some (mb (gridContext (macroblocks f.width) (macroblocks f.height) f.modes k) m)) {bytes : List UInt8}
    (hb : HoldsFrame K.key (firstBits header mb f.width f.height f.modes) (K.tables t f.header).coeffProbs (2 ^ K.log2Partitions f.header) f bytes) :
    ∃ parts d, splitFrame bytes f.width f.height false = .ok parts ∧ parts.keyFrame = K.key ∧ parts.experimental = false ∧
      K.parseHeader (BoolDecoder.init parts.firstPartition false) = some (f.header, d) ∧
      ∀ st : DecoderState, st.width = f.width → st.height = f.height → (∀ s, st.segmentation = some s → s.Ok f.width f.height) →
        ∃ seg ids, applySegmentation f.width f.modes st.segmentation = some (seg, ids) ∧
          parseBody K st (K.tables t f.header) parts f.header d = ({ st with segmentation := seg }, .ok { frame := f, segmentIds := ids }) := by
  obtain ⟨one, ps, rfl, ho, hn, hl1, hl2, hne, hp⟩ := hb
  have hpos : 0 < 2 ^ K.log2Partitions f.header := Nat.two_pow_pos _
  obtain ⟨r, c1, c2, c3, c4, c5, -, c7⟩ := C109_reader K.key f.show' false f.width f.height one ps hf.width.2 hf.height.2
    (by rw [← List.length_pos_iff, hn]; exact hpos) hl1 hl2 hne
  obtain ⟨d, d', e1, e2⟩ := first_read hK hf (K.tables t f.header) hh hmb ho false
  refine ⟨r, d, c1, c2, c4, by rw [c5]; exact e1, fun st hw hht hseg => ?_⟩
  obtain ⟨seg, ids, s1, -, -, -⟩ := applySegmentation_ok hf.width.1 hseg hf.count (fun m hm v hv => by
    obtain ⟨k, hk⟩ := List.getElem?_of_mem hm
    exact hK.segments _ _ m v (hf.modes k m hk) hv)
  have hcount : K.partitionCount f.header = ps.length := by
    unfold FrameKind.partitionCount
    rw [Nat.one_shiftLeft, hn]
  refine ⟨seg, ids, s1, ?_⟩
  unfold parseBody
  rw [hw, hht, e2]
  simp only
  rw [s1]
  simp only
  rw [hcount, c7]
  simp only
  rw [tokens_read hf _ hpos hn hp, c3]

end

theorem key_modes {f : Frame KeyFrameHeader} (hf : KeyFrameOk f) (t : ProbabilityTables) (k : Nat) (m : MBModes) (hm : f.modes[k]? = some m) :
    keyKind.writeMB f.header t (gridContext (macroblocks f.width) (macroblocks f.height) f.modes k) m =
      some (ModeSpec.keyBits f.header (gridContext (macroblocks f.width) (macroblocks f.height) f.modes k) m) := by
  refine (C106_key_modes f.header _ m (hf.modes k m hm) (fun n hn => ?_) fun n hn => ?_).1
  · obtain ⟨j, hj⟩ := gridAbove_mem (w := macroblocks f.width) (k := k) (a := f.modes) hn
    exact (hf.modes j n hj).intra
  · obtain ⟨j, hj⟩ := gridLeft_mem (w := macroblocks f.width) (k := k) (a := f.modes) hn
    exact (hf.modes j n hj).intra

/-- **C112**, key frames: a decoder in any state for the size of a key frame reads that frame from any bytes in which the format says it is. -/
theorem C112_key_frame (f : Frame KeyFrameHeader) (hf : KeyFrameOk f) (bytes : List UInt8)
    (hb : HoldsFrame true (firstBits (HeaderSpec.key f.header) (ModeSpec.keyBits f.header) f.width f.height f.modes)
      (ProbabilityTables.coeffProbUpdate {} f.header.tokenProbUpdate).coeffProbs (2 ^ f.header.log2Partitions) f bytes) :
    ∃ parts, splitFrame bytes f.width f.height false = .ok parts ∧ parts.keyFrame = true ∧
      ∀ st : DecoderState, st.width = f.width → st.height = f.height → ∃ st' parsed, st.applyKey parts = (st', .ok parsed) ∧ parsed.frame = f := by
  obtain ⟨parts, d, h2, h3, h5, h6, h7⟩ := frame_read (K := keyKind) keyKind_lawful hf {} (C108_key_header f.header hf.header).1
    (fun k m hm => key_modes hf _ k m hm) hb
  refine ⟨parts, h2, h3, fun st hw hh => ?_⟩
  have hseg : ∀ s, (DecoderState.ofKeyHeader f.header st.width st.height).segmentation = some s → s.Ok f.width f.height := by
    intro s hs
    obtain ⟨u, hu, rfl⟩ := Option.map_eq_some_iff.mp hs
    rw [hw, hh]
    exact Segmentation.new_ok (hf.header.updateSegmentation u hu)
  unfold DecoderState.applyKey
  rw [if_neg (by rw [h5]; decide), show parseKeyFrameHeader = keyKind.parseHeader from rfl, h6]
  simp only
  by_cases hr : f.header.refreshEntropyProbs = true
  · rw [if_pos hr]
    obtain ⟨seg, ids, -, h8⟩ := h7 { DecoderState.ofKeyHeader f.header st.width st.height with tables := keyKind.tables {} f.header } hw hh hseg
    exact ⟨_, _, h8, rfl⟩
  · rw [if_neg hr]
    obtain ⟨seg, ids, -, h8⟩ := h7 (DecoderState.ofKeyHeader f.header st.width st.height) hw hh hseg
    exact ⟨_, _, h8, rfl⟩

/-- **C112**, inter frames: the same, for a decoder whose probability tables are those that the frame was written with. -/
theorem C112_inter_frame (f : Frame InterFrameHeader) (hf : InterFrameOk f) (t : ProbabilityTables) (bytes : List UInt8)
    (hb : HoldsFrame false (firstBits (HeaderSpec.inter f.header) (ModeSpec.interBits f.header (t.update f.header)) f.width f.height f.modes)
      (t.update f.header).coeffProbs (2 ^ f.header.log2Partitions) f bytes) :
    ∃ parts, splitFrame bytes f.width f.height false = .ok parts ∧ parts.keyFrame = false ∧
      ∀ st : DecoderState, st.Ok → st.width = f.width → st.height = f.height → st.tables = t →
        ∃ st' parsed, st.applyInter parts = (st', .ok parsed) ∧ parsed.frame = f := by
  obtain ⟨parts, d, h2, h3, -, h6, h7⟩ := frame_read (K := interKind) interKind_lawful hf t (C108_inter_header f.header hf.header).1
    (fun k m hm => (C106_inter_modes f.header (t.update f.header) _ m (hf.modes k m hm)).1) hb
  refine ⟨parts, h2, h3, fun st hst hw hh ht => ?_⟩
  have hseg : ∀ s, (st.applyInterHeader f.header).segmentation = some s → s.Ok f.width f.height := by
    intro s hs
    obtain ⟨u, hu, rfl⟩ := Option.map_eq_some_iff.mp hs
    have hr := hf.header.updateSegmentation u hu
    cases hg : st.segmentation with
    | none => simp only; rw [hw, hh]; exact Segmentation.new_ok hr
    | some s => simp only; exact Segmentation.update_ok (by rw [← hw, ← hh]; exact hst.segmentation s hg) hr
  unfold DecoderState.applyInter
  rw [show parseInterFrameHeader = interKind.parseHeader from rfl, h6]
  simp only
  obtain ⟨seg, ids, -, h8⟩ := h7 (st.applyInterHeader f.header) hw hh hseg
  rw [ht]
  exact ⟨_, _, h8, rfl⟩

/-! ### Concrete cases -/

/-- The bytes that a frame is serialized to hold it, if the partitions are not too long. -/
theorem serialize_holds {H : Type} {K : FrameKind H} {headerOk : H → Prop} {mbOk : H → MBContext → MBModes → Prop} {f : Frame H}
    (hf : f.Ok headerOk mbOk) (t : ProbabilityTables) {header : Bits} {mb : MBContext → MBModes → Bits} (hh : K.writeHeader f.header = header)
    (hmb : ∀ k m, f.modes[k]? = some m → K.writeMB f.header (K.tables t f.header) (gridContext (macroblocks f.width) (macroblocks f.height) f.modes k) m =
      some (mb (gridContext (macroblocks f.width) (macroblocks f.height) f.modes k) m))
    (hfirst : ∀ b, K.serializeFirst (K.tables t f.header) f = some b → b.length < 2 ^ 19)
    (hparts : ∀ bs, K.serializeTokens (K.tables t f.header) f = some bs → ∀ b ∈ bs.dropLast, b.length < 2 ^ 24) :
    ∃ bytes, K.serialize t f = some bytes ∧ HoldsFrame K.key (firstBits header mb f.width f.height f.modes) (K.tables t f.header).coeffProbs
      (2 ^ K.log2Partitions f.header) f bytes := by
  obtain ⟨one, parts, h1, h2, h3, h4, h5, h6⟩ := serialize_parts hf t hh hmb
  obtain ⟨ps, e1, -, e3, -⟩ := tokens_round_trip (K := K) hf (K.tables t f.header)
  rw [h2] at e1
  cases e1
  exact ⟨_, h3, one, parts, rfl, ⟨h4.2, h4.1.2⟩, h5, hfirst one h1, hparts parts h2, fun e => e3 [] (by rw [e]; exact List.mem_cons_self) rfl,
    fun i p hp => ⟨(h6 i p hp).2, (h6 i p hp).1.2⟩⟩

/-- A key frame of four macroblocks in eight partitions meets the hypothesis. -/
example : ∃ bytes, KeyFrameOk exampleKeyFrame ∧
    HoldsFrame true (firstBits (HeaderSpec.key exampleKeyFrame.header) (ModeSpec.keyBits exampleKeyFrame.header) 17 20 exampleKeyFrame.modes)
      (ProbabilityTables.coeffProbUpdate {} exampleKeyFrame.header.tokenProbUpdate).coeffProbs (2 ^ exampleKeyFrame.header.log2Partitions)
      exampleKeyFrame bytes := by
  obtain ⟨bytes, -, h⟩ := serialize_holds (K := keyKind) exampleKeyFrame_ok {} (C108_key_header _ exampleKeyFrame_ok.header).1
    (fun k m hm => key_modes exampleKeyFrame_ok _ k m hm) exampleKeyFrame_first (shorter_of_all_list exampleKeyFrame_tokens)
  exact ⟨bytes, exampleKeyFrame_ok, h⟩

/-- There are many bytes for the same bits. -/
example : Holds [(true, 128), (false, 128), (true, 200)] [0xb9, 0x80] ∧ Holds [(true, 128), (false, 128), (true, 200)] [0xba, 0xff, 0x01] := by
  refine ⟨⟨?_, ?_⟩, ?_, ?_⟩ <;> decide +kernel

end Alfalfa
