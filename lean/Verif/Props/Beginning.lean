import Verif.Proof.Beginning
import Verif.Props.Conceal
import Verif.Props.Session

/-! C71, continued: the beginning of a frame of an encoder is never rejected. -/

namespace Alfalfa

/-- A complete frame whose coefficients are all in one partition, in a version and with a header that the decoder supports. -/
def OnePartition (width height : Nat) (bytes : List UInt8) : Prop :=
  ∃ c, splitFrame bytes width height false = .ok c ∧ c.experimental = false ∧
    ((c.keyFrame = true ∧ ∃ header rest, parseKeyFrameHeader (BoolDecoder.init c.firstPartition false) = some (header, rest) ∧ header.log2Partitions = 0) ∨
     (c.keyFrame = false ∧ ∃ header rest, parseInterFrameHeader (BoolDecoder.init c.firstPartition false) = some (header, rest) ∧ header.log2Partitions = 0))

theorem parseBody_supported {H : Type} {K : FrameKind H} {st : DecoderState} {t : ProbabilityTables} {c : FrameParts} {h : H} {d : BoolDecoder}
    (h0 : K.log2Partitions h = 0) : (parseBody K st t c h d).2 ≠ .error .unsupported := by
  unfold parseBody
  split
  · exact fun h => nomatch h
  · split
    · exact fun h => nomatch h
    · have h1 : K.partitionCount h = 1 := by unfold FrameKind.partitionCount; rw [h0]; rfl
      dsimp only
      rw [h1, dctPartitions_one_ok]
      dsimp only
      split
      · exact fun h => nomatch h
      · exact fun h => nomatch h

theorem common_take {p : List UInt8} {m : Nat} (hm : 182 ≤ m) :
    p.take m = p ∨ Common 180 (BoolDecoder.init p false) (BoolDecoder.init (p.take m) false) := by
  by_cases hl : p.length ≤ m
  · exact .inl (List.take_of_length_le hl)
  · right
    have h := Common.init (m := 180) (p.take m) (p.drop m) [] false false (by rw [List.length_take]; omega)
    rwa [List.take_append_drop, List.append_nil] at h

theorem applyKey_accepts {st : DecoderState} (hst : st.Ok) {c : FrameParts} (hx : c.experimental = false) {h : KeyFrameHeader} {e : BoolDecoder}
    (hp : parseKeyFrameHeader (BoolDecoder.init c.firstPartition false) = some (h, e)) (h0 : h.log2Partitions = 0) : ∃ p, (st.applyKey c).2 = .ok p := by
  have key : (st.applyKey c).2 ≠ .error .unsupported ∧ (st.applyKey c).2 ≠ .error .outOfRange := by
    unfold DecoderState.applyKey
    rw [hx, if_neg Bool.false_ne_true, hp]
    exact ⟨parseBody_supported (K := keyKind) h0, parseBody_single (K := keyKind) h0⟩
  rcases (C12_key_frame_total st hst c).2 with ⟨-, h⟩ | h | h | ⟨p, h, -⟩
  · rw [hx] at h; exact nomatch h
  · exact absurd h key.1
  · exact absurd h key.2
  · exact ⟨p, h⟩

theorem applyInter_accepts {st : DecoderState} (hst : st.Ok) {c : FrameParts} {h : InterFrameHeader} {e : BoolDecoder}
    (hp : parseInterFrameHeader (BoolDecoder.init c.firstPartition false) = some (h, e)) (h0 : h.log2Partitions = 0) : ∃ p, (st.applyInter c).2 = .ok p := by
  have key : (st.applyInter c).2 ≠ .error .unsupported ∧ (st.applyInter c).2 ≠ .error .outOfRange := by
    unfold DecoderState.applyInter
    rw [hp]
    exact ⟨parseBody_supported (K := interKind) h0, parseBody_single (K := interKind) h0⟩
  rcases (C12_inter_frame_total st hst c).2 with h | h | ⟨p, h, -⟩
  · exact absurd h key.1
  · exact absurd h key.2
  · exact ⟨p, h⟩

/-- **C71** (what is shown): whatever a decoder has decoded before, it accepts every beginning of at least 192 bytes of a frame of its size whose
coefficients are in one partition.  (A packet carries up to 1400 bytes.) -/
theorem C71_beginning_accepted (R : Renderer) (d : Decoder) (hd : d.Ok) (bytes : List UInt8) (hb : OnePartition d.state.width d.state.height bytes) (n : Nat)
    (hn : 192 ≤ n) : ∃ out, (d.getFrameOutputWith R true (bytes.take n)).2 = .ok out := by
  obtain ⟨c, hc, hx, hb⟩ := hb
  obtain ⟨c', e1, e2, e3, m, e4, e5⟩ := splitFrame_take hc (n := n) (by omega)
  rw [outputWith_eq, e1]
  dsimp only
  unfold Decoder.decodeParts
  rw [e2]
  have ht := common_take (p := c.firstPartition) (m := m) (by omega)
  rw [← e5] at ht
  rcases hb with ⟨hk, h, e, hp, h0⟩ | ⟨hk, h, e, hp, h0⟩
  · have hh : ∃ h' e', parseKeyFrameHeader (BoolDecoder.init c'.firstPartition false) = some (h', e') ∧ h'.log2Partitions = 0 := by
      rcases ht with ht | ht
      · exact ⟨h, e, by rw [ht]; exact hp, h0⟩
      · obtain ⟨h', e', q1, q2⟩ := Early.keyHeader ht hp
        exact ⟨h', e', q1, q2.trans h0⟩
    obtain ⟨h', e', q1, q2⟩ := hh
    obtain ⟨p, hp⟩ := applyKey_accepts hd.state (e3.trans hx) q1 q2
    rw [if_pos hk]
    rcases ha : d.state.applyKey c' with ⟨st, y | f⟩
    · rw [ha] at hp; exact nomatch hp
    · exact ⟨_, rfl⟩
  · have hh : ∃ h' e', parseInterFrameHeader (BoolDecoder.init c'.firstPartition false) = some (h', e') ∧ h'.log2Partitions = 0 := by
      rcases ht with ht | ht
      · exact ⟨h, e, by rw [ht]; exact hp, h0⟩
      · obtain ⟨h', e', q1, q2⟩ := Early.interHeader ht hp
        exact ⟨h', e', q1, q2.trans h0⟩
    obtain ⟨h', e', q1, q2⟩ := hh
    obtain ⟨p, hp⟩ := applyInter_accepts hd.state q1 q2
    rw [hk, if_neg Bool.false_ne_true, e3, hx, if_pos Bool.false_ne_true]
    rcases ha : d.state.applyInter c' with ⟨st, y | f⟩
    · rw [ha] at hp; exact nomatch hp
    · exact ⟨_, rfl⟩

/-! ### The frames of an encoder -/

/-- The number of macroblocks of a picture. -/
def macroblockCount (width height : Nat) : Nat := (width + 15) / 16 * ((height + 15) / 16)

theorem frameTag_length (a b c d : Bool) (n : Nat) : (frameTag a b c d n).length = 3 := rfl

theorem keyFramePrefix_length (w h : Nat) : (keyFramePrefix w h).length = 7 := rfl

theorem serializeFrame_length {H : Type} {K : FrameKind H} {headerOk : H → Prop} {mbOk : H → MBContext → MBModes → Prop} {f : Frame H} (hf : f.Ok headerOk mbOk)
    {t : ProbabilityTables} (h0 : K.log2Partitions f.header = 0) (h1 : ∀ b, K.serializeFirst (K.tables t f.header) f = some b → b.length < 2 ^ 19)
    {bytes : List UInt8} (h : K.serialize t f = some bytes) : 0 < bytes.length ∧ 8 * bytes.length ≤ 4194408 + 50975 * macroblockCount f.width f.height := by
  unfold FrameKind.serialize at h
  obtain ⟨first, k1, h⟩ := Option.bind_eq_some_iff.1 h
  obtain ⟨parts, k2, h⟩ := Option.bind_eq_some_iff.1 h
  have l1 := h1 first k1
  have l2 := C68_coefficients hf k2
  have l3 := one_partition h0 k2
  have l4 : 8 * parts.flatten.length ≤ 32 + 50975 * macroblockCount f.width f.height := by
    rcases parts with _ | ⟨b, _ | ⟨b', rest⟩⟩
    · simp
    · simpa [macroblockCount] using l2 b (by simp)
    · simp at l3
  unfold makeFrame at h
  split at h
  · exact nomatch h
  · split at h
    · exact nomatch h
    · rw [l3] at h
      cases h
      simp only [List.map_nil, List.flatten_nil, List.nil_append, List.length_append, frameTag_length]
      have : (if K.key then keyFramePrefix f.width f.height else []).length ≤ 7 := by
        split
        · exact Nat.le_of_eq (keyFramePrefix_length ..)
        · exact Nat.zero_le _
      generalize macroblockCount f.width f.height = n at *
      omega

/-- What a frame of an encoder is like. -/
structure EncodedFrame (width height : Nat) (bytes : List UInt8) : Prop where
  one : OnePartition width height bytes
  nonempty : 0 < bytes.length
  small : 8 * bytes.length ≤ 4194408 + 50975 * macroblockCount width height

theorem writeKey_one {R : Renderer} {e e' : Encoder} {f : Frame KeyFrameHeader} (hf : KeyEmittable e f) (h0 : f.header.log2Partitions = 0)
    {bytes : List UInt8} (h : e.writeKey R f = some (e', bytes)) : EncodedFrame e.state.width e.state.height bytes := by
  obtain ⟨b, parts, d, h1, h2, h3, -, h5, h6, -⟩ := parse_serialized keyKind_lawful hf.ok {} hf.first hf.tokens
  have htab : keyKind.tables (e.updateStateKey f.header).tables f.header = keyKind.tables {} f.header := by
    unfold Encoder.updateStateKey
    by_cases hr : f.header.refreshEntropyProbs = true
    · rw [if_pos hr]; exact keyTables_idem _ _
    · rw [if_neg hr]; rfl
  unfold Encoder.writeKey at h
  obtain ⟨b', k1, k2⟩ := Option.bind_eq_some_iff.1 h
  rw [serialize_congr _ htab, h1] at k1
  cases k1
  cases k2
  obtain ⟨l1, l2⟩ := serializeFrame_length (K := keyKind) hf.ok h0 hf.first h1
  rw [hf.width, hf.height] at h2 l2
  exact ⟨⟨parts, h2, h5, .inl ⟨h3, f.header, d, h6, h0⟩⟩, l1, l2⟩

theorem writeInter_one {R : Renderer} {e e' : Encoder} {f : Frame InterFrameHeader} (hf : InterEmittable e f) (h0 : f.header.log2Partitions = 0)
    {bytes : List UInt8} (h : e.writeInter R f = some (e', bytes)) : EncodedFrame e.state.width e.state.height bytes := by
  obtain ⟨b, parts, d, h1, h2, h3, -, h5, h6, -⟩ := parse_serialized interKind_lawful hf.ok e.state.tables hf.first hf.tokens
  have htab : interKind.tables (e.updateStateInter f.header).tables f.header = interKind.tables e.state.tables f.header := by
    show interKind.tables (if f.header.refreshEntropyProbs then interKind.tables e.state.tables f.header else e.state.tables) f.header = _
    by_cases hr : f.header.refreshEntropyProbs = true
    · rw [if_pos hr]; exact interTables_idem _ _
    · rw [if_neg hr]
  unfold Encoder.writeInter at h
  obtain ⟨b', k1, k2⟩ := Option.bind_eq_some_iff.1 h
  rw [serialize_congr _ htab, h1] at k1
  cases k1
  cases k2
  obtain ⟨l1, l2⟩ := serializeFrame_length (K := interKind) hf.ok h0 hf.first h1
  rw [hf.width, hf.height] at h2 l2
  exact ⟨⟨parts, h2, h5, .inr ⟨h3, f.header, d, h6, h0⟩⟩, l1, l2⟩

theorem finishKey_one {width height : Nat} (hf : Fits width height) {s : Session} (hs : s.Ready width height) {w : Work} (hw : w.Ok width height) {o : Raster}
    (ho : o.Ok width height) {qi : Nat} (hq : qi ≤ 127) {x : Session × List UInt8 × Raster} (h : s.finishKey codeRenderer w o qi = some x) :
    EncodedFrame width height x.2.1 := by
  obtain ⟨f, shown, r1, r2, r3, r4, r5, r6, r7, r8, em, r9⟩ := rasterKey_ok hf hs hw ho hq
  have em := em _ hs.wide hs.high
  unfold Session.finishKey Session.writeKey at h
  rw [r8 false] at h
  obtain ⟨y, k1, k2⟩ := Option.bind_eq_some_iff.1 h
  cases k1
  obtain ⟨z, k3, k4⟩ := Option.bind_eq_some_iff.1 k2
  obtain ⟨u, k5, k6⟩ := Option.bind_eq_some_iff.1 k3
  cases k6
  cases k4
  have := writeKey_one em r1.partitions k5
  rwa [hs.wide, hs.high] at this

theorem finishInter_one {width height : Nat} (hf : Fits width height) {s : Session} (hs : s.Underway width height) {w : Work} (hw : w.Ok width height)
    {o : Raster} (ho : o.Ok width height) {qi : Nat} (hq : qi ≤ 127) {x : Session × List UInt8 × Raster} (h : s.finishInter codeRenderer w o qi = some x) :
    EncodedFrame width height x.2.1 := by
  obtain ⟨f, shown, r1, r2, r3, r4, r5, r6, r8, em, r9⟩ := rasterInter_ok hf hs hw ho hq
  unfold Session.finishInter Session.writeInter at h
  rw [r8 false] at h
  obtain ⟨y, k1, k2⟩ := Option.bind_eq_some_iff.1 h
  cases k1
  obtain ⟨z, k3, k4⟩ := Option.bind_eq_some_iff.1 k2
  obtain ⟨u, k5, k6⟩ := Option.bind_eq_some_iff.1 k3
  cases k6
  cases k4
  have := writeInter_one em r1.partitions k5
  rwa [hs.wide, hs.high] at this

/-- The frames of an encoder that is asked for a quantizer index are of that kind. -/
theorem encodeWithQuantizer_one {width height : Nat} (hf : Fits width height) {s : Session} (hs : s.Ready width height)
    (hu : s.hasState = true → s.Underway width height) {w : Work} (hw : w.Ok width height) {o : Raster} (ho : o.Ok width height) {qi : Nat} (hq : qi ≤ 127)
    {s' : Session} {bytes : List UInt8} {shown : Raster} (h : s.encodeWithQuantizer codeRenderer w o qi = .ok (s', bytes, shown)) :
    EncodedFrame width height bytes := by
  unfold Session.encodeWithQuantizer at h
  rw [hs.fits ho, Bool.not_true, if_neg Bool.false_ne_true] at h
  by_cases hn : s.hasState = true
  · rw [if_pos hn] at h
    rcases hx : s.finishInter codeRenderer w o qi with _ | x
    · rw [hx] at h; exact nomatch h
    · rw [hx] at h
      cases h
      exact finishInter_one hf (hu hn) hw ho hq hx
  · rw [if_neg hn] at h
    rcases hx : Session.finishKey codeRenderer w { s with hasState := true } o qi with _ | x
    · rw [hx] at h; exact nomatch h
    · rw [hx] at h
      cases h
      exact finishKey_one hf (s := { s with hasState := true }) ⟨hs.wide, hs.high, hs.key, hs.inter, hs.last⟩ hw ho hq hx

/-! ### Example -/

/-- A decoder of pictures of 40 by 30 pixels. -/
def otherDecoder : Decoder := ⟨{ width := 40, height := 30 }, ⟨grayRaster 40 30 1, grayRaster 40 30 2, grayRaster 40 30 3⟩⟩

theorem otherDecoder_ok : otherDecoder.Ok :=
  ⟨⟨by decide, by decide, fun _ h => (nomatch h), fun _ h => (nomatch h)⟩, ⟨grayRaster_ok .., grayRaster_ok .., grayRaster_ok ..⟩⟩

/-- The encoder makes a frame, and a decoder with other references accepts its first 192 bytes. -/
example : ∃ bytes, EncodedFrame 40 30 bytes ∧
    ∃ out, (otherDecoder.getFrameOutputWith codeRenderer true (bytes.take 192)).2 = .ok out := by
  have hw : Work.Ok 40 30 ⟨exampleKeyChoices, exampleInterChoices, grayRaster 40 30 0⟩ :=
    ⟨exampleKeyChoices_ok 40 30, exampleInterChoices_ok (by decide) (by decide), grayRaster_ok ..⟩
  obtain ⟨base, hb⟩ : ∃ base : Session, base =
    { encoder := ⟨{ width := 40, height := 30 }, ⟨grayRaster 40 30 9, grayRaster 40 30 8, grayRaster 40 30 7⟩⟩, hasState := false
      keyHeader := emptyKeyHeader, interHeader := emptyInterHeader, realtime := true, lastQi := none } := ⟨_, rfl⟩
  have hready : base.Ready 40 30 := by subst hb; exact ⟨rfl, rfl, emptyKeyHeader_reusable, emptyInterHeader_reusable, fun q h => nomatch h⟩
  have hn : base.hasState = false := by subst hb; rfl
  have hfits : Fits 40 30 := ⟨by decide, by decide, by decide⟩
  obtain ⟨s', bytes, shown, h, -⟩ := firstCall (⟨0, fun _ _ => 0⟩ : Meter Int) hfits hready hn
    (c := .quantizer (grayRaster 40 30 77) 30 ⟨exampleKeyChoices, exampleInterChoices, grayRaster 40 30 0⟩) ⟨grayRaster_ok .., by decide, hw⟩
  have he := encodeWithQuantizer_one hfits hready (fun h => by rw [hn] at h; exact nomatch h) hw (grayRaster_ok ..) (by decide) h
  exact ⟨bytes, he, C71_beginning_accepted codeRenderer otherDecoder otherDecoder_ok bytes he.one 192 le_rfl⟩

end Alfalfa
