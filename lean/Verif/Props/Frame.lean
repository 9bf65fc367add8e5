import Verif.Proof.DecoderState
import Verif.Props.Header
import Verif.Props.Tokens
import Verif.Props.Macroblock

/-! Whole frames: C09 (round trip), C12 (parsing arbitrary bytes), C57 (links between Y2 blocks). -/

namespace Alfalfa

theorem parse_serialized {H : Type} {K : FrameKind H} {headerOk : H → Prop} {mbOk : H → MBContext → MBModes → Prop}
    (hK : K.Lawful headerOk mbOk) {f : Frame H} (hf : f.Ok headerOk mbOk) (t : ProbabilityTables)
    (hfirst : ∀ b, K.serializeFirst (K.tables t f.header) f = some b → b.length < 2 ^ 19)
    (hparts : ∀ bs, K.serializeTokens (K.tables t f.header) f = some bs → ∀ b ∈ bs.dropLast, b.length < 2 ^ 24) :
    ∃ bytes parts d, K.serialize t f = some bytes ∧ splitFrame bytes f.width f.height false = .ok parts ∧ parts.keyFrame = K.key ∧
      parts.showFrame = f.show' ∧ parts.experimental = false ∧
      K.parseHeader (BoolDecoder.init parts.firstPartition false) = some (f.header, d) ∧
      ∀ st : DecoderState, st.width = f.width → st.height = f.height → (∀ s, st.segmentation = some s → s.Ok f.width f.height) →
        ∃ seg ids, applySegmentation f.width f.modes st.segmentation = some (seg, ids) ∧
          parseBody K st (K.tables t f.header) parts f.header d = ({ st with segmentation := seg }, .ok { frame := f, segmentIds := ids }) := by
  obtain ⟨first, h1, h2⟩ := first_round_trip hK hf (K.tables t f.header)
  obtain ⟨ps, h3, h4, h5, h6⟩ := tokens_round_trip (K := K) hf (K.tables t f.header)
  have hne : ps ≠ [] := by rw [← List.length_pos_iff, h4]; exact partitionCount_pos _ _
  obtain ⟨bytes, parts, c1, c2, c3, c4, c5, c6, c7, c8⟩ := C10_container_round_trip K.key f.show' false false false f.width f.height
    first ps hf.width.2 hf.height.2 hne (fun h => nomatch h) (hfirst first h1) (hparts ps h3)
    (fun e => h5 [] (by rw [e]; exact List.mem_cons_self) rfl)
  obtain ⟨d, d', e1, e2⟩ := h2 false
  refine ⟨bytes, parts, d, ?_, c2, c3, c4, c5, by rw [c6]; exact e1, ?_⟩
  · unfold FrameKind.serialize
    simp only
    rw [h1, h3]
    show (makeFrame K.key f.show' false false f.width f.height first ps).toOption = some bytes
    rw [c1]; rfl
  · intro st hw hh hseg
    obtain ⟨seg, ids, s1, -, -, -⟩ := applySegmentation_ok hf.width.1 hseg hf.count (fun m hm v hv => by
      obtain ⟨k, hk⟩ := List.getElem?_of_mem hm
      exact hK.segments _ _ m v (hf.modes k m hk) hv)
    refine ⟨seg, ids, s1, ?_⟩
    unfold parseBody
    rw [hw, hh, e2]
    simp only
    rw [s1]
    simp only
    rw [← h4, c8]
    simp only
    rw [h6, c4]

/-- **C09**, key frames.  Any key frame the format can carry, of any size and with any number of coefficient partitions, is
serialized, split and parsed, by a decoder in any state for that size, into the same frame: visibility, header, every
macroblock and every coefficient.  The two bounds are those of the length fields of the container (see C10). -/
theorem C09_key_frame_round_trip (f : Frame KeyFrameHeader) (hf : KeyFrameOk f)
    (hfirst : ∀ b, keyKind.serializeFirst (keyKind.tables {} f.header) f = some b → b.length < 2 ^ 19)
    (hparts : ∀ bs, keyKind.serializeTokens (keyKind.tables {} f.header) f = some bs → ∀ b ∈ bs.dropLast, b.length < 2 ^ 24) :
    ∃ bytes parts, keyKind.serialize {} f = some bytes ∧ splitFrame bytes f.width f.height false = .ok parts ∧ parts.keyFrame = true ∧
      ∀ st : DecoderState, st.width = f.width → st.height = f.height → ∃ st' parsed, st.applyKey parts = (st', .ok parsed) ∧ parsed.frame = f := by
  obtain ⟨bytes, parts, d, h1, h2, h3, -, h5, h6, h7⟩ := parse_serialized keyKind_lawful hf {} hfirst hparts
  refine ⟨bytes, parts, h1, h2, h3, fun st hw hh => ?_⟩
  have hseg : ∀ s, (DecoderState.ofKeyHeader f.header st.width st.height).segmentation = some s → s.Ok f.width f.height := by
    intro s hs
    obtain ⟨u, hu, rfl⟩ := Option.map_eq_some_iff.mp hs
    rw [hw, hh]
    exact Segmentation.new_ok (hf.header.updateSegmentation u hu)
  unfold DecoderState.applyKey
  rw [if_neg (by rw [h5]; decide), show parseKeyFrameHeader = keyKind.parseHeader from rfl, h6]
  simp only
  by_cases hr : f.header.refreshEntropyProbs = true
  · rw [if_pos hr]
    obtain ⟨seg, ids, -, h8⟩ := h7 { DecoderState.ofKeyHeader f.header st.width st.height with tables := keyKind.tables {} f.header } hw hh hseg
    exact ⟨_, _, h8, rfl⟩
  · rw [if_neg hr]
    obtain ⟨seg, ids, -, h8⟩ := h7 (DecoderState.ofKeyHeader f.header st.width st.height) hw hh hseg
    exact ⟨_, _, h8, rfl⟩

/-- **C09**, inter frames: the same, for a decoder whose probability tables are those the frame was serialized with. -/
theorem C09_inter_frame_round_trip (f : Frame InterFrameHeader) (hf : InterFrameOk f) (t : ProbabilityTables)
    (hfirst : ∀ b, interKind.serializeFirst (interKind.tables t f.header) f = some b → b.length < 2 ^ 19)
    (hparts : ∀ bs, interKind.serializeTokens (interKind.tables t f.header) f = some bs → ∀ b ∈ bs.dropLast, b.length < 2 ^ 24) :
    ∃ bytes parts, interKind.serialize t f = some bytes ∧ splitFrame bytes f.width f.height false = .ok parts ∧ parts.keyFrame = false ∧
      ∀ st : DecoderState, st.Ok → st.width = f.width → st.height = f.height → st.tables = t →
        ∃ st' parsed, st.applyInter parts = (st', .ok parsed) ∧ parsed.frame = f := by
  obtain ⟨bytes, parts, d, h1, h2, h3, -, h5, h6, h7⟩ := parse_serialized interKind_lawful hf t hfirst hparts
  refine ⟨bytes, parts, h1, h2, h3, fun st hst hw hh ht => ?_⟩
  have hseg : ∀ s, (st.applyInterHeader f.header).segmentation = some s → s.Ok f.width f.height := by
    intro s hs
    obtain ⟨u, hu, rfl⟩ := Option.map_eq_some_iff.mp hs
    have hr := hf.header.updateSegmentation u hu
    cases hg : st.segmentation with
    | none => simp only; rw [hw, hh]; exact Segmentation.new_ok hr
    | some s => simp only; exact Segmentation.update_ok (by rw [← hw, ← hh]; exact hst.segmentation s hg) hr
  unfold DecoderState.applyInter
  rw [show parseInterFrameHeader = interKind.parseHeader from rfl, h6]
  simp only
  obtain ⟨seg, ids, -, h8⟩ := h7 (st.applyInterHeader f.header) hw hh hseg
  rw [ht]
  exact ⟨_, _, h8, rfl⟩

/-! A key frame of 2x2 macroblocks (the picture is 17x20) with eight coefficient partitions, segmentation and probability
updates, whose last macroblock carries coefficients, and an inter frame of one macroblock. -/

def exampleKeyFrame : Frame KeyFrameHeader where
  show' := true
  width := 17
  height := 20
  header := { exampleKeyHeader with probSkipFalse := some 200 }
  modes := [exampleKeyMB, exampleKeyMB, exampleKeyMB, { exampleKeyMB with skip := some false, yMode := V_PRED, bModes := fun _ => B_VE_PRED }]
  residues := [{}, {}, {}, { y2 := { coeffs := fun i => if i.val = 3 then -40 else 0, hasNonzero := true }
                             y := fun i => if i.val = 5 then exampleBlock else {}, nonzero := true }]

theorem exampleBlock_ok : exampleBlock.Representable .yAfterY2 := ⟨by decide +kernel, fun _ => by decide +kernel, by decide +kernel⟩

theorem exampleKeyFrame_ok : KeyFrameOk exampleKeyFrame where
  header := { exampleKeyHeader_inRange with probSkipFalse := by rintro _ ⟨⟩; decide }
  width := by decide
  height := by decide
  count := by decide
  countResidues := by decide
  modes := by
    intro k m hm
    have h1 := exampleKeyMB_ok
    rcases k with _ | _ | _ | _ | k
    · cases hm; exact h1
    · cases hm; exact h1
    · cases hm; exact h1
    · cases hm
      refine ⟨⟨h1.pre.segmentPresent, h1.pre.segmentRange, rfl⟩, ?_, ⟨rfl, rfl, rfl, rfl, rfl, fun _ => rfl, fun _ => rfl⟩⟩
      exact ⟨by decide, by decide, fun h => absurd h (by decide), fun h => absurd h (by decide), fun _ _ => rfl,
        fun h => absurd h (by decide), fun h => absurd h (by decide)⟩
    · exact nomatch hm
  residues := by
    have h0 : Residue.Ok exampleKeyMB {} := ⟨fun _ => rfl, fun _ => rfl, representable_default _, fun _ => representable_default _,
      fun _ => representable_default _, fun _ => representable_default _, by decide +kernel⟩
    intro k m r hm hr
    rcases k with _ | _ | _ | _ | k
    · cases hm; cases hr; exact h0
    · cases hm; cases hr; exact h0
    · cases hm; cases hr; exact h0
    · cases hm; cases hr
      refine ⟨fun h => absurd h (by decide), fun h => absurd h (by decide), ⟨by decide +kernel, fun h => absurd h (by decide), by decide +kernel⟩,
        fun i => ?_, fun _ => representable_default _, fun _ => representable_default _, by decide +kernel⟩
      rw [if_neg (by decide)]
      show (if i.val = 5 then exampleBlock else {}).Representable _
      split
      · exact exampleBlock_ok
      · exact representable_default _
    · exact nomatch hm

theorem shorter_of_all_list {x : Option (List (List UInt8))} {n : Nat} (h : x.all (fun bs => bs.all fun b => decide (b.length < n)) = true) :
    ∀ bs, x = some bs → ∀ b ∈ bs.dropLast, b.length < n := by
  rintro bs rfl b hb
  exact of_decide_eq_true (List.all_eq_true.mp h b (List.mem_of_mem_dropLast hb))

theorem addOneRev_length : ∀ (a b : List UInt8), addOneRev a = some b → b.length = a.length
  | [], b, h => nomatch h
  | x :: a, b, h => by
    rw [addOneRev] at h
    split at h
    · obtain ⟨c, hc, rfl⟩ := Option.map_eq_some_iff.mp h
      rw [List.length_cons, addOneRev_length a c hc, List.length_cons]
    · cases h; rfl

theorem put_length {e e' : BoolEncoder} {v : Bool} {p : Prob} (h : e.put v p = some e') : e'.output.length ≤ e.output.length + 1 := by
  have key : ∀ out : List UInt8, out.length = e.output.length → ∀ x : UInt8, (out ++ [x]).length ≤ e.output.length + 1 := by
    intro out ho x
    rw [List.length_append, ho, List.length_singleton]
  unfold BoolEncoder.put at h
  cases v <;> (
    simp only [bind, Option.bind_eq_some_iff, if_true, Bool.false_eq_true, if_false] at h
    obtain ⟨s, -, h⟩ := h
    split at h
    · split at h
      · exact nomatch h
      · split at h
        · obtain ⟨out, ho, h⟩ := Option.bind_eq_some_iff.mp h
          unfold addOneToOutput at ho
          obtain ⟨c, hc, rfl⟩ := Option.map_eq_some_iff.mp ho
          have he := Option.some.inj h
          rw [← he]
          exact key _ (by rw [List.length_reverse, addOneRev_length _ _ hc, List.length_reverse]) _
        · rw [Option.bind_some] at h
          have he := Option.some.inj h
          rw [← he]
          exact key _ rfl _
    · have he := Option.some.inj h
      rw [← he]
      exact Nat.le_succ _)

theorem putAll_length (s : List (Bool × Prob)) : ∀ (e e' : BoolEncoder), e.putAll s = some e' → e'.output.length ≤ e.output.length + s.length := by
  induction s with
  | nil =>
    intro e e' h
    rw [BoolEncoder.putAll] at h; rw [Option.some.inj h]; exact Nat.le_refl _
  | cons x s ih =>
    obtain ⟨b, p⟩ := x
    intro e e' h
    rw [BoolEncoder.putAll] at h
    obtain ⟨e1, h1, h2⟩ := Option.bind_eq_some_iff.mp h
    have h3 := put_length h1
    have h4 := ih e1 e' h2
    rw [List.length_cons]; omega

/-- A partition has at most one byte for each coded bit, and 32 more. -/
theorem encodeBits_length {s : List (Bool × Prob)} {bytes : List UInt8} (h : encodeBits s = some bytes) : bytes.length ≤ s.length + 32 := by
  unfold encodeBits at h
  obtain ⟨e, h1, h2⟩ := Option.bind_eq_some_iff.mp h
  obtain ⟨e', h3, rfl⟩ := Option.map_eq_some_iff.mp h2
  have h4 := putAll_length _ _ _ h1
  have h5 := putAll_length _ _ _ h3
  rw [List.length_replicate] at h5
  rw [show ({} : BoolEncoder).output.length = 0 from rfl] at h4
  omega

theorem exampleKeyFrame_bits : (writeMBs (keyKind.writeMB exampleKeyFrame.header (keyKind.tables {} exampleKeyFrame.header))
    (macroblockDimension exampleKeyFrame.width) (macroblockDimension exampleKeyFrame.height) exampleKeyFrame.modes 0 exampleKeyFrame.modes).all
    (fun b => decide ((keyKind.writeHeader exampleKeyFrame.header).length + b.length < 10000)) = true := by decide +kernel

theorem exampleKeyFrame_first : ∀ b, keyKind.serializeFirst (keyKind.tables {} exampleKeyFrame.header) exampleKeyFrame = some b →
    b.length < 2 ^ 19 := by
  intro b hb
  unfold FrameKind.serializeFirst at hb
  obtain ⟨x, h1, h2⟩ := Option.bind_eq_some_iff.mp hb
  have h3 := exampleKeyFrame_bits
  rw [h1] at h3
  simp only [Option.all_some, decide_eq_true_eq] at h3
  have h5 := encodeBits_length h2
  rw [List.length_append] at h5
  omega

theorem exampleKeyFrame_tokens : (keyKind.serializeTokens (keyKind.tables {} exampleKeyFrame.header) exampleKeyFrame).all
    (fun bs => bs.all fun b => decide (b.length < 2 ^ 24)) = true := by decide +kernel

example : ∃ bytes parts, keyKind.serialize {} exampleKeyFrame = some bytes ∧ splitFrame bytes 17 20 false = .ok parts ∧ parts.keyFrame = true ∧
    ∀ st : DecoderState, st.width = 17 → st.height = 20 → ∃ st' parsed, st.applyKey parts = (st', .ok parsed) ∧ parsed.frame = exampleKeyFrame :=
  C09_key_frame_round_trip exampleKeyFrame exampleKeyFrame_ok exampleKeyFrame_first
    (shorter_of_all_list exampleKeyFrame_tokens)

/-- Two macroblocks side by side, the second skipping nothing and carrying coefficients. -/
def exampleInterFrame : Frame InterFrameHeader where
  show' := false
  width := 32
  height := 16
  header := exampleInterHeader
  modes := [{ segmentIdUpdate := some 1, isInter := true, sel1 := some false, yMode := ZEROMV },
    { segmentIdUpdate := some 3, isInter := true, sel1 := some true, sel2 := some true, yMode := ZEROMV }]
  residues := [{}, { y := fun i => if i.val = 5 then exampleBlock else {}, nonzero := true }]

theorem exampleInterFrame_ok : InterFrameOk exampleInterFrame where
  header := exampleInterHeader_inRange
  width := by decide
  height := by decide
  count := by decide
  countResidues := by decide
  modes := by
    intro k m hm
    have key : ∀ m : MBModes, m.segmentIdUpdate.isSome = true → (∀ v, m.segmentIdUpdate = some v → v < 4) → m.skip = none → m.isInter = true →
        m.flipped = false → m.sel1.isSome = true → (m.sel2.isSome = true ↔ m.sel1 = some true) → ¬ (m.sel1 = some true ∧ m.sel2 = some false) →
        m.yMode = ZEROMV → m.uvMode = 0 → (∀ i, m.mvs i = {}) → m.partitionId = none → (∀ i, m.bModes i = 0) → (∀ i, m.uMvs i = {}) →
        ∀ c, m.InterFrameOk exampleInterHeader c := by
      intro m h1 h2 h3 h4 h5 h6 h7 h8 h9 h10 h11 h12 h13 h14 c
      obtain ⟨s, hs, -⟩ := census_bounded m.flipped c
      refine ⟨⟨⟨fun _ => ⟨_, rfl, rfl⟩, fun _ => h1⟩, h2, by rw [h3]; rfl⟩, Or.inr ⟨s, hs, ?_⟩⟩
      refine ⟨h4, h6, h7, ?_, by rw [h9]; decide, h10, fun h => ?_, fun h => ?_, fun _ => h11, fun h => ?_, fun _ => ⟨h12, h13⟩, fun h => ?_, fun i => ?_⟩
      · rw [h5]
        constructor
        · intro h; exact nomatch h
        · rintro (⟨a, b, -⟩ | ⟨-, -, h⟩)
          · exact absurd ⟨a, b⟩ h8
          · exact nomatch h
      · rw [h9] at h; exact absurd h (by decide)
      · rw [h9] at h; exact absurd h (by decide)
      · rw [h9] at h; exact absurd h (by decide)
      · rw [h9] at h; exact absurd h (by decide)
      · rw [h14 i, show m.mvs = fun _ => {} from funext h11]
        revert i; decide +kernel
    rcases k with _ | _ | k
    · cases hm; exact key _ rfl (by rintro _ ⟨⟩; decide) rfl rfl rfl rfl (by decide) (by decide) rfl rfl (fun _ => rfl) rfl (fun _ => rfl) (fun _ => rfl) _
    · cases hm; exact key _ rfl (by rintro _ ⟨⟩; decide) rfl rfl rfl rfl (by decide) (by decide) rfl rfl (fun _ => rfl) rfl (fun _ => rfl) (fun _ => rfl) _
    · exact nomatch hm
  residues := by
    intro k m r hm hr
    rcases k with _ | _ | k
    · cases hm; cases hr
      exact ⟨fun _ => rfl, fun _ => rfl, representable_default _, fun _ => representable_default _,
        fun _ => representable_default _, fun _ => representable_default _, by decide +kernel⟩
    · cases hm; cases hr
      refine ⟨fun h => absurd h (by decide), fun h => absurd h (by decide), representable_default _, fun i => ?_, fun _ => representable_default _,
        fun _ => representable_default _, by decide +kernel⟩
      rw [if_neg (by decide)]
      show (if i.val = 5 then exampleBlock else {}).Representable _
      split
      · exact exampleBlock_ok
      · exact representable_default _
    · exact nomatch hm

theorem exampleInterFrame_bits : (writeMBs (interKind.writeMB exampleInterFrame.header (interKind.tables {} exampleInterFrame.header))
    (macroblockDimension exampleInterFrame.width) (macroblockDimension exampleInterFrame.height) exampleInterFrame.modes 0 exampleInterFrame.modes).all
    (fun b => decide ((interKind.writeHeader exampleInterFrame.header).length + b.length < 10000)) = true := by decide +kernel

theorem exampleInterFrame_first : ∀ b, interKind.serializeFirst (interKind.tables {} exampleInterFrame.header) exampleInterFrame = some b →
    b.length < 2 ^ 19 := by
  intro b hb
  unfold FrameKind.serializeFirst at hb
  obtain ⟨x, h1, h2⟩ := Option.bind_eq_some_iff.mp hb
  have h3 := exampleInterFrame_bits
  rw [h1] at h3
  simp only [Option.all_some, decide_eq_true_eq] at h3
  have h5 := encodeBits_length h2
  rw [List.length_append] at h5
  omega

theorem exampleInterFrame_tokens : (interKind.serializeTokens (interKind.tables {} exampleInterFrame.header) exampleInterFrame).all
    (fun bs => bs.all fun b => decide (b.length < 2 ^ 24)) = true := by decide +kernel

example : ∃ bytes parts, interKind.serialize {} exampleInterFrame = some bytes ∧ splitFrame bytes 32 16 false = .ok parts ∧ parts.keyFrame = false ∧
    ∀ st : DecoderState, st.Ok → st.width = 32 → st.height = 16 → st.tables = {} →
      ∃ st' parsed, st.applyInter parts = (st', .ok parsed) ∧ parsed.frame = exampleInterFrame :=
  C09_inter_frame_round_trip exampleInterFrame exampleInterFrame_ok {} exampleInterFrame_first (shorter_of_all_list exampleInterFrame_tokens)

/-- A fresh decoder is in a possible state. -/
example : ({ width := 32, height := 16 } : DecoderState).Ok := ⟨by decide, by decide, (fun _ h => nomatch h), fun _ h => nomatch h⟩

/-! ### C12 -/

theorem except_bind_error {ε α β : Type} {x : Except ε α} {f : α → Except ε β} {e : ε} (h : (x >>= f) = .error e) :
    x = .error e ∨ ∃ a, x = .ok a ∧ f a = .error e := by
  cases x with
  | error e' => injection (h : (Except.error e' : Except ε β) = .error e) with h; exact Or.inl (by rw [h])
  | ok a => exact Or.inr ⟨a, rfl, h⟩

theorem chunkBits_error {c : List UInt8} {o l : Nat} {e : FrameError} (h : chunkBits c o l = .error e) : e = .outOfRange := by
  unfold chunkBits at h
  simp only at h
  split at h
  · injection h with h; exact h.symm
  · exact nomatch h

theorem subChunk_error {c : List UInt8} {o l : Nat} {e : FrameError} (h : subChunk c o l = .error e) : e = .outOfRange := by
  unfold subChunk at h
  split at h
  · injection h with h; exact h.symm
  · split at h
    · injection h with h; exact h.symm
    · exact nomatch h

theorem readLengths_error : ∀ (n : Nat) (c : List UInt8) (e : FrameError), readLengths n c = .error e → e = .outOfRange
  | 0, c, e, h => nomatch h
  | n + 1, c, e, h => by
    rw [readLengths] at h
    rcases except_bind_error h with h | ⟨l, -, h⟩
    · exact chunkBits_error h
    rcases except_bind_error h with h | ⟨c1, -, h⟩
    · exact subChunk_error h
    rcases except_bind_error h with h | ⟨x, -, h⟩
    · exact readLengths_error n c1 e h
    exact nomatch h

theorem cutPartitions_error : ∀ (ls : List Nat) (c : List UInt8) (e : FrameError), cutPartitions ls c = .error e → e = .outOfRange
  | [], c, e, h => nomatch h
  | l :: ls, c, e, h => by
    rw [cutPartitions] at h
    rcases except_bind_error h with h | ⟨p, -, h⟩
    · exact subChunk_error h
    rcases except_bind_error h with h | ⟨c1, -, h⟩
    · exact subChunk_error h
    rcases except_bind_error h with h | ⟨x, -, h⟩
    · exact cutPartitions_error ls c1 e h
    exact nomatch h

theorem dctPartitions_error {rest : List UInt8} {n : Nat} {e : FrameError} (h : dctPartitions rest n = .error e) : e = .outOfRange := by
  unfold dctPartitions at h
  rcases except_bind_error h with h | ⟨x, -, h⟩
  · exact readLengths_error _ _ _ h
  · exact cutPartitions_error _ _ _ h

theorem parseBody_total {H : Type} {K : FrameKind H} {headerOk : H → Prop} {mbOk : H → MBContext → MBModes → Prop}
    (hK : K.Lawful headerOk mbOk) (st : DecoderState) (hst : st.Ok) (t : ProbabilityTables) (c : FrameParts) (h : H) (hh : headerOk h)
    (d : BoolDecoder) : (parseBody K st t c h d).1.Ok ∧
      ((parseBody K st t c h d).2 = .error .outOfRange ∨ ∃ p, (parseBody K st t c h d).2 = .ok p ∧ p.frame.Ok headerOk mbOk ∧
        p.frame.width = st.width ∧ p.frame.height = st.height ∧ p.segmentIds.length = p.frame.modes.length ∧ ∀ v ∈ p.segmentIds, v < 4) := by
  obtain ⟨modes, d', e1, e2, e3⟩ := modes_total hK h t (height := st.height) hst.width.1 d
  obtain ⟨seg, ids, s1, s2, s3, s4⟩ := applySegmentation_ok hst.width.1 hst.segmentation e2 (fun m hm v hv => by
      obtain ⟨k, hk⟩ := List.getElem?_of_mem hm
      exact hK.segments _ _ m v (e3 k m hk) hv)
  have hok : DecoderState.Ok { st with segmentation := seg } := ⟨hst.width, hst.height, s2, hst.filterAdjustments⟩
  unfold parseBody
  rw [e1]
  simp only
  rw [s1]
  simp only
  cases hp : dctPartitions c.rest (K.partitionCount h) with
  | error e =>
    simp only
    refine ⟨hok, Or.inl ?_⟩
    rw [dctPartitions_error hp]
  | ok parts =>
    simp only
    have hne : parts ≠ [] := by
      rw [← List.length_pos_iff, (C11_coefficient_partitions_are_sub_ranges _ _ _ hp).1]
      omega
    obtain ⟨residues, r1, r2, r3⟩ := tokens_total t st.width modes hne
    rw [r1]
    refine ⟨hok, Or.inr ⟨_, rfl, ?_, rfl, rfl, s3, s4⟩⟩
    exact ⟨hh, hst.width, hst.height, e2, r2, e3, r3⟩

/-- **C12**, whole key frames.  Whatever the bytes are, parsing a key frame in any possible state of a decoder ends with the
decoder in a possible state, and either refuses the frame or gives one whose header fields, modes and coefficients are all
in range and whose macroblocks have segment numbers below 4; the only failures are the three declared exceptions, so no
lookup by a parsed value is ever out of bounds. -/
theorem C12_key_frame_total (st : DecoderState) (hst : st.Ok) (c : FrameParts) : (st.applyKey c).1.Ok ∧
    ((st.applyKey c).2 = .error .invalid ∧ c.experimental = true ∨ (st.applyKey c).2 = .error .unsupported ∨ (st.applyKey c).2 = .error .outOfRange ∨
      ∃ p, (st.applyKey c).2 = .ok p ∧ KeyFrameOk p.frame ∧ p.frame.width = st.width ∧ p.frame.height = st.height ∧
        p.segmentIds.length = p.frame.modes.length ∧ ∀ v ∈ p.segmentIds, v < 4) := by
  unfold DecoderState.applyKey
  by_cases hx : c.experimental = true
  · rw [if_pos hx]; exact ⟨hst, Or.inl ⟨rfl, hx⟩⟩
  rw [if_neg hx]
  cases hp : parseKeyFrameHeader (BoolDecoder.init c.firstPartition false) with
  | none => exact ⟨hst, Or.inr (Or.inl rfl)⟩
  | some x =>
    obtain ⟨h, d⟩ := x
    have hr : h.InRange := yields_keyHeader _ _ _ hp
    have hok : (DecoderState.ofKeyHeader h st.width st.height).Ok := by
      refine ⟨hst.width, hst.height, fun s hs => ?_, fun a ha => ?_⟩
      · obtain ⟨u, hu, rfl⟩ := Option.map_eq_some_iff.mp hs
        exact Segmentation.new_ok (hr.updateSegmentation u hu)
      · obtain ⟨u, hu, rfl⟩ := Option.map_eq_some_iff.mp ha
        exact FilterAdjustments.update_ok FilterAdjustments.default_ok (hr.modeLfAdjustments u hu)
    simp only
    generalize hst1 : (if h.refreshEntropyProbs then { DecoderState.ofKeyHeader h st.width st.height with
        tables := keyKind.tables (DecoderState.ofKeyHeader h st.width st.height).tables h }
        else DecoderState.ofKeyHeader h st.width st.height) = st1
    have hst1ok : st1.Ok ∧ st1.width = st.width ∧ st1.height = st.height := by
      subst hst1
      cases h.refreshEntropyProbs with
      | true => exact ⟨⟨hok.width, hok.height, hok.segmentation, hok.filterAdjustments⟩, rfl, rfl⟩
      | false => exact ⟨hok, rfl, rfl⟩
    obtain ⟨h1, h2, h3⟩ := hst1ok
    obtain ⟨b1, b2⟩ := parseBody_total keyKind_lawful st1 h1 (keyKind.tables (DecoderState.ofKeyHeader h st.width st.height).tables h) c h hr d
    refine ⟨b1, ?_⟩
    rcases b2 with b2 | ⟨p, p1, p2, p3, p4, p5, p6⟩
    · exact Or.inr (Or.inr (Or.inl b2))
    · exact Or.inr (Or.inr (Or.inr ⟨p, p1, p2, p3.trans h2, p4.trans h3, p5, p6⟩))

/-- **C12**, whole inter frames. -/
theorem C12_inter_frame_total (st : DecoderState) (hst : st.Ok) (c : FrameParts) : (st.applyInter c).1.Ok ∧
    ((st.applyInter c).2 = .error .unsupported ∨ (st.applyInter c).2 = .error .outOfRange ∨
      ∃ p, (st.applyInter c).2 = .ok p ∧ InterFrameOk p.frame ∧ p.frame.width = st.width ∧ p.frame.height = st.height ∧
        p.segmentIds.length = p.frame.modes.length ∧ ∀ v ∈ p.segmentIds, v < 4) := by
  unfold DecoderState.applyInter
  cases hp : parseInterFrameHeader (BoolDecoder.init c.firstPartition false) with
  | none => exact ⟨hst, Or.inl rfl⟩
  | some x =>
    obtain ⟨h, d⟩ := x
    have hr : h.InRange := yields_interHeader _ _ _ hp
    have hok : (st.applyInterHeader h).Ok := by
      refine ⟨hst.width, hst.height, fun s hs => ?_, fun a ha => ?_⟩
      · obtain ⟨u, hu, rfl⟩ := Option.map_eq_some_iff.mp hs
        have hr := hr.updateSegmentation u hu
        cases hg : st.segmentation with
        | none => exact Segmentation.new_ok hr
        | some s => exact Segmentation.update_ok (hst.segmentation s hg) hr
      · obtain ⟨u, hu, rfl⟩ := Option.map_eq_some_iff.mp ha
        refine FilterAdjustments.update_ok ?_ (hr.modeLfAdjustments u hu)
        cases hg : st.filterAdjustments with
        | none => exact FilterAdjustments.default_ok
        | some a => exact hst.filterAdjustments a hg
    obtain ⟨b1, b2⟩ := parseBody_total interKind_lawful _ hok (interKind.tables st.tables h) c h hr d
    refine ⟨b1, ?_⟩
    rcases b2 with b2 | ⟨p, p1, p2, p3, p4, p5, p6⟩
    · exact Or.inr (Or.inl b2)
    · exact Or.inr (Or.inr ⟨p, p1, p2, p3, p4, p5, p6⟩)

/-! ### C57 -/

/-- `j` is the last index before `k` that satisfies `P`. -/
def LastBefore (P : Nat → Prop) (k : Nat) (r : Option Nat) : Prop :=
  (∀ j, r = some j → j < k ∧ P j ∧ ∀ i, j < i → i < k → ¬ P i) ∧ (r = none → ∀ i, i < k → ¬ P i)

theorem LastBefore.step {P : Nat → Prop} {k : Nat} {r : Option Nat} (h : LastBefore P k r) :
    (P k → LastBefore P (k + 1) (some k)) ∧ (¬ P k → LastBefore P (k + 1) r) := by
  constructor
  · intro hp
    refine ⟨fun j hj => ?_, (fun hj => nomatch hj)⟩
    cases hj
    exact ⟨Nat.lt_succ_self _, hp, fun i h1 h2 => by omega⟩
  · intro hp
    refine ⟨fun j hj => ?_, fun hj i hi => ?_⟩
    · obtain ⟨h1, h2, h3⟩ := h.1 j hj
      refine ⟨by omega, h2, fun i h4 h5 => ?_⟩
      by_cases e : i = k
      · rw [e]; exact hp
      · exact h3 i h4 (by omega)
    · by_cases e : i = k
      · rw [e]; exact hp
      · exact h.2 hj i (by omega)

theorem relinkY2_spec (w : Nat) (all : List MBModes) :
    ∀ (rest done : List MBModes) (ac lc : Nat → Option Nat), all = done ++ rest →
      (∀ c, LastBefore (fun j => j % w = c ∧ ∃ m, all[j]? = some m ∧ m.y2Coded = true) done.length (ac c)) →
      (∀ c, LastBefore (fun j => j / w = c ∧ ∃ m, all[j]? = some m ∧ m.y2Coded = true) done.length (lc c)) →
      ∀ (k : Nat) (la ll : Option Nat), (relinkY2 w done.length rest ac lc)[k]? = some (la, ll) →
        LastBefore (fun j => j % w = (done.length + k) % w ∧ ∃ m, all[j]? = some m ∧ m.y2Coded = true) (done.length + k) la ∧
        LastBefore (fun j => j / w = (done.length + k) / w ∧ ∃ m, all[j]? = some m ∧ m.y2Coded = true) (done.length + k) ll
  | [], done, ac, lc, _, _, _, k, la, ll, h => nomatch h
  | m :: rest, done, ac, lc, e, ha, hl, k, la, ll, h => by
    rw [relinkY2] at h
    cases k with
    | zero =>
      injection h with h
      injection h with h1 h2
      subst h1 h2
      exact ⟨ha _, hl _⟩
    | succ k =>
      have hget : all[done.length]? = some m := by rw [e]; simp
      have hkey : ∀ (f : Nat → Nat) (t : Nat → Option Nat),
          (∀ c, LastBefore (fun j => f j = c ∧ ∃ m, all[j]? = some m ∧ m.y2Coded = true) done.length (t c)) →
          ∀ c, LastBefore (fun j => f j = c ∧ ∃ m, all[j]? = some m ∧ m.y2Coded = true) (done ++ [m]).length
            ((if m.y2Coded then Function.update t (f done.length) (some done.length) else t) c) := by
        intro f t ht c
        rw [List.length_append, List.length_singleton]
        by_cases hc : m.y2Coded = true
        · rw [if_pos hc]
          by_cases hx : c = f done.length
          · rw [hx, Function.update_self]
            exact (ht _).step.1 ⟨rfl, m, hget, hc⟩
          · rw [Function.update_of_ne hx]
            exact (ht c).step.2 (fun hp => hx hp.1.symm)
        · rw [if_neg hc]
          refine (ht c).step.2 ?_
          rintro ⟨-, m', hm', hc'⟩
          rw [hget] at hm'; cases hm'
          exact hc hc'
      rw [List.getElem?_cons_succ] at h
      have := relinkY2_spec w all rest (done ++ [m]) _ _ (by rw [e]; simp) (hkey (· % w) ac ha) (hkey (· / w) lc hl) k la ll
        (by rw [List.length_append, List.length_singleton]; exact h)
      rw [List.length_append, List.length_singleton, show done.length + 1 + k = done.length + (k + 1) by omega] at this
      exact this

/-- **C57.** In a frame `w` macroblocks wide, the neighbours consulted for the Y2 block of macroblock `k` are the nearest
macroblock before it in the same column, and in the same row, whose prediction mode gives it a Y2 block; none if there is
no such macroblock. -/
theorem C57_y2_neighbours (w : Nat) (modes : List MBModes) (k : Nat) (above left : Option Nat)
    (h : (y2Links w modes)[k]? = some (above, left)) :
    LastBefore (fun j => j % w = k % w ∧ ∃ m, modes[j]? = some m ∧ m.yMode ≠ B_PRED ∧ m.yMode ≠ SPLITMV) k above ∧
    LastBefore (fun j => j / w = k / w ∧ ∃ m, modes[j]? = some m ∧ m.yMode ≠ B_PRED ∧ m.yMode ≠ SPLITMV) k left := by
  have := relinkY2_spec w modes modes [] (fun _ => none) (fun _ => none) rfl
    (fun c => ⟨(fun j h => nomatch h), fun _ i hi => absurd hi (Nat.not_lt_zero i)⟩)
    (fun c => ⟨(fun j h => nomatch h), fun _ i hi => absurd hi (Nat.not_lt_zero i)⟩) k above left h
  rw [List.length_nil, Nat.zero_add] at this
  simp only [y2Coded_iff, not_or] at this
  exact this

/-- Two rows of three; the middle macroblock of the first row has no Y2 block. -/
example : y2Links 3 [{ yMode := DC_PRED }, { yMode := B_PRED }, { yMode := V_PRED }, { yMode := SPLITMV }, { yMode := DC_PRED },
    { yMode := DC_PRED }] = [(none, none), (none, some 0), (none, some 0), (some 0, none), (none, none), (some 2, some 4)] := by decide

end Alfalfa
