import Verif.Proof.ZeroData
import Verif.Props.Decoder

/-! C71: playing frames of which the end is missing.

The receiver turns on error concealment in its decoder and also gives it frames of which only the first packets came. -/

namespace Alfalfa

/-- What both variants do with the parts of a frame. -/
def Decoder.decodeParts (R : Renderer) (d : Decoder) (c : FrameParts) : Decoder × Except FrameError (Bool × Raster) :=
  if c.keyFrame then
    match d.state.applyKey c with
    | (st, .error e) => ({ d with state := st }, .error e)
    | (st, .ok f) => let (d, out) := { d with state := st }.decodeKey R f; (d, .ok out)
  else if ¬ c.experimental then
    match d.state.applyInter c with
    | (st, .error e) => ({ d with state := st }, .error e)
    | (st, .ok f) => let (d, out) := { d with state := st }.decodeInter R f; (d, .ok out)
  else (d, .error .unsupported)

theorem outputWith_eq (R : Renderer) (b : Bool) (d : Decoder) (bytes : List UInt8) : d.getFrameOutputWith R b bytes =
    match splitFrame bytes d.state.width d.state.height b with
    | .error e => (d, .error e)
    | .ok c => d.decodeParts R c := by
  unfold Decoder.getFrameOutputWith Decoder.decodeParts
  simp only [applyKeyConcealing_eq, applyInterConcealing_eq]
  rfl

theorem output_eq (R : Renderer) (d : Decoder) (bytes : List UInt8) : d.getFrameOutput R bytes =
    match splitFrame bytes d.state.width d.state.height false with
    | .error e => (d, .error e)
    | .ok c => d.decodeParts R c := rfl

/-! ### Whole frames -/

/-- **C71** (off): without error concealment the decoder is the one of the other properties. -/
theorem C71_off (R : Renderer) (d : Decoder) (bytes : List UInt8) : d.getFrameOutputWith R false bytes = d.getFrameOutput R bytes := by
  rw [outputWith_eq, output_eq]

theorem splitPartitions_whole {f : List UInt8} {key : Bool} (h : splitPartitions f key false ≠ .error .invalid) :
    splitPartitions f key true = splitPartitions f key false := by
  unfold splitPartitions at h ⊢
  cases hc : chunkBits f 5 19 with
  | error e => rfl
  | ok len =>
    rw [hc] at h
    simp only [bind, Except.bind, if_true, Bool.false_eq_true, if_false] at h ⊢
    generalize (if key = true then 10 else 3) = off at h ⊢
    by_cases hl : f.length ≤ off + len
    · rw [if_pos hl] at h; exact absurd rfl h
    · rw [if_neg hl, if_neg hl]

theorem splitFrame_whole {f : List UInt8} {w h : Nat} (hn : splitFrame f w h false ≠ .error .invalid) : splitFrame f w h true = splitFrame f w h false := by
  have body : splitFrameBody f w h true = splitFrameBody f w h false := by
    unfold splitFrame splitFrameBody at hn
    unfold splitFrameBody
    simp only [bind, Except.bind] at hn ⊢
    cases h1 : chunkBits f 0 1 with
    | error e => rfl
    | ok key =>
      cases h2 : chunkBits f 4 1 with
      | error e => rfl
      | ok sh =>
        cases h3 : chunkBits f 1 3 with
        | error e => rfl
        | ok ver =>
          dsimp only
          cases h4 : versionExperimental ver with
          | error e => rfl
          | ok x =>
            dsimp only
            rw [splitPartitions_whole]
            intro hp
            simp only [h1, h2, h3, h4, hp] at hn
            exact absurd rfl hn
  unfold splitFrame at hn ⊢
  rw [body]
  split
  · next he => rw [he] at hn; exact absurd rfl hn
  · rfl

/-- **C71** (whole frames): a frame that the decoder without error concealment does not reject as invalid is decoded in the same way with error
concealment: same picture, same references, same tables. -/
theorem C71_whole_frames (R : Renderer) (d : Decoder) (bytes : List UInt8) (h : (d.getFrameOutput R bytes).2 ≠ .error .invalid) :
    d.getFrameOutputWith R true bytes = d.getFrameOutput R bytes := by
  rw [outputWith_eq, output_eq, splitFrame_whole]
  intro hs
  rw [output_eq, hs] at h
  exact h rfl

/-! ### Missing data -/

/-- **C71** (missing data): if the three bytes (of a key frame ten) that each frame begins with have come, decoding what came of a frame gives the
same picture, references and tables as decoding it with any number of zero bytes in place of what is missing, unless it fails because
the coefficients are in several partitions and the cut is before the last of them. -/
theorem C71_missing_data_are_zeros (R : Renderer) (d : Decoder) (came : List UInt8) (n : Nat)
    (hl : 10 ≤ came.length ∨ (3 ≤ came.length ∧ (came.headD 0).toNat % 2 = 1)) (h : (d.getFrameOutputWith R true came).2 ≠ .error .outOfRange) :
    d.getFrameOutputWith R true (came ++ List.replicate n 0) = d.getFrameOutputWith R true came := by
  rw [outputWith_eq] at h
  rw [outputWith_eq, outputWith_eq]
  rcases splitFrame_pad came d.state.width d.state.height n hl with ⟨e, e1, e2⟩ | ⟨s, e1, e2⟩ | ⟨c, i, j, k, e1, e2⟩
  · rw [e1, e2]
  · rw [e1, e2]
  · rw [e1] at h
    rw [e1, e2]
    dsimp only at h ⊢
    unfold Decoder.decodeParts at h ⊢
    have k1 : (c.pad i j k).keyFrame = c.keyFrame := rfl
    have k2 : (c.pad i j k).experimental = c.experimental := rfl
    rw [k1, k2]
    split
    · next hk =>
      rw [if_pos hk] at h
      rw [applyKey_pad]
      intro he
      rcases ha : d.state.applyKey c with ⟨st, e | f⟩
      · rw [ha] at h he; exact h (congrArg Except.error (by injection he))
      · rw [ha] at he; exact nomatch he
    · next hk =>
      rw [if_neg hk] at h
      split
      · next hx =>
        rw [if_pos hx] at h
        rw [applyInter_pad]
        intro he
        rcases ha : d.state.applyInter c with ⟨st, e | f⟩
        · rw [ha] at h he; exact h (congrArg Except.error (by injection he))
        · rw [ha] at he; exact nomatch he
      · rfl

theorem dctPartitions_one_ok (rest : List UInt8) : dctPartitions rest 1 = .ok [rest] := rfl

theorem parseBody_single {H : Type} {K : FrameKind H} {st : DecoderState} {t : ProbabilityTables} {c : FrameParts} {h : H} {d : BoolDecoder}
    (h0 : K.log2Partitions h = 0) : (parseBody K st t c h d).2 ≠ .error .outOfRange := by
  unfold parseBody
  split
  · exact fun h => nomatch h
  · split
    · exact fun h => nomatch h
    · have h1 : K.partitionCount h = 1 := by unfold FrameKind.partitionCount; rw [h0]; rfl
      dsimp only
      rw [h1, dctPartitions_one_ok]
      dsimp only
      split
      · exact fun h => nomatch h
      · exact fun h => nomatch h

/-- **C71** (what is rejected): a frame cut off anywhere is rejected as out of range only if its header, as far as it came, says that there are several
partitions of coefficients. -/
theorem C71_rejected_only_if_partitioned (R : Renderer) (d : Decoder) (came : List UInt8) (h : (d.getFrameOutputWith R true came).2 = .error .outOfRange) :
    ∃ c, splitFrame came d.state.width d.state.height true = .ok c ∧
      ((c.keyFrame = true ∧ ∃ header rest, parseKeyFrameHeader (BoolDecoder.init c.firstPartition false) = some (header, rest) ∧ 0 < header.log2Partitions) ∨
       (c.keyFrame = false ∧ ∃ header rest, parseInterFrameHeader (BoolDecoder.init c.firstPartition false) = some (header, rest) ∧ 0 < header.log2Partitions)) := by
  rw [outputWith_eq] at h
  cases hs : splitFrame came d.state.width d.state.height true with
  | error e =>
    rw [hs] at h
    injection h with h
    subst h
    exact absurd hs (C11_only_declared_failures _ _ _ _)
  | ok c =>
    rw [hs] at h
    refine ⟨c, rfl, ?_⟩
    unfold Decoder.decodeParts at h
    dsimp only at h
    by_cases hk : c.keyFrame = true
    · refine .inl ⟨hk, ?_⟩
      rw [if_pos hk] at h
      have ha : (d.state.applyKey c).2 = .error .outOfRange := by
        rcases ha : d.state.applyKey c with ⟨st, e | f⟩
        · rw [ha] at h; exact congrArg Except.error (by injection h)
        · rw [ha] at h; exact nomatch h
      unfold DecoderState.applyKey at ha
      split at ha
      · exact nomatch ha
      · split at ha
        · exact nomatch ha
        · next hd e hp =>
          refine ⟨hd, e, hp, Nat.pos_of_ne_zero fun h0 => ?_⟩
          exact parseBody_single (K := keyKind) h0 ha
    · rw [if_neg hk] at h
      refine .inr ⟨by simpa using hk, ?_⟩
      split at h
      · have ha : (d.state.applyInter c).2 = .error .outOfRange := by
          rcases ha : d.state.applyInter c with ⟨st, e | f⟩
          · rw [ha] at h; exact congrArg Except.error (by injection h)
          · rw [ha] at h; exact nomatch h
        unfold DecoderState.applyInter at ha
        split at ha
        · exact nomatch ha
        · next hd e hp =>
          refine ⟨hd, e, hp, Nat.pos_of_ne_zero fun h0 => ?_⟩
          exact parseBody_single (K := interKind) h0 ha
      · exact nomatch h

/-- Seven bytes of an inter frame with a first partition of 160 bytes: as if zeros had come. -/
example (R : Renderer) (n : Nat) : exampleDecoder.getFrameOutputWith R true ([0x11, 20, 0, 0x12, 0x00, 0x56, 0x78] ++ List.replicate n 0) =
    exampleDecoder.getFrameOutputWith R true [0x11, 20, 0, 0x12, 0x00, 0x56, 0x78] := by
  refine C71_missing_data_are_zeros R _ _ n (by decide) fun h => ?_
  obtain ⟨c, h1, h2⟩ := C71_rejected_only_if_partitioned R _ _ h
  have h3 : c = { keyFrame := false, showFrame := true, experimental := false, firstPartition := [0x12, 0x00, 0x56, 0x78], rest := [], corruption := .firstPartition } := by
    injection h1.symm.trans (show splitFrame [0x11, 20, 0, 0x12, 0x00, 0x56, 0x78] exampleDecoder.state.width exampleDecoder.state.height true = .ok
      { keyFrame := false, showFrame := true, experimental := false, firstPartition := [0x12, 0x00, 0x56, 0x78], rest := [], corruption := .firstPartition } from by
      decide +kernel)
  subst h3
  rcases h2 with ⟨hk, -⟩ | ⟨-, hd, rest, hp, h0⟩
  · exact nomatch hk
  · have : (parseInterFrameHeader (BoolDecoder.init [0x12, 0x00, 0x56, 0x78] false)).map (·.1.log2Partitions) = some 0 := by decide +kernel
    rw [hp] at this
    injection this with this
    exact absurd h0 (by dsimp only at this; omega)

/-- **C71** (what error concealment is): the branches for macroblocks whose data did not come are never taken, for a frame cut off anywhere and for
any other data, because the reader of the first partition is told that the partition is complete exactly when it is not. -/
theorem C71_no_macroblock_concealed (st : DecoderState) (c : FrameParts) :
    st.applyKeyConcealing c = st.applyKey c ∧ st.applyInterConcealing c = st.applyInter c :=
  ⟨applyKeyConcealing_eq st c, applyInterConcealing_eq st c⟩

/-- If the branch were taken, the macroblock would be inter-coded without motion, not the one of `zeroFrame`. -/
example (st : DecoderState) : readModesConcealing true st.tables ⟨0, 0, 1, 1, none, none, none⟩ {} (BoolDecoder.init [] false) =
    some ({ isInter := true, yMode := ZEROMV, mvs := fun _ => {}, uMvs := chromaMvs fun _ => {} }, BoolDecoder.init [] false) := rfl

/-! ### Any data -/

theorem decodeParts_ok {R : Renderer} (hR : R.Ok) {d : Decoder} (hd : d.Ok) (c : FrameParts) :
    (d.decodeParts R c).1.Ok ∧ (d.decodeParts R c).1.state.width = d.state.width ∧ (d.decodeParts R c).1.state.height = d.state.height ∧
    ∀ e, (d.decodeParts R c).2 = .error e → (d.decodeParts R c).1.references = d.references ∧ e ≠ .internal := by
  have fin : ∀ {st : DecoderState} {r : References}, st.Ok → st.width = d.state.width → st.height = d.state.height →
      r.Ok d.state.width d.state.height → (⟨st, r⟩ : Decoder).Ok := fun h1 h2 h3 h4 => ⟨h1, by rw [h2, h3]; exact h4⟩
  unfold Decoder.decodeParts
  split
  · obtain ⟨h1, h4⟩ := C12_key_frame_total d.state hd.state c
    obtain ⟨h2, h3⟩ := applyKey_dims_kept d.state c
    rcases ha : d.state.applyKey c with ⟨st, e | f⟩
    · rw [ha] at h1 h2 h3 h4
      refine ⟨fin h1 h2 h3 hd.references, h2, h3, fun e' he => ⟨rfl, ?_⟩⟩
      injection he with he
      subst he
      rcases h4 with ⟨h4, -⟩ | h4 | h4 | ⟨p, h4, -⟩
      · injection h4 with h4; rw [h4]; decide
      · injection h4 with h4; rw [h4]; decide
      · injection h4 with h4; rw [h4]; decide
      · exact nomatch h4
    · rw [ha] at h1 h2 h3 h4
      have h5 : f.frame.width = d.state.width ∧ f.frame.height = d.state.height := by
        rcases h4 with ⟨h4, -⟩ | h4 | h4 | ⟨p, h4, -, h5, h6, -⟩
        · exact nomatch h4
        · exact nomatch h4
        · exact nomatch h4
        · injection h4 with h4; subst h4; exact ⟨h5, h6⟩
      have h6 := hR.key st.segmentation st.filterAdjustments f
      rw [h5.1, h5.2] at h6
      exact ⟨fin h1 h2 h3 ⟨h6, h6, h6⟩, h2, h3, fun _ h => nomatch h⟩
  · split
    · obtain ⟨h1, h4⟩ := C12_inter_frame_total d.state hd.state c
      obtain ⟨h2, h3⟩ := applyInter_dims_kept d.state c
      rcases ha : d.state.applyInter c with ⟨st, e | f⟩
      · rw [ha] at h1 h2 h3 h4
        refine ⟨fin h1 h2 h3 hd.references, h2, h3, fun e' he => ⟨rfl, ?_⟩⟩
        injection he with he
        subst he
        rcases h4 with h4 | h4 | ⟨p, h4, -⟩
        · injection h4 with h4; rw [h4]; decide
        · injection h4 with h4; rw [h4]; decide
        · exact nomatch h4
      · rw [ha] at h1 h2 h3 h4
        have h5 : f.frame.width = d.state.width ∧ f.frame.height = d.state.height := by
          rcases h4 with h4 | h4 | ⟨p, h4, -, h5, h6, -⟩
          · exact nomatch h4
          · exact nomatch h4
          · injection h4 with h4; subst h4; exact ⟨h5, h6⟩
        have h6 := hR.inter st.segmentation st.filterAdjustments d.references f
        rw [h5.1, h5.2] at h6
        exact ⟨fin h1 h2 h3 (copyInter_ok hd.references h6), h2, h3, fun _ h => nomatch h⟩
    · refine ⟨hd, rfl, rfl, fun e h => ⟨rfl, ?_⟩⟩
      injection h with h
      rw [← h]; decide

theorem splitFrame_error {f : List UInt8} {w h : Nat} {b : Bool} {e : FrameError} (hs : splitFrame f w h b = .error e) : e ≠ .internal := by
  have hp : ∀ {key : Bool} {e}, splitPartitions f key b = .error e → e ≠ .internal := by
    intro key e h
    unfold splitPartitions at h
    rcases except_bind_error h with h | ⟨v, -, h⟩
    · rw [chunkBits_error h]; decide
    · dsimp only at h
      generalize (if key = true then 10 else 3) = off at h
      split at h
      · split at h
        · rcases except_bind_error h with h | ⟨v, -, h⟩
          · rw [subChunk_error h]; decide
          · exact nomatch h
        · injection h with h; rw [← h]; decide
      · rcases except_bind_error h with h | ⟨v, -, h⟩
        · rw [subChunk_error h]; decide
        · rcases except_bind_error h with h | ⟨v, -, h⟩
          · rw [subChunk_error h]; decide
          · exact nomatch h
  have hv : ∀ {v e}, versionExperimental v = .error e → e ≠ .internal := by
    intro v e h
    unfold versionExperimental at h
    split at h
    · exact nomatch h
    · split at h
      · exact nomatch h
      · split at h
        · exact nomatch h
        · injection h with h; rw [← h]; decide
  have hk : ∀ {e}, checkKeyFrame f w h = .error e → e ≠ .internal := by
    intro e hc
    unfold checkKeyFrame at hc
    rcases except_bind_error hc with hc | ⟨start, -, hc⟩
    · rw [subChunk_error hc]; decide
    · split at hc
      · injection hc with hc; rw [← hc]; decide
      · rcases except_bind_error hc with hc | ⟨_, -, hc⟩
        · rw [subChunk_error hc]; decide
        rcases except_bind_error hc with hc | ⟨_, -, hc⟩
        · rw [chunkBits_error hc]; decide
        rcases except_bind_error hc with hc | ⟨_, -, hc⟩
        · rw [chunkBits_error hc]; decide
        rcases except_bind_error hc with hc | ⟨_, -, hc⟩
        · rw [chunkBits_error hc]; decide
        rcases except_bind_error hc with hc | ⟨_, -, hc⟩
        · rw [chunkBits_error hc]; decide
        split at hc
        · injection hc with hc; rw [← hc]; decide
        · exact nomatch hc
  have hb : ∀ {e}, splitFrameBody f w h b = .error e → e ≠ .internal := by
    intro e hc
    unfold splitFrameBody at hc
    rcases except_bind_error hc with hc | ⟨_, -, hc⟩
    · rw [chunkBits_error hc]; decide
    rcases except_bind_error hc with hc | ⟨_, -, hc⟩
    · rw [chunkBits_error hc]; decide
    rcases except_bind_error hc with hc | ⟨_, -, hc⟩
    · rw [chunkBits_error hc]; decide
    rcases except_bind_error hc with hc | ⟨_, -, hc⟩
    · exact hv hc
    rcases except_bind_error hc with hc | ⟨_, -, hc⟩
    · exact hp hc
    dsimp only at hc
    split at hc
    · rcases except_bind_error hc with hc | ⟨_, -, hc⟩
      · exact hk hc
      · exact nomatch hc
    · exact nomatch hc
  unfold splitFrame at hs
  split at hs
  · split at hs
    · exact nomatch hs
    · injection hs with hs; rw [← hs]; decide
  · exact hb hs

/-- **C71** (any data): whatever the receiver gives to its decoder, a failure is one of those that the decoder declares, it leaves the reference pictures as
they were, and the decoder can go on. -/
theorem C71_any_data (R : Renderer) (hR : R.Ok) (d : Decoder) (hd : d.Ok) (came : List UInt8) :
    (d.getFrameOutputWith R true came).1.Ok ∧ (d.getFrameOutputWith R true came).1.state.width = d.state.width ∧
    (d.getFrameOutputWith R true came).1.state.height = d.state.height ∧
    ∀ e, (d.getFrameOutputWith R true came).2 = .error e → (d.getFrameOutputWith R true came).1.references = d.references ∧ e ≠ .internal := by
  rw [outputWith_eq]
  cases hs : splitFrame came d.state.width d.state.height true with
  | error e =>
    refine ⟨hd, rfl, rfl, fun e' h => ⟨rfl, ?_⟩⟩
    injection h with h
    subst h
    exact splitFrame_error hs
  | ok c => exact decodeParts_ok hR hd c

/-- A decoder with error concealment, given one datum after the other. -/
def Decoder.runConcealing (R : Renderer) : Decoder → List (List UInt8) → Decoder
  | d, [] => d
  | d, came :: rest => runConcealing R (d.getFrameOutputWith R true came).1 rest

/-- **C71**, along any history: the decoder stays a possible decoder of the same dimensions. -/
theorem C71_any_history (R : Renderer) (hR : R.Ok) (data : List (List UInt8)) : ∀ (d : Decoder), d.Ok →
    (d.runConcealing R data).Ok ∧ (d.runConcealing R data).state.width = d.state.width ∧ (d.runConcealing R data).state.height = d.state.height := by
  induction data with
  | nil => exact fun d hd => ⟨hd, rfl, rfl⟩
  | cons b bs ih =>
    intro d hd
    obtain ⟨h1, h2, h3, -⟩ := C71_any_data R hR d hd b
    obtain ⟨i1, i2, i3⟩ := ih _ h1
    exact ⟨i1, i2.trans h2, i3.trans h3⟩

/-- **C71** (repair): after any incomplete and damaged frames, a whole key frame makes the receiver's decoder equal to a decoder that never lost anything,
with the same picture. -/
theorem C71_key_frame_repairs (R : Renderer) (hR : R.Ok) (receiver sender : Decoder) (hd : receiver.Ok) (hw : receiver.state.width = sender.state.width)
    (hh : receiver.state.height = sender.state.height) (data : List (List UInt8)) (bytes : List UInt8) (b : UInt8) (hb : bytes.head? = some b)
    (hkey : b.toNat % 2 = 0) (out : Bool × Raster) (hout : (sender.getFrameOutput R bytes).2 = .ok out) :
    (receiver.runConcealing R data).getFrameOutputWith R true bytes = sender.getFrameOutput R bytes := by
  obtain ⟨-, h2, h3⟩ := C71_any_history R hR data receiver hd
  obtain ⟨e1, e2⟩ := C14_key_frame_resets R sender (receiver.runConcealing R data) (by rw [h2, hw]) (by rw [h3, hh]) bytes b hb hkey
  rw [C71_whole_frames]
  · exact (Prod.ext (e2 out.1 out.2 hout).1 e1).symm
  · rw [← e1, hout]; exact fun h => nomatch h

/-- The smallest key frame of 17x20 pixels. -/
def smallKeyFrame : List UInt8 := [0x10, 0, 0, 0x9d, 0x01, 0x2a, 17, 0, 20, 0, 0]

theorem smallKeyFrame_decodes (R : Renderer) : ∃ out, (exampleDecoder.getFrameOutput R smallKeyFrame).2 = .ok out := by
  have h : ((exampleDecoder.state.applyKey { keyFrame := true, showFrame := true, rest := [0] }).2.isOk) = true := by decide +kernel
  rw [output_eq, show splitFrame smallKeyFrame exampleDecoder.state.width exampleDecoder.state.height false =
    .ok { keyFrame := true, showFrame := true, rest := [0] } by decide +kernel]
  dsimp only
  unfold Decoder.decodeParts
  rw [if_pos rfl]
  rcases ha : exampleDecoder.state.applyKey { keyFrame := true, showFrame := true, rest := [0] } with ⟨st, e | f⟩
  · rw [ha] at h; exact nomatch h
  · exact ⟨_, rfl⟩

/-- A receiver with any history of damage is repaired by that key frame. -/
example (R : Renderer) (hR : R.Ok) (data : List (List UInt8)) :
    (exampleDecoder.runConcealing R data).getFrameOutputWith R true smallKeyFrame = exampleDecoder.getFrameOutput R smallKeyFrame := by
  obtain ⟨out, h⟩ := smallKeyFrame_decodes R
  exact C71_key_frame_repairs R hR exampleDecoder exampleDecoder exampleDecoder_ok rfl rfl data smallKeyFrame 0x10 rfl (by decide) out h

/-! ### A frame of which the beginning is missing -/

/-- The beginning of a frame did not come: not the three bytes that a frame begins with or, for a key frame (bit 0 clear), not the ten. -/
def HeaderLost (came : List UInt8) : Prop := came.length < 3 ∨ (came.length < 10 ∧ (came.headD 0).toNat % 2 = 0)

/-- The version that the first byte gives, if it came, is one that the decoder knows. -/
def KnownVersion (came : List UInt8) : Prop := (came.headD 0).toNat / 2 % 8 = 0 ∨ (came.headD 0).toNat / 2 % 8 = 4 ∨ (came.headD 0).toNat / 2 % 8 = 6

instance (came : List UInt8) : Decidable (HeaderLost came) := inferInstanceAs (Decidable (_ ∨ _))
instance (came : List UInt8) : Decidable (KnownVersion came) := inferInstanceAs (Decidable (_ ∨ _))

theorem chunkBits_head (a : UInt8) (l : List UInt8) {o n : Nat} (h : o + n ≤ 8) : chunkBits (a :: l) o n = .ok (a.toNat / 2 ^ o % 2 ^ n) := by
  unfold chunkBits
  have : 1 + (o + n - 1) / 8 = 1 := by omega
  simp only [this, List.length_cons, List.take_succ_cons, List.take_zero]
  rw [if_neg (by omega)]
  simp [leValue, Nat.shiftRight_eq_div_pow]

theorem splitFrame_lost {f : List UInt8} (w h : Nat) (hl : HeaderLost f) (hv : KnownVersion f) :
    splitFrame f w h true = .ok { corruption := .frame, showFrame := (f.headD 0).toNat >>> 4 % 2 == 1 } := by
  have body : splitFrameBody f w h true = .error .outOfRange := by
    cases f with
    | nil => rfl
    | cons a l =>
      unfold splitFrameBody
      rw [chunkBits_head a l (by decide), chunkBits_head a l (by decide), chunkBits_head a l (by decide)]
      simp only [bind, Except.bind]
      have hx : ∃ x, versionExperimental (a.toNat / 2 ^ 1 % 2 ^ 3) = .ok x := by
        unfold KnownVersion at hv
        rw [List.headD_cons] at hv
        unfold versionExperimental
        rcases hv with hv | hv | hv <;> rw [show (2 : Nat) ^ 1 = 2 from rfl, show (2 : Nat) ^ 3 = 8 from rfl, hv] <;> exact ⟨_, rfl⟩
      obtain ⟨x, hx⟩ := hx
      rw [hx]
      dsimp only
      have hp : splitPartitions (a :: l) (a.toNat / 2 ^ 0 % 2 ^ 1 == 0) true = .error .outOfRange := by
        unfold splitPartitions
        by_cases h3 : (a :: l).length < 3
        · unfold chunkBits
          rw [if_pos (by simpa using h3)]
          rfl
        · rcases hl with hl | ⟨h10, hk⟩
          · exact absurd hl h3
          rw [List.headD_cons] at hk
          have hk : (a.toNat / 2 ^ 0 % 2 ^ 1 == 0) = true := by simp [hk]
          rw [hk]
          unfold chunkBits
          rw [if_neg (by simpa using h3)]
          simp only [bind, Except.bind, if_true]
          rw [if_pos (by omega)]
          unfold subChunk
          rw [if_pos h10]
      rw [hp]
  unfold splitFrame
  rw [body]
  rfl

/-- **C71** (no header): if not even the beginning of a frame came, the decoder gives a picture that is gray everywhere, and shows it if bit 4 of the first
byte came and is set.  The reference pictures and the tables of probabilities stay; the segmentation and the loop-filter adjustments are forgotten. -/
theorem C71_no_header_gray (d : Decoder) (hd : d.Ok) (came : List UInt8) (hl : HeaderLost came) (hv : KnownVersion came) :
    d.getFrameOutputWith codeRenderer true came =
      ({ d with state := { d.state with segmentation := none, filterAdjustments := none } },
       .ok ((came.headD 0).toNat / 16 % 2 == 1, grayRaster d.state.width d.state.height 128)) := by
  rw [outputWith_eq, splitFrame_lost _ _ hl hv]
  dsimp only
  unfold Decoder.decodeParts
  dsimp only
  rw [if_neg (by decide), if_pos (by decide), applyInter_nothing d.state rfl rfl]
  dsimp only
  unfold Decoder.decodeInter
  dsimp only
  rw [zeroFrame_gray hd.state hd.references]
  refine Prod.ext rfl ?_
  exact congrArg Except.ok (Prod.ext (by
    change ((came.headD 0).toNat >>> 4 % 2 == 1) = _
    rw [Nat.shiftRight_eq_div_pow]) rfl)

/-- Nothing came; the first byte of an inter frame came; seven bytes of a key frame came. -/
example : exampleDecoder.getFrameOutputWith codeRenderer true [] = (exampleDecoder, .ok (false, grayRaster 17 20 128)) ∧
    exampleDecoder.getFrameOutputWith codeRenderer true [0x51] = (exampleDecoder, .ok (true, grayRaster 17 20 128)) ∧
    exampleDecoder.getFrameOutputWith codeRenderer true [0x50, 1, 0, 0x9d, 0x01, 0x2a, 17] = (exampleDecoder, .ok (true, grayRaster 17 20 128)) :=
  ⟨C71_no_header_gray exampleDecoder exampleDecoder_ok [] (by decide) (by decide),
   C71_no_header_gray exampleDecoder exampleDecoder_ok [0x51] (by decide) (by decide),
   C71_no_header_gray exampleDecoder exampleDecoder_ok [0x50, 1, 0, 0x9d, 0x01, 0x2a, 17] (by decide) (by decide)⟩

/-- **C71**: error concealment does not repeat the last picture. -/
theorem C71_last_picture_not_repeated : ∃ (d : Decoder) (came : List UInt8) (picture : Raster), d.Ok ∧
    (d.getFrameOutputWith codeRenderer true came).2 = .ok (true, picture) ∧ picture ≠ d.references.last := by
  refine ⟨exampleDecoder, [0x51], grayRaster 17 20 128, exampleDecoder_ok, ?_, ?_⟩
  · rw [C71_no_header_gray exampleDecoder exampleDecoder_ok [0x51] (by decide) (by decide)]
    rfl
  · exact fun h => absurd (congrArg (fun r : Raster => r.y.cells.head?) h) (by decide)

end Alfalfa
