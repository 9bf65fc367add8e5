import Verif.Spec.SameFrame
import Verif.Props.ReadFrame
import Verif.Props.Decoder

/-! C113: what a decoder makes of a frame does not depend on the bytes that hold it. -/

namespace Alfalfa

open FrameSpec

/-- **C113**, key frames: there is one result of decoding a key frame, and it is that of all bytes that hold the frame: the decoder afterwards,
whether to show the picture, and the picture. -/
theorem C113_key_frame (R : Renderer) (d : Decoder) (f : Frame KeyFrameHeader) (hf : KeyFrameOk f) (hw : d.state.width = f.width)
    (hh : d.state.height = f.height) :
    ∃ d' picture, ∀ bytes, HoldsKey f bytes → d.getFrameOutput R bytes = (d', .ok (f.show', picture)) := by
  have hseg : ∀ s, (DecoderState.ofKeyHeader f.header d.state.width d.state.height).segmentation = some s → s.Ok f.width f.height := by
    intro s hs
    obtain ⟨u, hu, rfl⟩ := Option.map_eq_some_iff.mp hs
    rw [hw, hh]
    exact Segmentation.new_ok (hf.header.updateSegmentation u hu)
  obtain ⟨st, est⟩ : ∃ st, st = (if f.header.refreshEntropyProbs then
      { DecoderState.ofKeyHeader f.header d.state.width d.state.height with tables := keyKind.tables {} f.header }
    else DecoderState.ofKeyHeader f.header d.state.width d.state.height) := ⟨_, rfl⟩
  have hs : st.width = f.width ∧ st.height = f.height ∧ ∀ s, st.segmentation = some s → s.Ok f.width f.height := by
    rw [est]
    split <;> exact ⟨hw, hh, hseg⟩
  obtain ⟨seg, ids, s1, -, -, -⟩ := applySegmentation_ok hf.width.1 hs.2.2 hf.count (fun m hm v hv => by
    obtain ⟨k, hk⟩ := List.getElem?_of_mem hm
    exact keyKind_lawful.segments _ (gridContext (macroblockDimension f.width) (macroblockDimension f.height) f.modes k) m v (hf.modes k m hk) hv)
  refine ⟨(({ d with state := { st with segmentation := seg } } : Decoder).decodeKey R { frame := f, segmentIds := ids }).1,
    (({ d with state := { st with segmentation := seg } } : Decoder).decodeKey R { frame := f, segmentIds := ids }).2.2, fun bytes hb => ?_⟩
  obtain ⟨parts, dec, h2, h3, h5, h6, h7⟩ := frame_read (K := keyKind) keyKind_lawful hf {} (C108_key_header f.header hf.header).1
    (fun k m hm => key_modes hf _ k m hm) hb
  obtain ⟨seg', ids', s2, h8⟩ := h7 st hs.1 hs.2.1 hs.2.2
  rw [s1] at s2
  cases s2
  have happly : d.state.applyKey parts = ({ st with segmentation := seg }, .ok { frame := f, segmentIds := ids }) := by
    unfold DecoderState.applyKey
    rw [if_neg (by rw [h5]; decide), show parseKeyFrameHeader = keyKind.parseHeader from rfl, h6]
    simp only
    rw [← h8, est]
    rfl
  unfold Decoder.getFrameOutput
  rw [hw, hh, h2]
  simp only
  rw [if_pos (show parts.keyFrame = true from h3), happly]
  rfl

/-- **C113**, inter frames: the same, for a decoder with the tables that the frame was written with. -/
theorem C113_inter_frame (R : Renderer) (d : Decoder) (hd : d.state.Ok) (f : Frame InterFrameHeader) (hf : InterFrameOk f)
    (hw : d.state.width = f.width) (hh : d.state.height = f.height) :
    ∃ d' picture, ∀ bytes, HoldsInter d.state.tables f bytes → d.getFrameOutput R bytes = (d', .ok (f.show', picture)) := by
  have hseg : ∀ s, (d.state.applyInterHeader f.header).segmentation = some s → s.Ok f.width f.height := by
    intro s hs
    obtain ⟨u, hu, rfl⟩ := Option.map_eq_some_iff.mp hs
    have hr := hf.header.updateSegmentation u hu
    cases hg : d.state.segmentation with
    | none => simp only; rw [hw, hh]; exact Segmentation.new_ok hr
    | some s => simp only; exact Segmentation.update_ok (by rw [← hw, ← hh]; exact hd.segmentation s hg) hr
  obtain ⟨seg, ids, s1, -, -, -⟩ := applySegmentation_ok hf.width.1 hseg hf.count (fun m hm v hv => by
    obtain ⟨k, hk⟩ := List.getElem?_of_mem hm
    exact interKind_lawful.segments _ _ m v (hf.modes k m hk) hv)
  refine ⟨(({ d with state := { d.state.applyInterHeader f.header with segmentation := seg } } : Decoder).decodeInter R { frame := f, segmentIds := ids }).1,
    (({ d with state := { d.state.applyInterHeader f.header with segmentation := seg } } : Decoder).decodeInter R { frame := f, segmentIds := ids }).2.2,
    fun bytes hb => ?_⟩
  obtain ⟨parts, dec, h2, h3, h5, h6, h7⟩ := frame_read (K := interKind) interKind_lawful hf d.state.tables (C108_inter_header f.header hf.header).1
    (fun k m hm => (C106_inter_modes f.header (d.state.tables.update f.header) _ m (hf.modes k m hm)).1) hb
  obtain ⟨seg', ids', s2, h8⟩ := h7 (d.state.applyInterHeader f.header) hw hh hseg
  rw [s1] at s2
  cases s2
  have happly : d.state.applyInter parts = ({ d.state.applyInterHeader f.header with segmentation := seg }, .ok { frame := f, segmentIds := ids }) := by
    unfold DecoderState.applyInter
    rw [show parseInterFrameHeader = interKind.parseHeader from rfl, h6]
    exact h8
  unfold Decoder.getFrameOutput
  rw [hw, hh, h2]
  simp only
  rw [if_neg (by rw [show parts.keyFrame = false from h3]; decide), if_pos (by rw [h5]; decide), happly]
  rfl

theorem output_state_ok (R : Renderer) (d : Decoder) (hd : d.state.Ok) (bytes : List UInt8) : (d.getFrameOutput R bytes).1.state.Ok := by
  unfold Decoder.getFrameOutput
  cases splitFrame bytes d.state.width d.state.height false with
  | error e => exact hd
  | ok c =>
    simp only
    by_cases hk : c.keyFrame = true
    · rw [if_pos hk]
      have h := (C12_key_frame_total d.state hd c).1
      revert h
      rcases d.state.applyKey c with ⟨st, e | f⟩ <;> exact fun h => h
    · rw [if_neg hk]
      by_cases he : c.experimental = true
      · rw [if_neg (by rw [he]; decide)]; exact hd
      · rw [if_pos he]
        have h := (C12_inter_frame_total d.state hd c).1
        revert h
        rcases d.state.applyInter c with ⟨st, e | f⟩ <;> exact fun h => h

/-- **C113**, streams: two streams that hold the same frames are decoded to the same pictures, without an error, and leave the same decoder. -/
theorem C113_streams {R : Renderer} {d : Decoder} {as bs : List (List UInt8)} (h : SameFrames R d as bs) (hd : d.state.Ok) :
    d.run R as = d.run R bs ∧ (d.run R as).2.length = as.length ∧ ∀ out ∈ (d.run R as).2, ∃ x, out = .ok x := by
  induction h with
  | nil d => exact ⟨rfl, rfl, fun _ h => nomatch h⟩
  | @key d f a b as bs hf hw hh ha hb _ ih =>
    obtain ⟨d', picture, hp⟩ := C113_key_frame R d f hf hw hh
    obtain ⟨i1, i2, i3⟩ := ih (output_state_ok R d hd a)
    simp only [Decoder.run, hp a ha, hp b hb] at i1 i2 i3 ⊢
    rw [← i1]
    exact ⟨rfl, by rw [List.length_cons, List.length_cons, i2], fun out ho => by
      rcases List.mem_cons.mp ho with rfl | ho
      · exact ⟨_, rfl⟩
      · exact i3 out ho⟩
  | @inter d f a b as bs hf hw hh ha hb _ ih =>
    obtain ⟨d', picture, hp⟩ := C113_inter_frame R d hd f hf hw hh
    obtain ⟨i1, i2, i3⟩ := ih (output_state_ok R d hd a)
    simp only [Decoder.run, hp a ha, hp b hb] at i1 i2 i3 ⊢
    rw [← i1]
    exact ⟨rfl, by rw [List.length_cons, List.length_cons, i2], fun out ho => by
      rcases List.mem_cons.mp ho with rfl | ho
      · exact ⟨_, rfl⟩
      · exact i3 out ho⟩

/-! ### Concrete cases -/

theorem holds_pad {bits : Bits} {bytes : List UInt8} (h : Holds bits bytes) (hne : bytes ≠ []) : Holds bits (bytes ++ [0]) := by
  have hh : (bytes ++ [0]).head? = bytes.head? := by
    cases bytes with
    | nil => exact absurd rfl hne
    | cons x xs => rfl
  refine ⟨by rw [hh]; exact h.1, ?_⟩
  rw [← C110_reading _ _ (by rw [hh]; exact h.1), ← h.2, ← C110_reading _ _ h.1]
  exact C03_decoder_zero_padding bytes _ 1

/-- A zero at the end of a frame makes other bytes that hold the same frame. -/
theorem holdsFrame_pad {H : Type} {key : Bool} {first : Bits} {probs : CoeffProbs} {n : Nat} {f : Frame H} {one : List UInt8}
    {parts : List (List UInt8)} (hne : ∀ p ∈ parts, p ≠ []) (hp : parts ≠ []) (ho : Holds first one) (hn : parts.length = n)
    (h1 : one.length < 2 ^ 19) (h2 : ∀ p ∈ parts.dropLast, p.length < 2 ^ 24)
    (h3 : ∀ i p, parts[i]? = some p → Holds (partitionBits probs (macroblocks f.width) n i f.modes f.residues) p) :
    HoldsFrame key first probs n f (frame key 0 f.show' f.width f.height one parts) ∧
    HoldsFrame key first probs n f (frame key 0 f.show' f.width f.height one parts ++ [0]) := by
  refine ⟨⟨one, parts, rfl, ho, hn, h1, h2, fun e => hne [] (by rw [e]; exact List.mem_cons_self) rfl, h3⟩, ?_⟩
  obtain ⟨init, last, rfl⟩ : ∃ init last, parts = init ++ [last] := ⟨_, _, (List.dropLast_append_getLast hp).symm⟩
  refine ⟨one, init ++ [last ++ [0]], ?_, ho, by simpa using hn, h1, ?_, ?_, ?_⟩
  · unfold frame coefficients
    simp only [List.dropLast_concat, List.flatten_append, List.flatten_singleton, List.append_assoc]
  · simpa only [List.dropLast_concat] using h2
  · intro e
    have := congrArg List.getLast? e
    simp at this
  · intro i p hi
    by_cases hlt : i < init.length
    · rw [List.getElem?_append_left hlt] at hi
      exact h3 i p (by rw [List.getElem?_append_left hlt]; exact hi)
    · have hlt' := (List.getElem?_eq_some_iff.mp hi).1
      rw [List.length_append, List.length_singleton] at hlt'
      obtain rfl : i = init.length := by omega
      rw [List.getElem?_concat_length] at hi
      cases hi
      exact holds_pad (h3 _ last List.getElem?_concat_length) (hne last (by simp))

/-- Two streams of one key frame that are not the same bytes. -/
example : ∃ a b, a ≠ b ∧ ∀ (R : Renderer) (d : Decoder), d.state.width = 17 → d.state.height = 20 → SameFrames R d [a] [b] := by
  obtain ⟨one, parts, h1, h2, -, h4, h5, h6⟩ := serialize_parts (K := keyKind) exampleKeyFrame_ok {} (C108_key_header _ exampleKeyFrame_ok.header).1
    (fun k m hm => key_modes exampleKeyFrame_ok _ k m hm)
  obtain ⟨ps, e1, -, e3, -⟩ := tokens_round_trip (K := keyKind) exampleKeyFrame_ok (keyKind.tables {} exampleKeyFrame.header)
  rw [h2] at e1
  cases e1
  obtain ⟨ha, hb⟩ := holdsFrame_pad (key := true) (f := exampleKeyFrame) e3 (by
      rw [← List.length_pos_iff, h5]; exact Nat.two_pow_pos _) ⟨h4.2, h4.1.2⟩ h5 (exampleKeyFrame_first one h1)
    (shorter_of_all_list exampleKeyFrame_tokens parts h2) (fun i p hp => ⟨(h6 i p hp).2, (h6 i p hp).1.2⟩)
  refine ⟨_, _, fun e => ?_, fun R d hw hh => .key exampleKeyFrame_ok hw hh ha hb (.nil _)⟩
  have := congrArg List.length e
  rw [List.length_append, List.length_singleton] at this
  omega

end Alfalfa
