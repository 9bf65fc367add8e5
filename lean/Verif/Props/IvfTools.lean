import Verif.Model.IvfTools
import Verif.Props.ZeroOut

/-! The small programs that work on IVF files (C84). -/

namespace Alfalfa

theorem ofNat_and_255 (n : Nat) : UInt8.ofNat (n &&& 0xff) = UInt8.ofNat n := by
  rw [show (0xff : Nat) = 2 ^ 8 - 1 from rfl, Nat.and_two_pow_sub_one_eq_mod]
  apply UInt8.toNat_inj.1
  simp

theorem bareHeader_eq (w h n : Nat) : bareHeader w h n = ivfHead [0x56, 0x50, 0x38, 0x30] w h 1 1 n 0 := by
  unfold bareHeader ivfHead
  have e : ∀ m, leBytes 2 m = [UInt8.ofNat (m &&& 0xff), UInt8.ofNat ((m >>> 8) &&& 0xff)] := by
    intro m
    rw [ofNat_and_255, ofNat_and_255, Nat.shiftRight_eq_div_pow]
    rfl
  rw [← e, ← e]
  rfl

/-- What the two programs write has the layout of a file. -/
theorem bare_layout (w h : Nat) (frames : List (List UInt8)) : bareHeader w h frames.length ++ frames.flatMap bareFrame =
    ivfBytes { fourcc := "VP80".toUTF8.toList, width := w, height := h, frameRate := 1, timeScale := 1, expectedMinihash := 0 } frames := by
  rw [ivfBytes_eq, bareHeader_eq]
  have hv : "VP80".toUTF8.toList = [0x56, 0x50, 0x38, 0x30] := by decide +kernel
  have hb : bareFrame = fun f => ivfFrameHeader f.length ++ f := by
    funext f
    unfold bareFrame ivfFrameHeader
    simp [List.replicate]
  simp only [hv, hb]

/-- What was opened fits. -/
theorem holds_sizes {file : List UInt8} {ivf : IVF} (ho : IVF.open file = .ok ivf) {info : IvfInfo} {frames : List (List UInt8)} (hi : ivf.Holds info frames) :
    frames.length < 2 ^ 32 ∧ ∀ f ∈ frames, f.length < 2 ^ 32 := by
  constructor
  · rw [← hi.frameCount, (open_inv ho).2.2.1]
    exact (leValue_lt _).trans_le (Nat.pow_le_pow_right (by decide) (List.length_take_le _ _) |>.trans_eq rfl)
  · intro f hf
    obtain ⟨i, hl, rfl⟩ := List.mem_iff_getElem.mp hf
    obtain ⟨_, _, _, _, _, b4⟩ := open_inv ho
    obtain ⟨d1, _, d3, _⟩ := ivfIndex_spec _ _ _ _ b4
    have hr' := hi.contents i hl
    unfold IVF.frame at hr'
    rw [List.getElem?_eq_getElem (by rw [d1, hi.frameCount]; exact hl)] at hr'
    have := (subChunk_inv hr').2.2
    rw [this]
    exact (d3 _ (List.getElem_mem _)).2.2

/-- **C84, copying.** The copy of a file whose frames can be read is a file with the same codec, dimensions and rate and the same frames.  What it does not keep is
the hash of the decoder state that the file expects: it expects none. -/
theorem C84_copy (file : List UInt8) (ivf : IVF) (ho : IVF.open file = .ok ivf) (info : IvfInfo) (hf : info.Fits) (frames : List (List UInt8))
    (hi : ivf.Holds info frames) : ∃ out copy, ivfCopy file = .ok out ∧ IVF.open out = .ok copy ∧ copy.Holds { info with expectedMinihash := 0 } frames := by
  obtain ⟨hn, hl⟩ := holds_sizes ho hi
  obtain ⟨w, hc, hw0⟩ := create_wrote info.fourcc info.width info.height info.frameRate info.timeScale hf.fourcc
  obtain ⟨w1, h1, h2⟩ := copyFrames_spec ivf (h := ⟨info.fourcc, info.width, info.height, info.frameRate, info.timeScale, 0⟩) hf.fourcc frames.length 0 frames hw0 rfl (fun k hk => by rw [Nat.zero_add]; exact hi.contents k hk)
    (by rw [List.length_nil]; omega)
  obtain ⟨copy, i1, i2⟩ := C33_reads_layout { info with expectedMinihash := 0 } { hf with expectedMinihash := (by decide : 0 < 2 ^ 32) } frames hn hl []
  refine ⟨w1.file, copy, ?_, ?_, i2⟩
  · unfold ivfCopy
    simp only [ho, bind, Except.bind, hi.fourcc, hi.width, hi.height, hi.frameRate, hi.timeScale, hc, hi.frameCount, h1]
    rfl
  · rw [h2.file, ← i1, List.nil_append, List.append_nil]

theorem compareFrames_spec (a b : IVF) (fa : List (List UInt8)) : ∀ (i : Nat) (fb : List (List UInt8)), fb.length = fa.length →
    (∀ k (hk : k < fa.length), a.frame (i + k) = .ok fa[k]) → (∀ k (hk : k < fb.length), b.frame (i + k) = .ok fb[k]) →
    compareFrames a b fa.length i = .ok (decide (fa = fb)) := by
  induction fa with
  | nil =>
    intro i fb hl _ _
    obtain rfl := List.length_eq_zero_iff.1 hl
    rfl
  | cons f rest ih =>
    intro i fb hl ha hb
    cases fb with
    | nil => simp at hl
    | cons g rest' =>
      have h1 := ha 0 (by simp)
      have h2 := hb 0 (by simp)
      rw [Nat.add_zero, List.getElem_cons_zero] at h1 h2
      have := ih (i + 1) rest' (by simpa using hl)
        (fun k hk => by
          have := ha (k + 1) (by simpa using hk)
          rw [List.getElem_cons_succ] at this
          rw [← this, Nat.add_assoc, Nat.add_comm 1 k])
        (fun k hk => by
          have := hb (k + 1) (by simpa using hk)
          rw [List.getElem_cons_succ] at this
          rw [← this, Nat.add_assoc, Nat.add_comm 1 k])
      rw [List.length_cons, compareFrames, h1, h2]
      simp only [bind, Except.bind]
      by_cases hfg : f = g
      · subst hfg
        rw [if_neg (fun h => h rfl), this]
        simp
      · rw [if_pos hfg]
        simp [hfg, pure, Except.pure]

/-- **C84, comparing.** Of two files whose frames can be read the program reports that they are the same if and only if the codec, the dimensions, the rate and all
frames are the same. -/
theorem C84_compare (file1 file2 : List UInt8) (a b : IVF) (h1 : IVF.open file1 = .ok a) (h2 : IVF.open file2 = .ok b) (info1 info2 : IvfInfo)
    (frames1 frames2 : List (List UInt8)) (i1 : a.Holds info1 frames1) (i2 : b.Holds info2 frames2) :
    ∃ r, ivfCompare file1 file2 = .ok r ∧ (r = true ↔ { info1 with expectedMinihash := info2.expectedMinihash } = info2 ∧ frames1 = frames2) := by
  have e : ({ info1 with expectedMinihash := info2.expectedMinihash } = info2) ↔ info1.fourcc = info2.fourcc ∧ info1.width = info2.width ∧ info1.height = info2.height ∧
      info1.frameRate = info2.frameRate ∧ info1.timeScale = info2.timeScale := by
    cases info1; cases info2; simp
  unfold ivfCompare
  simp only [h1, h2, bind, Except.bind, i1.fourcc, i1.width, i1.height, i1.frameRate, i1.timeScale, i1.frameCount, i2.fourcc, i2.width, i2.height, i2.frameRate,
    i2.timeScale, i2.frameCount]
  rw [e]
  by_cases hc : info1.fourcc = info2.fourcc ∧ info1.width = info2.width ∧ info1.height = info2.height ∧ info1.frameRate = info2.frameRate ∧
      info1.timeScale = info2.timeScale ∧ frames1.length = frames2.length
  · obtain ⟨c1, c2, c3, c4, c5, c6⟩ := hc
    rw [if_neg (fun h => h c1), if_neg (fun h => h c2), if_neg (fun h => h c3), if_neg (fun h => h c4), if_neg (fun h => h c5), if_neg (fun h => h c6),
      compareFrames_spec a b frames1 0 frames2 c6.symm (fun k hk => by rw [Nat.zero_add]; exact i1.contents k hk)
      (fun k hk => by rw [Nat.zero_add]; exact i2.contents k hk)]
    refine ⟨_, rfl, ?_⟩
    rw [decide_eq_true_iff]
    exact ⟨fun h => ⟨⟨c1, c2, c3, c4, c5⟩, h⟩, fun h => h.2⟩
  · have no : ¬ ((info1.fourcc = info2.fourcc ∧ info1.width = info2.width ∧ info1.height = info2.height ∧ info1.frameRate = info2.frameRate ∧
        info1.timeScale = info2.timeScale) ∧ frames1 = frames2) := by
      rintro ⟨⟨c1, c2, c3, c4, c5⟩, c6⟩
      exact hc ⟨c1, c2, c3, c4, c5, by rw [c6]⟩
    refine ⟨false, ?_, by simp [no]⟩
    repeat' split
    all_goals first
      | rfl
      | skip
    next e1 e2 e3 e4 e5 e6 => exact absurd ⟨not_not.1 e1, not_not.1 e2, not_not.1 e3, not_not.1 e4, not_not.1 e5, not_not.1 e6⟩ hc

/-- **C84, what that comparison does not see.** Of each file that expects a decoder state the copy is found to be the same, although it expects none. -/
theorem C84_copy_loses_hash (file : List UInt8) (ivf : IVF) (ho : IVF.open file = .ok ivf) (info : IvfInfo) (hf : info.Fits) (frames : List (List UInt8))
    (hi : ivf.Holds info frames) (hm : info.expectedMinihash ≠ 0) :
    ∃ out copy, ivfCopy file = .ok out ∧ IVF.open out = .ok copy ∧ ivfCompare file out = .ok true ∧ copy.expectedMinihash ≠ ivf.expectedMinihash := by
  obtain ⟨out, copy, h1, h2, h3⟩ := C84_copy file ivf ho info hf frames hi
  obtain ⟨r, h4, h5⟩ := C84_compare file out ivf copy ho h2 info _ frames frames hi h3
  obtain rfl := h5.2 ⟨rfl, rfl⟩
  refine ⟨out, copy, h1, h2, h4, ?_⟩
  rw [h3.expectedMinihash, hi.expectedMinihash]
  exact hm.symm

/-! ### Key frames -/

/-- A frame starts with the bit that says that it is a key frame. -/
def StartsAsKey (f : List UInt8) : Bool := f.head?.any fun b => b.toNat % 2 == 0

theorem key_iff {f : List UInt8} {w h : Nat} {c : FrameParts} (hs : splitFrame f w h false = .ok c) : c.keyFrame = StartsAsKey f := by
  obtain ⟨b, tail, hb, h1, -⟩ := C11_accepted_frame_start f w h c hs
  rw [hb]
  unfold StartsAsKey
  simp only [List.head?_cons, Option.any_some]
  cases hk : c.keyFrame
  · cases hd : (b.toNat % 2 == 0)
    · rfl
    · rw [hk] at h1
      exact absurd (h1.2 (by simpa using hd)) (by decide)
  · simp [h1.1 hk]

theorem keyFrameNumbers_spec (ivf : IVF) (frames : List (List UInt8)) : ∀ (i : Nat), (∀ k (hk : k < frames.length), ivf.frame (i + k) = .ok frames[k]) →
    (∀ f ∈ frames, ∃ c, splitFrame f ivf.width ivf.height false = .ok c) →
    ∃ numbers, keyFrameNumbers ivf frames.length i = .ok numbers ∧ writeNumbered ivf numbers = .ok ((frames.filter StartsAsKey).flatMap bareFrame) ∧
      numbers.length = (frames.filter StartsAsKey).length := by
  induction frames with
  | nil => intro i _ _; exact ⟨[], rfl, rfl, rfl⟩
  | cons f rest ih =>
    intro i hfr hs
    have h0 := hfr 0 (by simp)
    rw [Nat.add_zero, List.getElem_cons_zero] at h0
    obtain ⟨c, hc⟩ := hs f (by simp)
    obtain ⟨numbers, h1, h2, h3⟩ := ih (i + 1)
      (fun k hk => by
        have := hfr (k + 1) (by simpa using hk)
        rw [List.getElem_cons_succ] at this
        rw [← this, Nat.add_assoc, Nat.add_comm 1 k]) (fun g hg => hs g (by simp [hg]))
    rw [List.length_cons, keyFrameNumbers, h0]
    simp only [bind, Except.bind, hc, h1, pure, Except.pure]
    refine ⟨_, rfl, ?_⟩
    rw [key_iff hc]
    cases hk : StartsAsKey f
    · rw [List.filter_cons_of_neg (by rw [hk]; decide)]
      exact ⟨h2, h3⟩
    · rw [List.filter_cons_of_pos hk]
      refine ⟨?_, by simp [h3]⟩
      simp only [if_true]
      rw [writeNumbered, h0]
      simp only [bind, Except.bind, h2]
      rfl

theorem keyFrameNumbers_split (ivf : IVF) (n : Nat) : ∀ (i : Nat) (l : List Nat), keyFrameNumbers ivf n i = .ok l →
    ∀ k < n, ∃ f c, ivf.frame (i + k) = .ok f ∧ splitFrame f ivf.width ivf.height false = .ok c := by
  induction n with
  | zero => intro i l _ k hk; omega
  | succ n ih =>
    intro i l h k hk
    rw [keyFrameNumbers] at h
    obtain ⟨f, hf, h⟩ := except_bind_ok h
    obtain ⟨c, hc, h⟩ := except_bind_ok h
    obtain ⟨r, hr, h⟩ := except_bind_ok h
    cases k with
    | zero => exact ⟨f, c, hf, hc⟩
    | succ k =>
      obtain ⟨f', c', h1, h2⟩ := ih (i + 1) r hr k (by omega)
      exact ⟨f', c', by rw [← h1]; congr 1; omega, h2⟩

/-- **C84, extracting.** Of a VP8 file whose frames can be read and have possible beginnings the program writes a file of the same dimensions with its key frames, in their
order and unchanged, and no others; if some frame has no possible beginning it fails. -/
theorem C84_extract (file : List UInt8) (ivf : IVF) (ho : IVF.open file = .ok ivf) (info : IvfInfo) (hf : info.Fits) (hv : info.fourcc = "VP80".toUTF8.toList)
    (frames : List (List UInt8)) (hi : ivf.Holds info frames) :
    ((∀ f ∈ frames, ∃ c, splitFrame f info.width info.height false = .ok c) → ∃ out keys, extractKeyFrames file = .ok out ∧ IVF.open out = .ok keys ∧
      keys.Holds { fourcc := info.fourcc, width := info.width, height := info.height, frameRate := 1, timeScale := 1, expectedMinihash := 0 }
        (frames.filter StartsAsKey)) ∧
    ((∃ out, extractKeyFrames file = .ok out) → ∀ f ∈ frames, ∃ c, splitFrame f info.width info.height false = .ok c) := by
  obtain ⟨hn, hl⟩ := holds_sizes ho hi
  have hv' : "VP80".toUTF8.toList = [0x56, 0x50, 0x38, 0x30] := by decide +kernel
  have prog : extractKeyFrames file = (do
      let numbers ← keyFrameNumbers ivf frames.length 0
      let body ← writeNumbered ivf numbers
      pure (bareHeader info.width info.height numbers.length ++ body)) := by
    unfold extractKeyFrames
    simp only [ho, bind, Except.bind, hi.fourcc, hi.width, hi.height, hi.frameCount, hv, hv', ne_eq, not_true, if_false, pure, Except.pure]
  constructor
  · intro hs
    obtain ⟨numbers, h1, h2, h3⟩ := keyFrameNumbers_spec ivf frames 0 (fun k hk => by rw [Nat.zero_add]; exact hi.contents k hk)
      (by rw [hi.width, hi.height]; exact hs)
    obtain ⟨keys, o1, o2⟩ := C33_reads_layout { fourcc := "VP80".toUTF8.toList, width := info.width, height := info.height, frameRate := 1, timeScale := 1, expectedMinihash := 0 }
      ⟨by rw [hv']; rfl, hf.width, hf.height, (by decide : 1 < 2 ^ 32), (by decide : 1 < 2 ^ 32), (by decide : 0 < 2 ^ 32)⟩ (frames.filter StartsAsKey)
      (Nat.lt_of_le_of_lt (List.length_filter_le _ _) hn) (fun f hf => hl f (List.mem_of_mem_filter hf)) []
    refine ⟨bareHeader info.width info.height numbers.length ++ (frames.filter StartsAsKey).flatMap bareFrame, keys, ?_, ?_, by rw [hv]; exact o2⟩
    · rw [prog]
      simp only [h1, h2, bind, Except.bind]
      rfl
    · rw [h3, bare_layout, ← o1, List.append_nil]
  · rintro ⟨out, h⟩ f hf'
    rw [prog] at h
    obtain ⟨numbers, h1, -⟩ := except_bind_ok h
    obtain ⟨k, hk, rfl⟩ := List.mem_iff_getElem.mp hf'
    obtain ⟨g, c, e1, e2⟩ := keyFrameNumbers_split ivf _ _ _ h1 k hk
    rw [Nat.zero_add, hi.contents k hk] at e1
    cases e1
    rw [hi.width, hi.height] at e2
    exact ⟨c, e2⟩

/-! ### Sizes -/

theorem frameSizes_spec (ivf : IVF) (frames : List (List UInt8)) : ∀ (i : Nat), (∀ k (hk : k < frames.length), ivf.frame (i + k) = .ok frames[k]) →
    frameSizes ivf frames.length i = .ok (frames.zipIdx i |>.map fun (f, k) => (k, f.length)) := by
  induction frames with
  | nil => intro i _; rfl
  | cons f rest ih =>
    intro i hfr
    have h0 := hfr 0 (by simp)
    rw [Nat.add_zero, List.getElem_cons_zero] at h0
    have := ih (i + 1)
      (fun k hk => by
        have := hfr (k + 1) (by simpa using hk)
        rw [List.getElem_cons_succ] at this
        rw [← this, Nat.add_assoc, Nat.add_comm 1 k])
    rw [List.length_cons, frameSizes, h0]
    simp only [bind, Except.bind, this, pure, Except.pure]
    rfl

/-- **C84, sizes.** The program prints for each frame its number and its size, and the size of the file, which is that of the frames and of what stands before each, when
nothing follows them. -/
theorem C84_sizes (info : IvfInfo) (hf : info.Fits) (frames : List (List UInt8)) (hn : frames.length < 2 ^ 32) (hl : ∀ f ∈ frames, f.length < 2 ^ 32) (junk : List UInt8) :
    xcFramesize (ivfBytes info frames ++ junk) =
      .ok (frames.zipIdx.map fun (f, k) => (k, f.length), 32 + (frames.map fun f => 12 + f.length).sum + junk.length) := by
  obtain ⟨ivf, h1, h2⟩ := C33_reads_layout info hf frames hn hl junk
  unfold xcFramesize
  rw [h1]
  simp only [bind, Except.bind, h2.frameCount]
  rw [frameSizes_spec ivf frames 0 (fun k hk => by rw [Nat.zero_add]; exact h2.contents k hk)]
  simp only [pure, Except.pure]
  rw [(open_inv h1).1, List.length_append, ivfBytes_eq, List.length_append, ivfHead_length _ _ _ _ _ _ _ hf.fourcc, List.length_flatMap]
  have : (fun f : List UInt8 => (ivfFrameHeader f.length ++ f).length) = fun f => 12 + f.length := by
    funext f
    unfold ivfFrameHeader
    simp [leBytes_length]
    omega
  rw [this]

/-! ### Reading and writing again -/

theorem rewriteFrame_reads {st st' : DecoderState} {f out : List UInt8} (h : rewriteFrame st.width st.height st f = .ok (st', out)) :
    ∃ x, readFrame st f = some (st', x) := by
  unfold rewriteFrame at h
  unfold readFrame
  cases hs : splitFrame f st.width st.height false with
  | error e => rw [hs] at h; exact nomatch h
  | ok c =>
    rw [hs] at h
    simp only [bind, Except.bind] at h ⊢
    split at h
    · next hk =>
      rw [if_pos hk]
      rcases ha : st.applyKey c with ⟨s, e | p⟩
      · rw [ha] at h; exact nomatch h
      · rw [ha] at h
        simp only at h
        split at h
        · exact nomatch h
        · cases h; exact ⟨_, rfl⟩
    · next hk =>
      rw [if_neg hk]
      rcases ha : st.applyInter c with ⟨s, e | p⟩
      · rw [ha] at h; exact nomatch h
      · rw [ha] at h
        simp only at h
        split at h
        · exact nomatch h
        · cases h; exact ⟨_, rfl⟩

theorem roundtripLoop_sound (ivf : IVF) (frames : List (List UInt8)) : ∀ (i : Nat) (st : DecoderState) (out : List UInt8), st.Ok → ivf.width = st.width →
    ivf.height = st.height → (∀ k (hk : k < frames.length), ivf.frame (i + k) = .ok frames[k]) → roundtripLoop ivf frames.length i st = .ok out →
    out = frames.flatMap bareFrame ∧ ∃ xs st', ReadsFrames st frames xs st' := by
  induction frames with
  | nil => intro i st out _ _ _ _ h; cases h; exact ⟨rfl, [], st, .nil _⟩
  | cons f rest ih =>
    intro i st out hst hw hh hfr h
    have h0 := hfr 0 (by simp)
    rw [Nat.add_zero, List.getElem_cons_zero] at h0
    rw [List.length_cons, roundtripLoop, h0] at h
    obtain ⟨g, hg, h⟩ := except_bind_ok h
    cases hg
    obtain ⟨⟨st1, o⟩, h1, h⟩ := except_bind_ok h
    simp only at h
    split at h
    · exact nomatch h
    next he =>
    obtain ⟨r, hr, h⟩ := except_bind_ok h
    cases h
    rw [hw, hh] at h1
    obtain ⟨x, hx⟩ := rewriteFrame_reads h1
    obtain ⟨n1, n2, n3⟩ := readFrame_ok hst hx
    obtain ⟨rfl, xs, st', h2⟩ := ih (i + 1) st1 r n1 (by rw [hw, n2]) (by rw [hh, n3])
      (fun k hk => by
        have := hfr (k + 1) (by simpa using hk)
        rw [List.getElem_cons_succ] at this
        rw [← this, Nat.add_assoc, Nat.add_comm 1 k]) hr
    refine ⟨?_, x :: xs, st', .cons hx h2⟩
    rw [← not_not.1 he, List.flatMap_cons]

/-- A frame that an encoder wrote is written again as it was. -/
theorem rewrite_emitted_key {R : Renderer} {e e' : Encoder} {f : Frame KeyFrameHeader} {bytes : List UInt8} (hf : KeyEmittable e f)
    (hw : e.writeKey R f = some (e', bytes)) : rewriteFrame e.state.width e.state.height e.state bytes = .ok (e'.state, bytes) := by
  obtain ⟨b, parts, d, h1, h2, h3, -, h5, h6, h7⟩ := parse_serialized keyKind_lawful hf.ok {} hf.first hf.tokens
  have htab : keyKind.tables (e.updateStateKey f.header).tables f.header = keyKind.tables {} f.header := by
    unfold Encoder.updateStateKey
    by_cases hr : f.header.refreshEntropyProbs = true
    · rw [if_pos hr]; exact keyTables_idem _ _
    · rw [if_neg hr]; rfl
  have hst : e.updateStateKey f.header = keyStart f.header e.state.width e.state.height := by
    unfold Encoder.updateStateKey keyStart; rfl
  have hseg : (keyStart f.header e.state.width e.state.height).segmentation = none := by
    unfold keyStart DecoderState.ofKeyHeader
    rw [hf.segmentation]
    split <;> rfl
  have hw' : (keyStart f.header e.state.width e.state.height).width = f.width := by
    rw [hf.width]; unfold keyStart; split <;> rfl
  have hh' : (keyStart f.header e.state.width e.state.height).height = f.height := by
    rw [hf.height]; unfold keyStart; split <;> rfl
  obtain ⟨seg, ids, s1, s2⟩ := h7 (keyStart f.header e.state.width e.state.height) hw' hh' (by rw [hseg]; exact fun _ h => nomatch h)
  rw [hseg] at s1
  simp only [applySegmentation, Option.some.injEq, Prod.mk.injEq] at s1
  obtain ⟨rfl, rfl⟩ := s1
  have happly : e.state.applyKey parts = (keyStart f.header e.state.width e.state.height, .ok { frame := f, segmentIds := f.modes.map fun _ => 0 }) := by
    unfold DecoderState.applyKey
    rw [if_neg (by rw [h5]; decide), show parseKeyFrameHeader = keyKind.parseHeader from rfl, h6]
    refine s2.trans ?_
    congr 1
    refine DecoderState.ext rfl rfl rfl ?_ rfl
    exact hseg.symm
  rw [hf.width, hf.height] at h2
  have hser : keyKind.serialize (e.updateStateKey f.header).tables f = some b := by rw [serialize_congr _ htab, h1]
  unfold Encoder.writeKey at hw
  simp only [hser, Option.bind_eq_bind, Option.bind_some, pure, Option.some.injEq, Prod.mk.injEq] at hw
  obtain ⟨rfl, rfl⟩ := hw
  unfold rewriteFrame
  rw [h2]
  simp only [bind, Except.bind]
  rw [if_pos (show parts.keyFrame = true from h3), happly]
  simp only
  rw [← hst, hser]
  rfl

theorem rewrite_emitted_inter {R : Renderer} {e e' : Encoder} {f : Frame InterFrameHeader} {bytes : List UInt8} (hf : InterEmittable e f)
    (hn : e.state.segmentation = none) (hw : e.writeInter R f = some (e', bytes)) :
    rewriteFrame e.state.width e.state.height e.state bytes = .ok (e'.state, bytes) := by
  obtain ⟨b, parts, d, h1, h2, h3, -, h5, h6, h7⟩ := parse_serialized interKind_lawful hf.ok e.state.tables hf.first hf.tokens
  have htab : interKind.tables (e.updateStateInter f.header).tables f.header = interKind.tables e.state.tables f.header := by
    show interKind.tables (if f.header.refreshEntropyProbs then interKind.tables e.state.tables f.header else e.state.tables) f.header = _
    by_cases hr : f.header.refreshEntropyProbs = true
    · rw [if_pos hr]; exact interTables_idem _ _
    · rw [if_neg hr]
  have hst : e.updateStateInter f.header = e.state.applyInterHeader f.header := by
    refine DecoderState.ext rfl rfl rfl ?_ ?_
    · show e.state.segmentation = f.header.updateSegmentation.map _
      rw [hn, hf.segmentation]; rfl
    · show (match f.header.modeLfAdjustments with | some u => some ((e.state.filterAdjustments.getD {}).update u) | none => none) =
        f.header.modeLfAdjustments.map _
      cases f.header.modeLfAdjustments <;> rfl
  have hseg : (e.state.applyInterHeader f.header).segmentation = none := by
    show f.header.updateSegmentation.map _ = none
    rw [hf.segmentation]; rfl
  obtain ⟨seg, ids, s1, s2⟩ := h7 (e.state.applyInterHeader f.header) hf.width.symm hf.height.symm (by rw [hseg]; exact fun _ h => nomatch h)
  rw [hseg] at s1
  simp only [applySegmentation, Option.some.injEq, Prod.mk.injEq] at s1
  obtain ⟨rfl, rfl⟩ := s1
  have happly : e.state.applyInter parts = (e.state.applyInterHeader f.header, .ok { frame := f, segmentIds := f.modes.map fun _ => 0 }) := by
    unfold DecoderState.applyInter
    rw [show parseInterFrameHeader = interKind.parseHeader from rfl, h6]
    refine s2.trans ?_
    congr 1
    refine DecoderState.ext rfl rfl rfl ?_ rfl
    exact hseg.symm
  rw [hf.width, hf.height] at h2
  have hser : interKind.serialize (e.updateStateInter f.header).tables f = some b := by rw [serialize_congr _ htab, h1]
  unfold Encoder.writeInter at hw
  simp only [hser, Option.bind_eq_bind, Option.bind_some, pure, Option.some.injEq, Prod.mk.injEq] at hw
  obtain ⟨rfl, rfl⟩ := hw
  unfold rewriteFrame
  rw [h2]
  simp only [bind, Except.bind]
  rw [if_neg (by rw [h3]; decide), happly]
  simp only
  rw [← hst, hser]
  rfl

theorem roundtripLoop_emitted {R : Renderer} (ivf : IVF) {e e' : Encoder} {frames : List (List UInt8)} (he : Emits R e frames e') : ∀ (i : Nat),
    ivf.width = e.state.width → ivf.height = e.state.height → e.state.segmentation = none →
    (∀ k (hk : k < frames.length), ivf.frame (i + k) = .ok frames[k]) → roundtripLoop ivf frames.length i e.state = .ok (frames.flatMap bareFrame) := by
  induction he with
  | nil e => intro i _ _ _ _; rfl
  | @key e e1 e'' f bytes rest hf hw _ ih =>
    intro i h1 h2 hs hfr
    obtain ⟨e2, b2, k1, -, k3, k4, -⟩ := key_step R e f hf
    rw [hw] at k1
    cases k1
    have d := keyStart_dims f.header e.state.width e.state.height
    have hst : e1.state = keyStart f.header e.state.width e.state.height := by
      rw [k4]; unfold Encoder.updateStateKey keyStart; rfl
    have h0 := hfr 0 (by simp)
    rw [Nat.add_zero, List.getElem_cons_zero] at h0
    have := ih (i + 1) (by rw [hst, d.1, h1]) (by rw [hst, d.2, h2]) k3 (fun k hk => by
      have := hfr (k + 1) (by simpa using hk)
      rw [List.getElem_cons_succ] at this
      rw [← this, Nat.add_assoc, Nat.add_comm 1 k])
    rw [List.length_cons, roundtripLoop, h0]
    simp only [bind, Except.bind, h1, h2, rewrite_emitted_key hf hw, ne_eq, not_true, if_false, this, pure, Except.pure]
    rfl
  | @inter e e1 e'' f bytes rest hf hw _ ih =>
    intro i h1 h2 hs hfr
    obtain ⟨e2, b2, new, k1, -, k3, k4, -⟩ := inter_step R e f hf hs
    rw [hw] at k1
    cases k1
    have h0 := hfr 0 (by simp)
    rw [Nat.add_zero, List.getElem_cons_zero] at h0
    have := ih (i + 1) (by rw [k4]; exact h1) (by rw [k4]; exact h2) k3 (fun k hk => by
      have := hfr (k + 1) (by simpa using hk)
      rw [List.getElem_cons_succ] at this
      rw [← this, Nat.add_assoc, Nat.add_comm 1 k])
    rw [List.length_cons, roundtripLoop, h0]
    simp only [bind, Except.bind, h1, h2, rewrite_emitted_inter hf hs hw, ne_eq, not_true, if_false, this, pure, Except.pure]
    rfl

/-- **C84, reading and writing again: what it accepts.** Each VP8 file that holds what an encoder wrote, from its beginning or from a state that is given, passes, and what is written holds
the same frames. -/
theorem C84_roundtrip_accepts (R : Renderer) (file : List UInt8) (ivf : IVF) (ho : IVF.open file = .ok ivf) (info : IvfInfo) (hf : info.Fits)
    (hv : info.fourcc = "VP80".toUTF8.toList) (frames : List (List UInt8)) (hi : ivf.Holds info frames) (e e' : Encoder) (he : Emits R e frames e')
    (hw : e.state.width = info.width) (hh : e.state.height = info.height) (hs : e.state.segmentation = none) (initial : Option DecoderState)
    (h0 : initial.getD { width := info.width, height := info.height } = e.state) :
    ∃ out again, roundtrip initial file = .ok out ∧ IVF.open out = .ok again ∧
      again.Holds { fourcc := info.fourcc, width := info.width, height := info.height, frameRate := 1, timeScale := 1, expectedMinihash := 0 } frames := by
  obtain ⟨hn, hl⟩ := holds_sizes ho hi
  have hv' : "VP80".toUTF8.toList = [0x56, 0x50, 0x38, 0x30] := by decide +kernel
  obtain ⟨again, o1, o2⟩ := C33_reads_layout { fourcc := "VP80".toUTF8.toList, width := info.width, height := info.height, frameRate := 1, timeScale := 1, expectedMinihash := 0 }
    ⟨by rw [hv']; rfl, hf.width, hf.height, (by decide : 1 < 2 ^ 32), (by decide : 1 < 2 ^ 32), (by decide : 0 < 2 ^ 32)⟩ frames hn hl []
  refine ⟨bareHeader info.width info.height frames.length ++ frames.flatMap bareFrame, again, ?_, by rw [bare_layout, ← o1, List.append_nil], by rw [hv]; exact o2⟩
  have := roundtripLoop_emitted ivf he 0 (hi.width.trans hw.symm) (hi.height.trans hh.symm) hs (fun k hk => by rw [Nat.zero_add]; exact hi.contents k hk)
  unfold roundtrip
  simp only [ho, bind, Except.bind, hi.fourcc, hi.width, hi.height, hi.frameCount, hv, hv', ne_eq, not_true, if_false, pure, Except.pure, h0, this]

/-- **C84, reading and writing again: what passes.** If a VP8 file passes, then a decoder with that state reads all its frames, and what is written holds the same frames. -/
theorem C84_roundtrip_passed (file : List UInt8) (ivf : IVF) (ho : IVF.open file = .ok ivf) (info : IvfInfo) (hf : info.Fits)
    (frames : List (List UInt8)) (hi : ivf.Holds info frames) (initial : Option DecoderState)
    (hst : (initial.getD { width := info.width, height := info.height }).Ok)
    (hw : (initial.getD { width := info.width, height := info.height }).width = info.width)
    (hh : (initial.getD { width := info.width, height := info.height }).height = info.height) (out : List UInt8) (h : roundtrip initial file = .ok out) :
    info.fourcc = "VP80".toUTF8.toList ∧ (∃ read st, ReadsFrames (initial.getD { width := info.width, height := info.height }) frames read st) ∧
    ∃ again, IVF.open out = .ok again ∧
      again.Holds { fourcc := info.fourcc, width := info.width, height := info.height, frameRate := 1, timeScale := 1, expectedMinihash := 0 } frames := by
  obtain ⟨hn, hl⟩ := holds_sizes ho hi
  have hv' : "VP80".toUTF8.toList = [0x56, 0x50, 0x38, 0x30] := by decide +kernel
  unfold roundtrip at h
  simp only [ho, bind, Except.bind, hi.fourcc, hi.width, hi.height, hi.frameCount] at h
  by_cases hv : info.fourcc = [0x56, 0x50, 0x38, 0x30]
  swap
  · rw [if_pos hv] at h; exact nomatch h
  rw [if_neg (fun h => h hv)] at h
  simp only [pure, Except.pure] at h
  split at h
  · exact nomatch h
  next body hb =>
  cases h
  obtain ⟨rfl, xs, st, hx⟩ := roundtripLoop_sound ivf frames 0 _ body hst (hi.width.trans hw.symm) (hi.height.trans hh.symm)
    (fun k hk => by rw [Nat.zero_add]; exact hi.contents k hk) hb
  obtain ⟨again, o1, o2⟩ := C33_reads_layout { fourcc := "VP80".toUTF8.toList, width := info.width, height := info.height, frameRate := 1, timeScale := 1, expectedMinihash := 0 }
    ⟨by rw [hv']; rfl, hf.width, hf.height, (by decide : 1 < 2 ^ 32), (by decide : 1 < 2 ^ 32), (by decide : 0 < 2 ^ 32)⟩ frames hn hl []
  refine ⟨by rw [hv', hv], ⟨xs, st, hx⟩, again, by rw [bare_layout, ← o1, List.append_nil], ?_⟩
  rw [hv', ← hv] at o2
  exact o2

/-- **C84, writing again twice.** What is written for a frame that was read is read as the same frame and written again as it is, so that a second pass finds no difference. -/
theorem C84_rewritten_stable (st st' : DecoderState) (hst : st.Ok) (f out : List UInt8)
    (hl : LengthsFit keyKind KeyFrameOk st.width st.height ∧ LengthsFit interKind InterFrameOk st.width st.height)
    (h : rewriteFrame st.width st.height st f = .ok (st', out)) :
    rewriteFrame st.width st.height st out = .ok (st', out) ∧ readFrame st out = readFrame st f := by
  unfold rewriteFrame at h
  unfold readFrame
  cases hs : splitFrame f st.width st.height false with
  | error e => rw [hs] at h; exact nomatch h
  | ok c =>
    rw [hs] at h
    simp only [bind, Except.bind] at h ⊢
    split at h
    · next hk =>
      rcases ha : st.applyKey c with ⟨s, e | p⟩
      · rw [ha] at h; exact nomatch h
      · obtain ⟨o, parts, k1, k2, k3, k4, k5⟩ := rewrite_key hst ha hl.1
        rw [ha] at h
        simp only [k1] at h
        cases h
        unfold rewriteFrame
        simp only [bind, Except.bind, k3, k4, if_true, k5, k1, hk, ha]
        exact ⟨rfl, trivial⟩
    · next hk =>
      rcases ha : st.applyInter c with ⟨s, e | p⟩
      · rw [ha] at h; exact nomatch h
      · obtain ⟨o, parts, k1, k2, k3, k4, k5, k6⟩ := rewrite_inter hst ha hl.2 false p rfl
        rw [ha] at h
        simp only [k1] at h
        cases h
        unfold rewriteFrame
        simp only [bind, Except.bind, k3, k4, k6, k1, if_neg hk, ha, Bool.false_eq_true, if_false]
        exact ⟨rfl, trivial⟩

/-- What an encoder writes starts as a key frame does, or not. -/
theorem emitted_key_start {R : Renderer} {e e' : Encoder} {f : Frame KeyFrameHeader} {bytes : List UInt8} (hf : KeyEmittable e f)
    (hw : e.writeKey R f = some (e', bytes)) : (∃ c, splitFrame bytes e.state.width e.state.height false = .ok c) ∧ StartsAsKey bytes = true := by
  obtain ⟨o, hx, h⟩ := Option.bind_eq_some_iff.mp (show _ = some (e', bytes) from hw)
  cases h
  have htab : keyKind.tables (e.updateStateKey f.header).tables f.header = keyKind.tables {} f.header := by
    unfold Encoder.updateStateKey
    by_cases hr : f.header.refreshEntropyProbs = true
    · rw [if_pos hr]; exact keyTables_idem _ _
    · rw [if_neg hr]; rfl
  obtain ⟨b, parts, d, h1, h2, h3, -⟩ := parse_serialized keyKind_lawful hf.ok {} hf.first hf.tokens
  rw [serialize_congr _ htab] at hx
  rw [h1] at hx
  cases hx
  rw [hf.width, hf.height] at h2
  exact ⟨⟨_, h2⟩, by rw [← key_iff h2, h3]; rfl⟩

theorem emitted_inter_start {R : Renderer} {e e' : Encoder} {f : Frame InterFrameHeader} {bytes : List UInt8} (hf : InterEmittable e f)
    (hw : e.writeInter R f = some (e', bytes)) : (∃ c, splitFrame bytes e.state.width e.state.height false = .ok c) ∧ StartsAsKey bytes = false := by
  obtain ⟨o, hx, h⟩ := Option.bind_eq_some_iff.mp (show _ = some (e', bytes) from hw)
  cases h
  have htab : interKind.tables (e.updateStateInter f.header).tables f.header = interKind.tables e.state.tables f.header := by
    show interKind.tables (if f.header.refreshEntropyProbs then interKind.tables e.state.tables f.header else e.state.tables) f.header = _
    by_cases hr : f.header.refreshEntropyProbs = true
    · rw [if_pos hr]; exact interTables_idem _ _
    · rw [if_neg hr]
  obtain ⟨b, parts, d, h1, h2, h3, -⟩ := parse_serialized interKind_lawful hf.ok e.state.tables hf.first hf.tokens
  rw [serialize_congr _ htab] at hx
  rw [h1] at hx
  cases hx
  rw [hf.width, hf.height] at h2
  exact ⟨⟨_, h2⟩, by rw [← key_iff h2, h3]; rfl⟩

/-- A file that an encoder wrote, with a key frame and an inter frame, and that expects a decoder state: it is copied, it passes, and its key frame is extracted. -/
example : ∃ (file : List UInt8) (ivf : IVF) (info : IvfInfo) (key inter : List UInt8) (out1 out2 out3 : List UInt8) (again keys : IVF),
    IVF.open file = .ok ivf ∧ info.Fits ∧ ivf.Holds info [key, inter] ∧ info.expectedMinihash ≠ 0 ∧
    ivfCopy file = .ok out1 ∧ ivfCompare file out1 = .ok true ∧ ivfCompare file out3 = .ok false ∧
    roundtrip none file = .ok out2 ∧ IVF.open out2 = .ok again ∧ again.frame 1 = .ok inter ∧
    extractKeyFrames file = .ok out3 ∧ IVF.open out3 = .ok keys ∧ keys.frameCount = 1 ∧ keys.frame 0 = .ok key ∧
    xcFramesize file = .ok ([(0, key.length), (1, inter.length)], 56 + key.length + inter.length) := by
  let e : Encoder := ⟨{ width := 17, height := 20 }, ⟨blankRaster 17 20, blankRaster 17 20, blankRaster 17 20⟩⟩
  obtain ⟨l1, l2⟩ := C68_lengths_fit (width := 17) (height := 20) (by decide)
  have hk : KeyEmittable e exampleKeyFrame2 := ⟨exampleKeyFrame2_ok, rfl, rfl, rfl, (l1 _ _ exampleKeyFrame2_ok rfl rfl).1,
    fun bs hbs b hb => (l1 _ _ exampleKeyFrame2_ok rfl rfl).2 bs hbs b (List.dropLast_subset _ hb)⟩
  obtain ⟨e1, b1, k1, k2, k3, k4, -⟩ := key_step codeRenderer e exampleKeyFrame2 hk
  have hst : e1.state = keyStart exampleKeyFrame2.header 17 20 := by
    rw [k4]; unfold Encoder.updateStateKey keyStart; rfl
  have hw1 : e1.state.width = 17 := by rw [hst]; exact (keyStart_dims _ _ _).1
  have hh1 : e1.state.height = 20 := by rw [hst]; exact (keyStart_dims _ _ _).2
  have hi : InterEmittable e1 exampleInterFrame2 := ⟨exampleInterFrame2_ok, hw1.symm, hh1.symm, rfl, (l2 _ _ exampleInterFrame2_ok rfl rfl).1,
    fun bs hbs b hb => (l2 _ _ exampleInterFrame2_ok rfl rfl).2 bs hbs b (List.dropLast_subset _ hb)⟩
  obtain ⟨e2, b2, new, i1, i2, i3, i4, i5, -⟩ := inter_step codeRenderer e1 exampleInterFrame2 hi k3
  have n1 : b1.length < 2 ^ 32 := by
    unfold Encoder.writeKey at k1
    obtain ⟨x, hx, h⟩ := Option.bind_eq_some_iff.mp k1
    cases h
    exact serialize_length keyKind_lawful exampleKeyFrame2_ok l1 hx
  have n2 : b2.length < 2 ^ 32 := by
    unfold Encoder.writeInter at i1
    obtain ⟨x, hx, h⟩ := Option.bind_eq_some_iff.mp i1
    cases h
    exact serialize_length interKind_lawful exampleInterFrame2_ok l2 hx
  let info : IvfInfo := { fourcc := [0x56, 0x50, 0x38, 0x30], width := 17, height := 20, frameRate := 24, timeScale := 1, expectedMinihash := 7 }
  have hv : info.fourcc = "VP80".toUTF8.toList := by decide +kernel
  have hfits : info.Fits := ⟨rfl, by decide, by decide, by decide, by decide, by decide⟩
  have hl : ∀ f ∈ [b1, b2], f.length < 2 ^ 32 := fun f hf => by
    rcases List.mem_cons.1 hf with rfl | hf
    exacts [n1, by rw [List.mem_singleton.1 hf]; exact n2]
  obtain ⟨ivf, o1, o2⟩ := C33_reads_layout info hfits [b1, b2] (show 2 < 2 ^ 32 by decide) hl []
  have sizes := C84_sizes info hfits [b1, b2] (show 2 < 2 ^ 32 by decide) hl []
  have total : 32 + ([b1, b2].map fun f => 12 + f.length).sum + ([] : List UInt8).length = 56 + b1.length + b2.length := by
    simp only [List.map_cons, List.map_nil, List.sum_cons, List.sum_nil, List.length_nil]
    omega
  rw [total] at sizes
  generalize ivfBytes info [b1, b2] ++ [] = file at o1 sizes
  obtain ⟨s1, t1⟩ := emitted_key_start hk k1
  obtain ⟨s2, t2⟩ := emitted_inter_start hi i1
  rw [hw1, hh1] at s2
  obtain ⟨out1, copy, p1, p2, p3, -⟩ := C84_copy_loses_hash _ ivf o1 info hfits _ o2 (by decide)
  obtain ⟨out2, again, q1, q2, q3⟩ := C84_roundtrip_accepts codeRenderer _ ivf o1 info hfits hv _ o2 e e2 (.key hk k1 (.inter hi i1 (.nil _))) rfl rfl rfl none rfl
  obtain ⟨out3, keys, x1, x2, x3⟩ := (C84_extract _ ivf o1 info hfits hv _ o2).1
    (fun f hf => by rcases List.mem_cons.1 hf with rfl | hf; exacts [s1, by rw [List.mem_singleton.1 hf]; exact s2])
  have hk1 : [b1, b2].filter StartsAsKey = [b1] := by simp [t1, t2]
  rw [hk1] at x3
  obtain ⟨r, y1, y2⟩ := C84_compare _ _ ivf keys o1 x2 info _ _ _ o2 x3
  have : r = false := by
    cases r
    · rfl
    · exact absurd (congrArg List.length (y2.1 rfl).2) (by simp)
  subst this
  exact ⟨_, ivf, info, b1, b2, out1, out2, out3, again, keys, o1, hfits, o2, by decide, p1, p3, y1, q1, q2, q3.contents 1 (by simp), x1, x2, x3.frameCount,
    x3.contents 0 (by simp), sizes⟩

end Alfalfa
