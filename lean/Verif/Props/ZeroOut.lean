import Verif.Proof.ZeroOut
import Verif.Props.Length

/-! The program that removes the coefficients of inter frames (C83). -/

namespace Alfalfa

theorem serialize_unskippable {f : Frame InterFrameHeader} (hm : f.modes ≠ []) (hp : f.header.probSkipFalse = none) (t : ProbabilityTables) :
    interKind.serialize t f.zeroOut = none := by
  have : ∀ t, interKind.serializeFirst t f.zeroOut = none := by
    intro t
    unfold FrameKind.serializeFirst
    obtain ⟨m, rest, e⟩ := List.exists_cons_of_ne_nil hm
    have : f.zeroOut.modes = m.zeroOut :: rest.map MBModes.zeroOut := by
      unfold Frame.zeroOut
      simp only
      rw [e]
      rfl
    rw [this]
    unfold writeMBs
    have : ∀ c, interKind.writeMB f.zeroOut.header t c m.zeroOut = none := by
      intro c
      show writeInterMB f.header t c m.zeroOut = none
      unfold writeInterMB
      rw [hp]
      cases writeSegmentId f.header.updateSegmentation m.zeroOut.segmentIdUpdate <;> rfl
    rw [this]
    rfl
  unfold FrameKind.serialize
  simp only
  rw [this]
  rfl

/-- An inter frame that was read can be written without its coefficients, if the header has a probability for that, and is then read as the same frame without
coefficients. -/
theorem rewrite_emptied {st st' : DecoderState} (hst : st.Ok) {c : FrameParts} {p : ParsedFrame InterFrameHeader} (h : st.applyInter c = (st', .ok p))
    (hl : LengthsFit interKind InterFrameOk st.width st.height) :
    (p.frame.header.probSkipFalse = none → interKind.serialize st'.tables p.frame.zeroOut = none) ∧
    (p.frame.header.probSkipFalse ≠ none → ∃ out parts, interKind.serialize st'.tables p.frame.zeroOut = some out ∧ out.length < 2 ^ 32 ∧
      splitFrame out st.width st.height false = .ok parts ∧ parts.keyFrame = false ∧ parts.experimental = false ∧
      st.applyInter parts = (st', .ok { p with frame := p.frame.emptied })) := by
  obtain ⟨hok, hw, hh⟩ : InterFrameOk p.frame ∧ p.frame.width = st.width ∧ p.frame.height = st.height := by
    have := (C12_inter_frame_total st hst c).2
    rw [h] at this
    rcases this with h4 | h4 | ⟨q, h4, h5, h6, h7, -⟩
    · exact nomatch h4
    · exact nomatch h4
    · injection h4 with h4; subst h4; exact ⟨h5, h6, h7⟩
  refine ⟨fun hn => serialize_unskippable ?_ hn _, fun hsk => ?_⟩
  · intro e
    have := hok.count
    rw [e, List.length_nil] at this
    have hp := Nat.mul_pos (show 0 < (p.frame.width + 15) / 16 by have := hok.width; omega) (show 0 < (p.frame.height + 15) / 16 by have := hok.height; omega)
    omega
  have hqok := emptied_ok hok hsk
  have hl' := fun t => hl p.frame.emptied t hqok hw hh
  obtain ⟨bytes, parts, d, h1, h2, h3, -, h5, h6, h7⟩ := parse_serialized interKind_lawful hqok st.tables (fun b hb => (hl' _).1 b hb)
    (fun bs hbs b hb => (hl' _).2 bs hbs b (List.dropLast_subset _ hb))
  obtain ⟨d0, e1, e2⟩ := applyInter_ok h
  obtain ⟨e3, e4⟩ := parseBody_inv e2
  have hseg := (applyInterHeader_ok hst hqok.header).segmentation
  have hw' : (st.applyInterHeader p.frame.header).width = p.frame.width := hw.symm
  have hh' : (st.applyInterHeader p.frame.header).height = p.frame.height := hh.symm
  obtain ⟨seg, ids, s1, s2⟩ := h7 (st.applyInterHeader p.frame.header) hw' hh'
    (fun s hs => by
      have := hseg s hs
      rw [show (st.applyInterHeader p.frame.emptied.header).width = p.frame.width from hw',
        show (st.applyInterHeader p.frame.emptied.header).height = p.frame.height from hh'] at this
      exact this)
  rw [show p.frame.emptied.modes = p.frame.modes.map MBModes.zeroOut from rfl, applySegmentation_zeroOut,
    show p.frame.emptied.width = p.frame.width from rfl] at s1
  rw [hw', s1] at e3
  simp only [Option.some.injEq, Prod.mk.injEq] at e3
  obtain ⟨rfl, rfl⟩ := e3
  rw [← e4] at s2
  have htab : interKind.tables st'.tables p.frame.emptied.header = interKind.tables st.tables p.frame.emptied.header := by
    rw [e4]
    show interKind.tables (if p.frame.header.refreshEntropyProbs then interKind.tables st.tables p.frame.header else st.tables) p.frame.header = _
    by_cases hr : p.frame.header.refreshEntropyProbs = true
    · rw [if_pos hr]; exact interTables_idem _ _
    · rw [if_neg hr]; rfl
  rw [show p.frame.emptied.width = p.frame.width from rfl, show p.frame.emptied.height = p.frame.height from rfl, hw, hh] at h2
  refine ⟨bytes, parts, ?_, serialize_length interKind_lawful hqok
    (by rw [show p.frame.emptied.width = p.frame.width from rfl, show p.frame.emptied.height = p.frame.height from rfl, hw, hh]; exact hl) h1, h2, h3, h5, ?_⟩
  · rw [serialize_zeroOut _ hok.countResidues, serialize_congr _ htab]; exact h1
  unfold DecoderState.applyInter
  rw [show parseInterFrameHeader = interKind.parseHeader from rfl, h6]
  exact s2

/-- What one step of the program does, as far as a decoder sees it. -/
theorem zeroOut_step (R : Renderer) {d : Decoder} (hd : d.state.Ok) (hk : LengthsFit keyKind KeyFrameOk d.state.width d.state.height)
    (hi : LengthsFit interKind InterFrameOk d.state.width d.state.height) (bytes : List UInt8) :
    (∀ d' out, zeroOutFrame R d bytes = .ok (d', out) → ∃ x, readFrame d.state bytes = some (d'.state, x) ∧ x.Skips ∧ out.length < 2 ^ 32 ∧
      readFrame d.state out = some (d'.state, x.withoutResidue) ∧
      ∀ e : Decoder, e.state = d.state → ∃ e' y, e.getFrameOutput R out = (e', .ok y) ∧ e'.state = d'.state) ∧
    (∀ st x, readFrame d.state bytes = some (st, x) → x.Skips → ∃ d' out, zeroOutFrame R d bytes = .ok (d', out)) := by
  unfold zeroOutFrame readFrame
  cases hs : splitFrame bytes d.state.width d.state.height false with
  | error e => exact ⟨fun _ _ h => (nomatch h), fun _ _ h => (nomatch h)⟩
  | ok c =>
    simp only [bind, Except.bind]
    by_cases hkf : c.keyFrame = true
    · rw [if_pos hkf, if_pos hkf]
      rcases ha : d.state.applyKey c with ⟨st, e | f⟩
      · exact ⟨fun _ _ h => (nomatch h), fun _ _ h => (nomatch h)⟩
      · obtain ⟨out, parts, k1, k2, k3, k4, k5⟩ := rewrite_key hd ha hk
        simp only [k1]
        refine ⟨fun d' o h => ?_, fun _ _ _ _ => ⟨_, _, rfl⟩⟩
        simp only [pure, Except.pure, Except.ok.injEq, Prod.mk.injEq] at h
        obtain ⟨rfl, rfl⟩ := h
        refine ⟨.key f, rfl, trivial, k2, ?_, fun e he => ?_⟩
        · rw [k3]
          simp only
          rw [if_pos k4, k5]
          rfl
        · unfold Decoder.getFrameOutput
          rw [he, k3]
          simp only
          rw [if_pos k4, k5]
          exact ⟨_, _, rfl, rfl⟩
    · rw [if_neg hkf, if_neg hkf]
      rcases ha : d.state.applyInter c with ⟨st, e | f⟩
      · exact ⟨fun _ _ h => (nomatch h), fun _ _ h => (nomatch h)⟩
      · obtain ⟨r1, r2⟩ := rewrite_emptied hd ha hi
        simp only
        refine ⟨fun d' o h => ?_, fun st' x hx hsk => ?_⟩
        · by_cases hsk : f.frame.header.probSkipFalse = none
          · rw [r1 hsk] at h; exact nomatch h
          obtain ⟨out, parts, k1, k2, k3, k4, k5, k6⟩ := r2 hsk
          rw [k1] at h
          simp only [pure, Except.pure, Except.ok.injEq, Prod.mk.injEq] at h
          obtain ⟨rfl, rfl⟩ := h
          refine ⟨.inter f, rfl, hsk, k2, ?_, fun e he => ?_⟩
          · rw [k3]
            simp only
            rw [if_neg (by rw [k4]; decide), k6]
            rfl
          · unfold Decoder.getFrameOutput
            rw [he, k3]
            simp only
            rw [if_neg (by rw [k4]; decide), if_pos (by rw [k5]; decide), k6]
            exact ⟨_, _, rfl, rfl⟩
        · simp only [Option.some.injEq, Prod.mk.injEq] at hx
          obtain ⟨rfl, rfl⟩ := hx
          obtain ⟨out, parts, k1, -⟩ := r2 hsk
          rw [k1]
          exact ⟨_, _, rfl⟩

theorem readFrame_ok {st st' : DecoderState} (hst : st.Ok) {bytes : List UInt8} {x : ReadFrame} (h : readFrame st bytes = some (st', x)) :
    st'.Ok ∧ st'.width = st.width ∧ st'.height = st.height := by
  unfold readFrame at h
  cases hs : splitFrame bytes st.width st.height false with
  | error e => rw [hs] at h; exact nomatch h
  | ok c =>
    rw [hs] at h
    simp only at h
    split at h
    · have h1 := (C12_key_frame_total st hst c).1
      rcases ha : st.applyKey c with ⟨s, e | f⟩
      · rw [ha] at h; exact nomatch h
      · rw [ha] at h h1
        cases h
        refine ⟨h1, ?_⟩
        obtain ⟨d0, -, e2⟩ := applyKey_ok ha
        obtain ⟨-, e4⟩ := parseBody_inv e2
        rw [e4]
        exact keyStart_dims _ _ _
    · have h1 := (C12_inter_frame_total st hst c).1
      rcases ha : st.applyInter c with ⟨s, e | f⟩
      · rw [ha] at h; exact nomatch h
      · rw [ha] at h h1
        cases h
        refine ⟨h1, ?_⟩
        obtain ⟨d0, -, e2⟩ := applyInter_ok ha
        obtain ⟨-, e4⟩ := parseBody_inv e2
        rw [e4]
        exact ⟨rfl, rfl⟩

theorem ReadsFrames.unique {st : DecoderState} {frames : List (List UInt8)} {xs : List ReadFrame} {st1 : DecoderState} (h : ReadsFrames st frames xs st1) :
    ∀ {ys : List ReadFrame} {st2 : DecoderState}, ReadsFrames st frames ys st2 → xs = ys ∧ st1 = st2 := by
  induction h with
  | nil st => intro ys st2 h2; cases h2; exact ⟨rfl, rfl⟩
  | cons r1 r2 ih =>
    intro ys st2 h2
    cases h2 with
    | cons q1 q2 =>
      rw [r1] at q1
      cases q1
      obtain ⟨e1, e2⟩ := ih q2
      exact ⟨by rw [e1], e2⟩

/-- The loop, from frame `i` on. -/
theorem zeroOutLoop_spec (R : Renderer) (ivf : IVF) {info : IvfInfo} (hf : info.fourcc.length = 4)
    (rem : List (List UInt8)) : ∀ (i : Nat) (d : Decoder) (w : IVFWriter) (done : List (List UInt8)), d.state.Ok →
    LengthsFit keyKind KeyFrameOk d.state.width d.state.height → LengthsFit interKind InterFrameOk d.state.width d.state.height →
    w.Wrote info done → done.length + rem.length < 2 ^ 32 →
    (∀ k (hk : k < rem.length), ivf.frame (i + k) = .ok rem[k]) →
    (∀ w', zeroOutLoop R ivf rem.length i d w = .ok w' → ∃ outs xs st, (∀ o ∈ outs, o.length < 2 ^ 32) ∧ outs.length = rem.length ∧ w'.Wrote info (done ++ outs) ∧
      ReadsFrames d.state rem xs st ∧ (∀ x ∈ xs, x.Skips) ∧ ReadsFrames d.state outs (xs.map ReadFrame.withoutResidue) st ∧
      ∀ e : Decoder, e.state = d.state → AllDecoded (e.run R outs).2 ∧ (e.run R outs).1.state = st) ∧
    (∀ xs st, ReadsFrames d.state rem xs st → (∀ x ∈ xs, x.Skips) → ∃ w', zeroOutLoop R ivf rem.length i d w = .ok w') := by
  induction rem with
  | nil =>
    intro i d w done _ _ _ hw _ _
    refine ⟨fun w' h => ?_, fun _ _ _ _ => ⟨w, rfl⟩⟩
    simp only [List.length_nil, zeroOutLoop, Except.ok.injEq] at h
    subst h
    exact ⟨[], [], d.state, by simp, rfl, by simpa using hw, .nil _, by simp, .nil _, fun e he => ⟨fun o ho => absurd ho (by simp [Decoder.run]), he⟩⟩
  | cons f rest ih =>
    intro i d w done hd hk hi hw hn hfr
    have h0 := hfr 0 (by simp)
    rw [Nat.add_zero, List.getElem_cons_zero] at h0
    have hfr' : ∀ k (hk : k < rest.length), ivf.frame (i + 1 + k) = .ok rest[k] := fun k hk => by
      have := hfr (k + 1) (by simpa using hk)
      rw [List.getElem_cons_succ] at this
      rw [← this]
      congr 1
      omega
    rw [List.length_cons] at hn
    obtain ⟨s1, s2⟩ := zeroOut_step R hd hk hi f
    have after : ∀ d1 out, zeroOutFrame R d f = .ok (d1, out) → d1.state.Ok ∧
        LengthsFit keyKind KeyFrameOk d1.state.width d1.state.height ∧ LengthsFit interKind InterFrameOk d1.state.width d1.state.height := by
      intro d1 out ht
      obtain ⟨x, r1, -⟩ := s1 d1 out ht
      obtain ⟨n1, n2, n3⟩ := readFrame_ok hd r1
      exact ⟨n1, by rw [n2, n3]; exact hk, by rw [n2, n3]; exact hi⟩
    have go := fun d1 out w1 ht hw1 => ih (i + 1) d1 w1 (done ++ [out]) (after d1 out ht).1 (after d1 out ht).2.1 (after d1 out ht).2.2 hw1
      (by rw [List.length_append, List.length_singleton]; omega) hfr'
    rw [List.length_cons]
    unfold zeroOutLoop
    rw [h0]
    simp only [bind, Except.bind]
    refine ⟨fun w' h => ?_, fun xs st hx hsk => ?_⟩
    · cases ht : zeroOutFrame R d f with
      | error e => rw [ht] at h; exact nomatch h
      | ok p =>
        obtain ⟨d1, out⟩ := p
        obtain ⟨w1, e2, hw1⟩ := hw.append hf (by omega) out
        rw [ht] at h
        simp only [e2] at h
        obtain ⟨x, r1, r2, r3, r4, r5⟩ := s1 d1 out ht
        obtain ⟨outs, xs, st, o1, o2, o3, o4, o5, o6, o7⟩ := (go d1 out w1 ht hw1).1 w' h
        refine ⟨out :: outs, x :: xs, st, ?_, by rw [List.length_cons, o2], by simpa using o3, .cons r1 o4, ?_, .cons r4 o6, fun e he => ?_⟩
        · intro o ho
          rcases List.mem_cons.1 ho with rfl | ho
          · exact r3
          · exact o1 o ho
        · intro o ho
          rcases List.mem_cons.1 ho with rfl | ho
          · exact r2
          · exact o5 o ho
        · obtain ⟨e', y, f1, f2⟩ := r5 e he
          obtain ⟨a1, a2⟩ := o7 e' f2
          rw [run_cons, run_fst, f1]
          refine ⟨fun o ho => ?_, a2⟩
          rcases List.mem_cons.1 ho with rfl | ho
          · exact ⟨_, rfl⟩
          · exact a1 o ho
    · cases hx with
      | cons r1 r2 =>
        obtain ⟨d1, out, ht⟩ := s2 _ _ r1 (hsk _ (by simp))
        obtain ⟨w1, e2, hw1⟩ := hw.append hf (by omega) out
        obtain ⟨x, q1, -⟩ := s1 d1 out ht
        rw [r1] at q1
        cases q1
        obtain ⟨w', hw'⟩ := (go d1 out w1 ht hw1).2 _ _ r2 (fun x hx => hsk x (by simp [hx]))
        rw [ht]
        simp only [e2]
        exact ⟨w', hw'⟩

/-- The program as its loop. -/
theorem xcZeroOutResidues_eq (R : Renderer) (mix : Nat → Nat → Nat) (fresh : References) {bytes : List UInt8} {ivf : IVF} (ho : IVF.open bytes = .ok ivf)
    {info : IvfInfo} {frames : List (List UInt8)} (hi : ivf.Holds info frames) {w : IVFWriter}
    (hw : IVFWriter.create info.fourcc info.width info.height info.frameRate info.timeScale = .ok w) :
    xcZeroOutResidues R mix fresh bytes = if (Decoder.new fresh info.width info.height).minihashMatch mix info.expectedMinihash = false then .error .invalid
      else (zeroOutLoop R ivf frames.length 0 (Decoder.new fresh info.width info.height) w).map (·.file) := by
  unfold xcZeroOutResidues
  simp only [ho, bind, Except.bind, hi.fourcc, hi.width, hi.height, hi.frameRate, hi.timeScale, hw, hi.expectedMinihash, hi.frameCount]
  split
  · rfl
  · simp only [pure, Except.pure]
    cases zeroOutLoop R ivf frames.length 0 (Decoder.new fresh info.width info.height) w <;> rfl

/-- **C83.** Whenever the program accepts a file, it writes a file with the same dimensions and rate and as many frames, in which a new decoder reads the same frames as in the
first file, with the same headers, modes, motion vectors and segments, the key frames with the same coefficients and the inter frames without any; the decoder decodes them all, and its
state (the probabilities, the segmentation and the filter adjustments) is in the end the same. -/
theorem C83_without_residues (R : Renderer) (mix : Nat → Nat → Nat) (fresh : References) (bytes : List UInt8)
    (ivf : IVF) (ho : IVF.open bytes = .ok ivf) (info : IvfInfo) (hf : info.Fits) (frames : List (List UInt8)) (hi : ivf.Holds info frames)
    (hw : 0 < info.width ∧ info.width < 2 ^ 14) (hh : 0 < info.height ∧ info.height < 2 ^ 14)
    (hl : LengthsFit keyKind KeyFrameOk info.width info.height ∧ LengthsFit interKind InterFrameOk info.width info.height) (out : List UInt8)
    (h : xcZeroOutResidues R mix fresh bytes = .ok out) :
    ∃ ivf' frames' read st, IVF.open out = .ok ivf' ∧ ivf'.Holds { info with expectedMinihash := 0 } frames' ∧ frames'.length = frames.length ∧
      ReadsFrames (Decoder.new fresh info.width info.height).state frames read st ∧
      ReadsFrames (Decoder.new fresh info.width info.height).state frames' (read.map ReadFrame.withoutResidue) st ∧
      AllDecoded ((Decoder.new fresh info.width info.height).run R frames').2 ∧ ((Decoder.new fresh info.width info.height).run R frames').1.state = st := by
  obtain ⟨w, hc, hw0⟩ := create_wrote info.fourcc info.width info.height info.frameRate info.timeScale hf.fourcc
  rw [xcZeroOutResidues_eq R mix _ ho hi hc] at h
  split at h
  · exact nomatch h
  have hn : frames.length < 2 ^ 32 := by
    rw [← hi.frameCount, (open_inv ho).2.2.1]
    exact (leValue_lt _).trans_le (Nat.pow_le_pow_right (by decide) (List.length_take_le _ _) |>.trans_eq rfl)
  have hd : (Decoder.new fresh info.width info.height).state.Ok := ⟨hw, hh, fun _ h => (nomatch h), fun _ h => (nomatch h)⟩
  have spec := (zeroOutLoop_spec R ivf (info := ⟨info.fourcc, info.width, info.height, info.frameRate, info.timeScale, 0⟩) hf.fourcc frames 0
    (Decoder.new fresh info.width info.height) w [] hd hl.1 hl.2 hw0 (by simpa using hn)
    (fun k hk => by rw [Nat.zero_add]; exact hi.contents k hk)).1
  cases ht : zeroOutLoop R ivf frames.length 0 (Decoder.new fresh info.width info.height) w with
  | error e => rw [ht] at h; exact nomatch h
  | ok w' =>
    rw [ht] at h
    obtain ⟨outs, xs, st, o1, o2, o3, o4, o5, o6, o7⟩ := spec w' ht
    obtain ⟨a1, a2⟩ := o7 _ rfl
    obtain ⟨ivf', i1, i2⟩ := C33_reads_layout { info with expectedMinihash := 0 } { hf with expectedMinihash := (by decide : 0 < 2 ^ 32) } outs
      (by rw [o2]; exact hn) o1 []
    refine ⟨ivf', outs, xs, st, ?_, i2, o2, o4, o6, a1, a2⟩
    have : out = w'.file := by injection h with h; exact h.symm
    rw [this, o3.file, ← i1, List.nil_append, List.append_nil]

/-- **C83, what is accepted.** A file in which a new decoder reads every frame is accepted if and only if each of its inter frames has a probability for macroblocks without
coefficients: the program does not add it. -/
theorem C83_accepts_iff (R : Renderer) (mix : Nat → Nat → Nat) (fresh : References) (bytes : List UInt8)
    (ivf : IVF) (ho : IVF.open bytes = .ok ivf) (info : IvfInfo) (hf : info.Fits) (frames : List (List UInt8)) (hi : ivf.Holds info frames)
    (hw : 0 < info.width ∧ info.width < 2 ^ 14) (hh : 0 < info.height ∧ info.height < 2 ^ 14)
    (hl : LengthsFit keyKind KeyFrameOk info.width info.height ∧ LengthsFit interKind InterFrameOk info.width info.height)
    (hm : info.expectedMinihash = 0 ∨ info.expectedMinihash = (Decoder.new fresh info.width info.height).minihash mix)
    (read : List ReadFrame) (st : DecoderState) (hr : ReadsFrames (Decoder.new fresh info.width info.height).state frames read st) :
    (∃ out, xcZeroOutResidues R mix fresh bytes = .ok out) ↔ ∀ x ∈ read, x.Skips := by
  obtain ⟨w, hc, hw0⟩ := create_wrote info.fourcc info.width info.height info.frameRate info.timeScale hf.fourcc
  rw [xcZeroOutResidues_eq R mix _ ho hi hc]
  have hmm : ¬ (Decoder.new fresh info.width info.height).minihashMatch mix info.expectedMinihash = false := by
    rcases hm with e | e
    · simp [Decoder.minihashMatch, e]
    · unfold Decoder.minihashMatch
      split
      · decide
      · rw [e]; simp
  rw [if_neg hmm]
  have hn : frames.length < 2 ^ 32 := by
    rw [← hi.frameCount, (open_inv ho).2.2.1]
    exact (leValue_lt _).trans_le (Nat.pow_le_pow_right (by decide) (List.length_take_le _ _) |>.trans_eq rfl)
  have hd : (Decoder.new fresh info.width info.height).state.Ok := ⟨hw, hh, fun _ h => (nomatch h), fun _ h => (nomatch h)⟩
  obtain ⟨s1, s2⟩ := zeroOutLoop_spec R ivf (info := ⟨info.fourcc, info.width, info.height, info.frameRate, info.timeScale, 0⟩) hf.fourcc frames 0
    (Decoder.new fresh info.width info.height) w [] hd hl.1 hl.2 hw0 (by simpa using hn)
    (fun k hk => by rw [Nat.zero_add]; exact hi.contents k hk)
  constructor
  · rintro ⟨out, h⟩
    cases ht : zeroOutLoop R ivf frames.length 0 (Decoder.new fresh info.width info.height) w with
    | error e => rw [ht] at h; exact nomatch h
    | ok w' =>
      obtain ⟨outs, xs, st', -, -, -, o4, o5, -⟩ := s1 w' ht
      rw [(hr.unique o4).1]
      exact o5
  · intro hsk
    obtain ⟨w', ht⟩ := s2 _ _ hr hsk
    rw [ht]
    exact ⟨_, rfl⟩

/-! ### Examples -/

/-- The inter frame of the examples, with a probability for macroblocks without coefficients. -/
def exampleInterFrameZ : Frame InterFrameHeader :=
  { exampleInterFrame2 with
    header := { exampleInterFrame2.header with probSkipFalse := some 100 }
    modes := List.replicate 3 { skip := some false, isInter := true, sel1 := some false, yMode := ZEROMV } ++
      [{ skip := some false, isInter := true, sel1 := some true, sel2 := some true, yMode := ZEROMV }] }

theorem exampleInterFrameZ_ok : InterFrameOk exampleInterFrameZ where
  header := { exampleInterHeader_inRange with
    updateSegmentation := fun _ h => (nomatch h)
    probSkipFalse := by rintro _ ⟨⟩; decide
    copyGolden := rfl
    copyAlternate := rfl
    copyGoldenRange := by rintro _ ⟨⟩; decide
    copyAlternateRange := by rintro _ ⟨⟩; decide }
  width := by decide
  height := by decide
  count := by decide
  countResidues := by decide
  modes := by
    intro k m hm
    have key : ∀ m : MBModes, m.segmentIdUpdate = none → m.skip = some false → m.isInter = true →
        m.flipped = false → m.sel1.isSome = true → (m.sel2.isSome = true ↔ m.sel1 = some true) → ¬ (m.sel1 = some true ∧ m.sel2 = some false) →
        m.yMode = ZEROMV → m.uvMode = 0 → (∀ i, m.mvs i = {}) → m.partitionId = none → (∀ i, m.bModes i = 0) → (∀ i, m.uMvs i = {}) →
        ∀ c, m.InterFrameOk exampleInterFrameZ.header c := by
      intro m h1 h3 h4 h5 h6 h7 h8 h9 h10 h11 h12 h13 h14 c
      obtain ⟨s, hs, -⟩ := census_bounded m.flipped c
      refine ⟨⟨⟨fun h => absurd h (by rw [h1]; decide), fun ⟨u, h, _⟩ => (nomatch h)⟩, fun v h => (nomatch h1.symm.trans h), by rw [h3]; rfl⟩, Or.inr ⟨s, hs, ?_⟩⟩
      refine ⟨h4, h6, h7, ?_, by rw [h9]; decide, h10, fun h => ?_, fun h => ?_, fun _ => h11, fun h => ?_, fun _ => ⟨h12, h13⟩, fun h => ?_, fun i => ?_⟩
      · rw [h5]
        constructor
        · intro h; exact nomatch h
        · rintro (⟨a, b, -⟩ | ⟨-, -, h⟩)
          · exact absurd ⟨a, b⟩ h8
          · exact nomatch h
      · rw [h9] at h; exact absurd h (by decide)
      · rw [h9] at h; exact absurd h (by decide)
      · rw [h9] at h; exact absurd h (by decide)
      · rw [h9] at h; exact absurd h (by decide)
      · rw [h14 i, show m.mvs = fun _ => {} from funext h11]
        revert i; decide +kernel
    rcases k with _ | _ | _ | _ | k
    · cases hm; exact key _ rfl rfl rfl rfl rfl (by decide) (by decide) rfl rfl (fun _ => rfl) rfl (fun _ => rfl) (fun _ => rfl) _
    · cases hm; exact key _ rfl rfl rfl rfl rfl (by decide) (by decide) rfl rfl (fun _ => rfl) rfl (fun _ => rfl) (fun _ => rfl) _
    · cases hm; exact key _ rfl rfl rfl rfl rfl (by decide) (by decide) rfl rfl (fun _ => rfl) rfl (fun _ => rfl) (fun _ => rfl) _
    · cases hm; exact key _ rfl rfl rfl rfl rfl (by decide) (by decide) rfl rfl (fun _ => rfl) rfl (fun _ => rfl) (fun _ => rfl) _
    · exact nomatch hm
  residues := by
    have h0 : Residue.Ok { skip := some false, isInter := true, sel1 := some false, yMode := ZEROMV } {} :=
      ⟨fun _ => rfl, fun _ => rfl, representable_default _, fun _ => representable_default _,
        fun _ => representable_default _, fun _ => representable_default _, by decide +kernel⟩
    intro k m r hm hr
    rcases k with _ | _ | _ | _ | k
    · cases hm; cases hr; exact h0
    · cases hm; cases hr; exact h0
    · cases hm; cases hr; exact h0
    · cases hm; cases hr
      refine ⟨fun h => absurd h (by decide), fun h => absurd h (by decide), representable_default _, fun i => ?_, fun _ => representable_default _,
        fun _ => representable_default _, by decide +kernel⟩
      rw [if_neg (by decide)]
      show (if i.val = 5 then exampleBlock else {}).Representable _
      split
      · exact exampleBlock_ok
      · exact representable_default _
    · exact nomatch hm

theorem readFrame_of_output {R : Renderer} {d d' : Decoder} {b : List UInt8} {x : Bool × Raster} (h : d.getFrameOutput R b = (d', .ok x)) :
    ∃ y, readFrame d.state b = some (d'.state, y) := by
  unfold Decoder.getFrameOutput at h
  unfold readFrame
  cases hs : splitFrame b d.state.width d.state.height false with
  | error e => rw [hs] at h; exact nomatch (congrArg Prod.snd h)
  | ok c =>
    rw [hs] at h
    simp only at h ⊢
    split at h
    · next hk =>
      rw [if_pos hk]
      rcases ha : d.state.applyKey c with ⟨s, e | f⟩
      · rw [ha] at h; exact nomatch (congrArg Prod.snd h)
      · rw [ha] at h
        have := congrArg (fun z => z.1.state) h
        exact ⟨.key f, by rw [← this]; rfl⟩
    · next hk =>
      rw [if_neg hk]
      split at h
      · rcases ha : d.state.applyInter c with ⟨s, e | f⟩
        · rw [ha] at h; exact nomatch (congrArg Prod.snd h)
        · rw [ha] at h
          have := congrArg (fun z => z.1.state) h
          exact ⟨.inter f, by rw [← this]; rfl⟩
      · exact nomatch (congrArg Prod.snd h)

/-- What is read in a frame that was written. -/
theorem readFrame_written (st : DecoderState) (hst : st.Ok) (f : Frame InterFrameHeader) (hf : InterFrameOk f) (hw : f.width = st.width) (hh : f.height = st.height)
    (hl : LengthsFit interKind InterFrameOk st.width st.height) :
    ∃ b st' ids, interKind.serialize st.tables f = some b ∧ b.length < 2 ^ 32 ∧ readFrame st b = some (st', .inter ⟨f, ids⟩) := by
  have hl' := fun t => hl f t hf hw hh
  obtain ⟨bytes, parts, d, h1, h2, h3, -, h5, h6, h7⟩ := parse_serialized interKind_lawful hf st.tables (fun b hb => (hl' _).1 b hb)
    (fun bs hbs b hb => (hl' _).2 bs hbs b (List.dropLast_subset _ hb))
  obtain ⟨seg, ids, s1, s2⟩ := h7 (st.applyInterHeader f.header) hw.symm hh.symm
    (fun s hs => by rw [hw, hh]; exact (applyInterHeader_ok hst hf.header).segmentation s hs)
  refine ⟨bytes, { st.applyInterHeader f.header with segmentation := seg }, ids, h1, serialize_length interKind_lawful hf (by rw [hw, hh]; exact hl) h1, ?_⟩
  unfold readFrame
  rw [← hw, ← hh, h2]
  simp only
  rw [if_neg (by rw [h3]; decide)]
  unfold DecoderState.applyInter
  rw [show parseInterFrameHeader = interKind.parseHeader from rfl, h6]
  simp only
  rw [s2]

/-- A file with a key frame and an inter frame: accepted, and written again without coefficients, when the inter frame has that probability, and refused when it has
not. -/
theorem zeroOut_example (f : Frame InterFrameHeader) (hf : InterFrameOk f) (hw : f.width = 17) (hh : f.height = 20) :
    ∃ (bytes : List UInt8) (picture : Raster) (info : IvfInfo) (frames : List (List UInt8)) (ivf : IVF) (read : List ReadFrame) (st : DecoderState),
      IVF.open bytes = .ok ivf ∧ info.Fits ∧ ivf.Holds info frames ∧ frames.length = 2 ∧
      ReadsFrames (Decoder.new ⟨picture, picture, picture⟩ info.width info.height).state frames read st ∧
      (∃ y ids, read = [y, .inter ⟨f, ids⟩]) ∧ info.width = 17 ∧ info.height = 20 ∧ info.expectedMinihash = 0 ∧
      ((∃ out, xcZeroOutResidues codeRenderer (fun _ _ => 0) ⟨picture, picture, picture⟩ bytes = .ok out) ↔ f.header.probSkipFalse ≠ none) := by
  let e : Encoder := ⟨{ width := 17, height := 20 }, ⟨blankRaster 17 20, blankRaster 17 20, blankRaster 17 20⟩⟩
  obtain ⟨l1, l2⟩ := C68_lengths_fit (width := 17) (height := 20) (by decide)
  have hk : KeyEmittable e exampleKeyFrame2 := ⟨exampleKeyFrame2_ok, rfl, rfl, rfl, (l1 _ _ exampleKeyFrame2_ok rfl rfl).1,
    fun bs hbs b hb => (l1 _ _ exampleKeyFrame2_ok rfl rfl).2 bs hbs b (List.dropLast_subset _ hb)⟩
  obtain ⟨e1, b1, k1, k2, -⟩ := key_step codeRenderer e exampleKeyFrame2 hk
  have n1 : b1.length < 2 ^ 32 := by
    unfold Encoder.writeKey at k1
    obtain ⟨x, hx, h⟩ := Option.bind_eq_some_iff.mp k1
    cases h
    exact serialize_length keyKind_lawful exampleKeyFrame2_ok l1 hx
  obtain ⟨y, hy⟩ := readFrame_of_output k2
  have h0 : e.exportDecoder.state.Ok := ⟨by decide, by decide, fun _ h => (nomatch h), fun _ h => (nomatch h)⟩
  obtain ⟨r1, r2, r3⟩ := readFrame_ok h0 hy
  have hyk : y.Skips := by
    obtain ⟨-, x, hx, hs, -⟩ : True ∧ ∃ x, readFrame e.exportDecoder.state b1 = some (e1.exportDecoder.state, x) ∧ x.Skips ∧ True := by
      refine ⟨trivial, ?_⟩
      unfold Encoder.writeKey at k1
      obtain ⟨o, hx, h⟩ := Option.bind_eq_some_iff.mp k1
      cases h
      obtain ⟨bytes, parts, d, h1, h2, h3, -⟩ := parse_serialized keyKind_lawful exampleKeyFrame2_ok (e.updateStateKey exampleKeyFrame2.header).tables
        ((l1 _ _ exampleKeyFrame2_ok rfl rfl).1) (fun bs hbs b hb => (l1 _ _ exampleKeyFrame2_ok rfl rfl).2 bs hbs b (List.dropLast_subset _ hb))
      rw [h1] at hx
      cases hx
      refine ⟨y, hy, ?_, trivial⟩
      unfold readFrame at hy
      have h2' : splitFrame b1 e.exportDecoder.state.width e.exportDecoder.state.height false = .ok parts := h2
      rw [h2'] at hy
      simp only at hy
      rw [if_pos (show parts.keyFrame = true from h3)] at hy
      rcases ha : e.exportDecoder.state.applyKey parts with ⟨s, e' | f'⟩
      · rw [ha] at hy; exact nomatch hy
      · rw [ha] at hy; cases hy; exact trivial
    rw [hy] at hx
    cases hx
    exact hs
  have d1 : e1.exportDecoder.state.width = 17 := r2
  have d2 : e1.exportDecoder.state.height = 20 := r3
  obtain ⟨b2, st', ids, i1, n2, i2⟩ := readFrame_written e1.exportDecoder.state r1 f hf (hw.trans d1.symm) (hh.trans d2.symm) (by rw [d1, d2]; exact l2)
  let info : IvfInfo := { fourcc := [0x56, 0x50, 0x38, 0x30], width := 17, height := 20, frameRate := 24, timeScale := 1, expectedMinihash := 0 }
  have hfits : info.Fits := ⟨rfl, by decide, by decide, by decide, by decide, by decide⟩
  obtain ⟨ivf, o1, o2⟩ := C33_reads_layout info hfits [b1, b2] (show 2 < 2 ^ 32 by decide)
    (fun f hf => by rcases List.mem_cons.1 hf with rfl | hf; exacts [n1, by rw [List.mem_singleton.1 hf]; exact n2]) []
  have hr : ReadsFrames (Decoder.new ⟨blankRaster 17 20, blankRaster 17 20, blankRaster 17 20⟩ info.width info.height).state [b1, b2] [y, .inter ⟨f, ids⟩] st' :=
    .cons hy (.cons i2 (.nil _))
  refine ⟨_, blankRaster 17 20, info, [b1, b2], ivf, [y, .inter ⟨f, ids⟩], st', o1, hfits, o2, rfl, hr, ⟨y, ids, rfl⟩, rfl, rfl, rfl, ?_⟩
  rw [C83_accepts_iff codeRenderer _ _ _ ivf o1 info hfits _ o2 (by decide) (by decide) ⟨l1, l2⟩ (.inl rfl) _ _ hr]
  simp only [List.mem_cons, List.not_mem_nil, or_false, forall_eq_or_imp, forall_eq]
  exact ⟨fun h => h.2, fun h => ⟨hyk, h⟩⟩

/-- Accepted: an inter frame with coefficients, which are gone in what is written. -/
example : ∃ (bytes out : List UInt8) (picture : Raster) (info : IvfInfo) (frames' : List (List UInt8)) (ivf' : IVF) (p : ParsedFrame InterFrameHeader)
    (q : ReadFrame) (st : DecoderState),
    xcZeroOutResidues codeRenderer (fun _ _ => 0) ⟨picture, picture, picture⟩ bytes = .ok out ∧ IVF.open out = .ok ivf' ∧ ivf'.Holds info frames' ∧
    ReadsFrames (Decoder.new ⟨picture, picture, picture⟩ info.width info.height).state frames' [q, .inter p] st ∧
    p.frame.header = exampleInterFrameZ.header ∧ exampleInterFrameZ.residues.any (·.nonzero) = true ∧ p.frame.residues.any (·.nonzero) = false := by
  obtain ⟨bytes, picture, info, frames, ivf, read, st, h1, h2, h3, h4, h5, ⟨y, ids, rfl⟩, w1, w2, w3, h7⟩ := zeroOut_example exampleInterFrameZ exampleInterFrameZ_ok rfl rfl
  obtain ⟨out, ho⟩ := h7.2 (by decide)
  obtain ⟨ivf', frames', read', st', g1, g2, g3, g4, g5, -⟩ := C83_without_residues codeRenderer _ _ bytes ivf h1 info h2 frames h3 (by rw [w1]; decide) (by rw [w2]; decide)
    (by rw [w1, w2]; exact C68_lengths_fit (by decide)) out ho
  obtain ⟨rfl, rfl⟩ := h5.unique g4
  refine ⟨bytes, out, picture, { info with expectedMinihash := 0 }, frames', ivf', _, y.withoutResidue, st, ho, g1, g2, g5, rfl, by decide, rfl⟩

/-- Refused: its inter frame has no such probability. -/
example : ∃ (bytes : List UInt8) (picture : Raster) (info : IvfInfo) (frames : List (List UInt8)) (ivf : IVF) (read : List ReadFrame) (st : DecoderState),
    IVF.open bytes = .ok ivf ∧ ivf.Holds info frames ∧
    ReadsFrames (Decoder.new ⟨picture, picture, picture⟩ info.width info.height).state frames read st ∧
    ¬ ∃ out, xcZeroOutResidues codeRenderer (fun _ _ => 0) ⟨picture, picture, picture⟩ bytes = .ok out := by
  obtain ⟨bytes, picture, info, frames, ivf, read, st, h1, h2, h3, h4, h5, -, -, -, -, h7⟩ := zeroOut_example exampleInterFrame2 exampleInterFrame2_ok rfl rfl
  exact ⟨bytes, picture, info, frames, ivf, read, st, h1, h3, h5, fun h => (h7.1 h) rfl⟩

end Alfalfa
