import Verif.Model.Player
import Verif.Spec.Player
import Verif.Props.Ivf
import Verif.Props.DecoderExamples

/-! Playback of a file (C55). -/

namespace Alfalfa

/-- The frames that the player has not read yet. -/
structure FilePlayer.At (p : FilePlayer) (rem : List (List UInt8)) : Prop where
  count : p.file.frameCount = p.frameNo + rem.length
  frames : ∀ i (hi : i < rem.length), p.file.frame (p.frameNo + i) = .ok rem[i]

theorem FilePlayer.At.tail {p : FilePlayer} {f : List UInt8} {rest : List (List UInt8)} (h : p.At (f :: rest)) (d : Decoder) :
    FilePlayer.At { p with frameNo := p.frameNo + 1, decoder := d } rest where
  count := by have := h.count; simp only [List.length_cons] at this; simp only; omega
  frames i hi := by
    have := h.frames (i + 1) (by simpa using hi)
    simp only [List.getElem_cons_succ] at this
    rw [← this]
    congr 1
    simp only
    omega

theorem FilePlayer.At.head {p : FilePlayer} {f : List UInt8} {rest : List (List UInt8)} (h : p.At (f :: rest)) : p.file.frame p.frameNo = .ok f := by
  have := h.frames 0 (by simp)
  rwa [List.getElem_cons_zero, Nat.add_zero] at this

theorem reel_shown (r : Raster) (l : List (Except FrameError (Bool × Raster))) : reel (.ok (true, r) :: l) = (r :: (reel l).1, (reel l).2) := by
  cases l <;> simp [reel]

theorem reel_hidden (r : Raster) (x : Except FrameError (Bool × Raster)) (l : List (Except FrameError (Bool × Raster))) :
    reel (.ok (false, r) :: x :: l) = reel (x :: l) := by simp [reel]

theorem reel_error (e : FrameError) (l : List (Except FrameError (Bool × Raster))) : reel (.error e :: l) = ([], some e) := by
  cases l <;> simp [reel]

theorem run_cons (R : Renderer) (d : Decoder) (f : List UInt8) (rest : List (List UInt8)) :
    (d.run R (f :: rest)).2 = (d.getFrameOutput R f).2 :: ((d.getFrameOutput R f).1.run R rest).2 := rfl

/-- One round of the loop. -/
def FilePlayer.round (R : Renderer) (n m : Nat) (p : FilePlayer) : List Raster × Option FrameError :=
  match p.advanceLoop R n with
  | (_, .error e) => ([], some e)
  | (p, .ok r) => (r :: (p.playLoop R m).1, (p.playLoop R m).2)

theorem play_spec (R : Renderer) (rem : List (List UInt8)) :
    (∀ (p : FilePlayer) m, p.At rem → rem.length ≤ m → p.playLoop R m = reel (p.decoder.run R rem).2) ∧
    (∀ (p : FilePlayer) m, p.At rem → rem ≠ [] → rem.length ≤ m + 1 → p.round R rem.length m = reel (p.decoder.run R rem).2) := by
  induction rem with
  | nil =>
    refine ⟨fun p m hp _ => ?_, fun _ _ _ h => absurd rfl h⟩
    have : p.eof = true := by have := hp.count; simp [FilePlayer.eof, this]
    cases m <;> simp [FilePlayer.playLoop, this, Decoder.run, reel]
  | cons f rest ih =>
    have second : ∀ (p : FilePlayer) m, p.At (f :: rest) → rest.length ≤ m → p.round R (rest.length + 1) m = reel (p.decoder.run R (f :: rest)).2 := by
      intro p m hp hm
      rw [run_cons]
      have hf : ({ p with frameNo := p.frameNo + 1 } : FilePlayer).file.frame p.frameNo = .ok f := hp.head
      unfold FilePlayer.round FilePlayer.advanceLoop
      simp only [hf, Decoder.parseAndDecodeFrame]
      rcases ho : p.decoder.getFrameOutput R f with ⟨d, e | ⟨shown, r⟩⟩
      · simp only; rw [reel_error]
      · cases shown
        · simp only [Bool.false_eq_true, if_false]
          cases rest with
          | nil => simp [FilePlayer.advanceLoop, Decoder.run, reel]
          | cons g rest =>
            rw [run_cons, reel_hidden, ← run_cons]
            exact ih.2 { p with frameNo := p.frameNo + 1, decoder := d } m (hp.tail d) (by simp) (by omega)
        · simp only [if_true]
          rw [reel_shown, ih.1 { p with frameNo := p.frameNo + 1, decoder := d } m (hp.tail d) hm]
    refine ⟨fun p m hp hm => ?_, fun p m hp _ hm => second p m hp (by simpa using hm)⟩
    obtain ⟨m, rfl⟩ : ∃ k, m = k + 1 := ⟨m - 1, by simp at hm; omega⟩
    have he : p.eof = false := by have := hp.count; simp only [List.length_cons] at this; simp [FilePlayer.eof, this]
    have hn : p.file.frameCount - p.frameNo = rest.length + 1 := by have := hp.count; simp only [List.length_cons] at this; omega
    rw [← second p m hp (by simpa using hm)]
    unfold FilePlayer.playLoop FilePlayer.round
    rw [if_neg (by simp [he]), FilePlayer.advance, hn]
    rfl

/-- The loop of the constructor stops at the first frame that is a key frame. -/
theorem skip_spec (d : Decoder) (file : IVF) (rest : List (List UInt8))
    (hr : ∀ f, rest.head? = some f → ∃ c, splitFrame f d.state.width d.state.height false = .ok c ∧ c.keyFrame = true) :
    ∀ (skipped : List (List UInt8)) (k : Nat), (∀ f ∈ skipped, ∃ c, splitFrame f d.state.width d.state.height false = .ok c ∧ c.keyFrame = false) →
      (∀ i (hi : i < (skipped ++ rest).length), file.frame (k + i) = .ok (skipped ++ rest)[i]) →
      FilePlayer.skip d file (skipped ++ rest).length k = .ok (k + skipped.length) := by
  intro skipped
  induction skipped with
  | nil =>
    intro k _ hf
    cases rest with
    | nil => rfl
    | cons f rest =>
      obtain ⟨c, h1, h2⟩ := hr f rfl
      have := hf 0 (by simp)
      simp only [List.nil_append, Nat.add_zero, List.getElem_cons_zero] at this
      simp only [List.nil_append, List.length_cons, FilePlayer.skip, this, bind, Except.bind, h1, h2, if_true, List.length_nil, Nat.add_zero]
  | cons f skipped ih =>
    intro k hs hf
    obtain ⟨c, h1, h2⟩ := hs f (by simp)
    have := hf 0 (by simp)
    simp only [Nat.add_zero, List.cons_append, List.getElem_cons_zero] at this
    simp only [List.cons_append, List.length_cons, FilePlayer.skip, this, bind, Except.bind, h1, h2, Bool.false_eq_true, if_false]
    rw [ih (k + 1) (fun g hg => hs g (by simp [hg])) fun i hi => ?_]
    · congr 1; omega
    · have := hf (i + 1) (by simpa using hi)
      simp only [List.cons_append, List.getElem_cons_succ] at this
      rw [← this]; congr 1; omega

/-- **C55, opening.** Opening a VP8 file succeeds at the first key frame, provided the frames before it and itself have an intact
frame tag; a file without key frames is opened at its end. -/
theorem C55_opens_at_first_key_frame (fresh : References) (bytes : List UInt8) (ivf : IVF) (h : IVF.open bytes = .ok ivf) (info : IvfInfo)
    (skipped rest : List (List UInt8)) (hi : ivf.Holds info (skipped ++ rest)) (hv : info.fourcc = "VP80".toUTF8.toList)
    (hs : ∀ f ∈ skipped, ¬ SaysKey f ∧ ∃ c, splitFrame f ivf.width ivf.height false = .ok c)
    (hr : ∀ f, rest.head? = some f → SaysKey f ∧ ∃ c, splitFrame f ivf.width ivf.height false = .ok c) :
    FilePlayer.open fresh bytes = .ok ⟨Decoder.new fresh info.width info.height, ivf, skipped.length⟩ := by
  have key : ∀ f c, splitFrame f ivf.width ivf.height false = .ok c → (c.keyFrame = true ↔ SaysKey f) := by
    intro f c hc
    obtain ⟨b, tl, rfl, h1, -⟩ := C11_accepted_frame_start _ _ _ _ hc
    unfold SaysKey
    rw [h1]; simp
  have hvp : ivf.fourcc = vp80 := by rw [hi.fourcc, hv]; decide +kernel
  have := skip_spec (Decoder.new fresh ivf.width ivf.height) ivf rest
    (fun f hf => by obtain ⟨h1, c, hc⟩ := hr f hf; exact ⟨c, hc, (key f c hc).2 h1⟩) skipped 0
    (fun f hf => by
      obtain ⟨h1, c, hc⟩ := hs f hf
      refine ⟨c, hc, ?_⟩
      by_contra hk
      exact h1 ((key f c hc).1 (by simpa using hk)))
    (fun i hi' => by simpa using hi.contents i hi')
  unfold FilePlayer.open
  rw [h]
  simp only [bind, Except.bind, hvp, ne_eq, not_true_eq_false, if_false, pure, Except.pure, hi.frameCount, this, Nat.zero_add]
  rw [hi.width, hi.height]

/-- **C55, advancing.** Whatever the frames are, asking for pictures until the end gives the pictures of the frames marked to be shown, in the
order of the file, up to the first frame that cannot be decoded; nothing is left out or shown twice.  (`p` may be anywhere in the file.) -/
theorem C55_shows_every_shown_frame (R : Renderer) (p : FilePlayer) (info : IvfInfo) (frames : List (List UInt8)) (hi : p.file.Holds info frames)
    (hp : p.frameNo ≤ frames.length) : p.play R = reel (p.decoder.run R (frames.drop p.frameNo)).2 := by
  have hat : p.At (frames.drop p.frameNo) :=
    ⟨by rw [hi.frameCount, List.length_drop]; omega, fun i hi' => by
      rw [List.getElem_drop]; exact hi.contents _ _⟩
  unfold FilePlayer.play
  exact (play_spec R _).1 p _ hat (by rw [hi.frameCount, List.length_drop])

/-- **C55, the whole program.** A VP8 file of which the frames before the first key frame have intact tags shows what its frames from
that key frame on show, given to a new decoder; and this does not depend on what the memory of the new decoder's
pictures contained. -/
theorem C55_playback (R : Renderer) (fresh : References) (bytes : List UInt8) (ivf : IVF) (h : IVF.open bytes = .ok ivf) (info : IvfInfo)
    (skipped rest : List (List UInt8)) (hi : ivf.Holds info (skipped ++ rest)) (hv : info.fourcc = "VP80".toUTF8.toList)
    (hs : ∀ f ∈ skipped, ¬ SaysKey f ∧ ∃ c, splitFrame f ivf.width ivf.height false = .ok c)
    (hr : ∀ f, rest.head? = some f → SaysKey f ∧ ∃ c, splitFrame f ivf.width ivf.height false = .ok c) :
    vp8decode R fresh bytes = reel ((Decoder.new fresh info.width info.height).run R rest).2 ∧
    ∀ fresh', vp8decode R fresh' bytes = vp8decode R fresh bytes := by
  have main : ∀ fresh, vp8decode R fresh bytes = reel ((Decoder.new fresh info.width info.height).run R rest).2 := by
    intro fresh
    unfold vp8decode
    rw [C55_opens_at_first_key_frame fresh bytes ivf h info skipped rest hi hv hs hr]
    simp only
    rw [C55_shows_every_shown_frame R _ info (skipped ++ rest) hi (by simp)]
    simp
  refine ⟨main fresh, fun fresh' => ?_⟩
  rw [main, main]
  cases rest with
  | nil => rfl
  | cons f rest =>
    obtain ⟨⟨b, hb, hk⟩, -⟩ := hr f rfl
    obtain ⟨e1, e2⟩ := C14_key_frame_resets R (Decoder.new fresh' info.width info.height) (Decoder.new fresh info.width info.height) rfl rfl f b hb hk
    rw [run_cons, run_cons, e1]
    rcases ho : ((Decoder.new fresh info.width info.height).getFrameOutput R f).2 with e | ⟨shown, r⟩
    · rw [reel_error, reel_error]
    · rw [(e2 shown r (by rw [e1, ho])).1]

/-- For a stream in which every frame can be decoded and the last is shown, this is exactly the pictures of the shown frames, and the program ends
without an error. -/
theorem C55_reel_of_sound_stream (outs : List (Bool × Raster)) (h : ∀ x, outs.getLast? = some x → x.1 = true) :
    reel (outs.map .ok) = ((outs.filter (·.1)).map (·.2), none) := by
  induction outs with
  | nil => rfl
  | cons x outs ih =>
    obtain ⟨shown, r⟩ := x
    cases outs with
    | nil =>
      have : shown = true := h _ rfl
      subst this
      simp [reel]
    | cons y outs =>
      have ih := ih fun z hz => h z (by rw [List.getLast?_cons_cons]; exact hz)
      cases shown
      · rw [List.map_cons, List.map_cons, reel_hidden, ← List.map_cons, ih]; simp
      · rw [List.map_cons, reel_shown, ih]; simp

/-- **C55, playback with a saved decoder.** A file is played from its first frame on, and only if it is a VP8 file of the size of the decoder that names
no other decoder state than this one. -/
theorem C55_resumes (mix : Nat → Nat → Nat) (R : Renderer) (d : Decoder) (bytes : List UInt8) (ivf : IVF) (h : IVF.open bytes = .ok ivf) (info : IvfInfo)
    (frames : List (List UInt8)) (hi : ivf.Holds info frames) (p : FilePlayer) :
    (FilePlayer.resume mix d bytes = .ok p ↔ info.fourcc = "VP80".toUTF8.toList ∧ info.width = d.state.width ∧ info.height = d.state.height ∧
      (info.expectedMinihash = 0 ∨ info.expectedMinihash = d.minihash mix) ∧ p = ⟨d, ivf, 0⟩) ∧
    (FilePlayer.resume mix d bytes = .ok p → p.play R = reel (d.run R frames).2) := by
  have hvp : "VP80".toUTF8.toList = vp80 := by decide +kernel
  have first : FilePlayer.resume mix d bytes = .ok p ↔ info.fourcc = "VP80".toUTF8.toList ∧ info.width = d.state.width ∧ info.height = d.state.height ∧
      (info.expectedMinihash = 0 ∨ info.expectedMinihash = d.minihash mix) ∧ p = ⟨d, ivf, 0⟩ := by
    rw [hvp, ← hi.fourcc, ← hi.width, ← hi.height, ← hi.expectedMinihash]
    unfold FilePlayer.resume
    rw [h]
    simp only [bind, Except.bind, pure, Except.pure, Decoder.minihashMatch]
    by_cases h1 : ivf.fourcc = vp80
    · by_cases h2 : ivf.width = d.state.width
      · by_cases h3 : ivf.height = d.state.height
        · by_cases h4 : ivf.expectedMinihash = 0
          · simp only [h1, h2, h3, h4, if_true, Bool.true_eq_false]
            constructor
            · intro e; simp at e; simp [← e]
            · intro e; simp [e]
          · by_cases h5 : ivf.expectedMinihash = d.minihash mix
            · simp [h1, h2, h3, h4, h5.symm]
              exact eq_comm
            · have h6 : ¬ d.minihash mix = ivf.expectedMinihash := fun e => h5 e.symm
              simp [h1, h2, h3, h4, h5, h6, throw, throwThe, MonadExceptOf.throw]
        · simp [h1, h2, h3, throw, throwThe, MonadExceptOf.throw]
      · simp [h1, h2, throw, throwThe, MonadExceptOf.throw]
    · simp [h1, throw, throwThe, MonadExceptOf.throw]
  refine ⟨first, fun e => ?_⟩
  obtain ⟨-, -, -, -, rfl⟩ := first.1 e
  simpa using C55_shows_every_shown_frame R ⟨d, ivf, 0⟩ info frames hi (Nat.zero_le _)

/-- **C55, deviation.** A frame before the first key frame of which already the tag is damaged makes the whole file unplayable, although playback
would not need the frame. -/
theorem C55_damaged_start_refused (fresh : References) (bytes : List UInt8) (ivf : IVF) (h : IVF.open bytes = .ok ivf) (info : IvfInfo)
    (skipped rest : List (List UInt8)) (f : List UInt8) (hi : ivf.Holds info (skipped ++ f :: rest)) (hv : info.fourcc = "VP80".toUTF8.toList)
    (hs : ∀ f ∈ skipped, ¬ SaysKey f ∧ ∃ c, splitFrame f ivf.width ivf.height false = .ok c) (e : FrameError)
    (hf : splitFrame f ivf.width ivf.height false = .error e) : FilePlayer.open fresh bytes = .error e := by
  have hvp : ivf.fourcc = vp80 := by rw [hi.fourcc, hv]; decide +kernel
  have main : ∀ (skipped : List (List UInt8)) (k : Nat), (∀ f ∈ skipped, ¬ SaysKey f ∧ ∃ c, splitFrame f ivf.width ivf.height false = .ok c) →
      (∀ i (hi : i < (skipped ++ f :: rest).length), ivf.frame (k + i) = .ok (skipped ++ f :: rest)[i]) →
      FilePlayer.skip (Decoder.new fresh ivf.width ivf.height) ivf (skipped ++ f :: rest).length k = .error e := by
    intro skipped
    induction skipped with
    | nil =>
      intro k _ hc
      have h0 := hc 0 (by simp)
      simp only [List.nil_append, Nat.add_zero, List.getElem_cons_zero] at h0
      simp only [List.nil_append, List.length_cons, FilePlayer.skip, h0, bind, Except.bind]
      rw [show splitFrame f (Decoder.new fresh ivf.width ivf.height).state.width (Decoder.new fresh ivf.width ivf.height).state.height false = .error e from hf]
    | cons g skipped ih =>
      intro k hs hc
      obtain ⟨h1, c, h2⟩ := hs g (by simp)
      have hk : c.keyFrame = false := by
        obtain ⟨b, tl, rfl, h3, -⟩ := C11_accepted_frame_start _ _ _ _ h2
        cases hck : c.keyFrame
        · rfl
        · rw [hck] at h3
          exact absurd ⟨b, rfl, by simpa using h3⟩ h1
      have h0 := hc 0 (by simp)
      simp only [List.cons_append, Nat.add_zero, List.getElem_cons_zero] at h0
      simp only [List.cons_append, List.length_cons, FilePlayer.skip, h0, bind, Except.bind]
      rw [show splitFrame g (Decoder.new fresh ivf.width ivf.height).state.width (Decoder.new fresh ivf.width ivf.height).state.height false = .ok c from h2]
      simp only [hk, Bool.false_eq_true, if_false]
      refine ih (k + 1) (fun x hx => hs x (by simp [hx])) fun i hi => ?_
      have := hc (i + 1) (by simpa using hi)
      simp only [List.cons_append, List.getElem_cons_succ] at this
      rw [← this]
      congr 1
      omega
  have := main skipped 0 hs (fun i hi' => by rw [Nat.zero_add]; exact hi.contents i hi')
  unfold FilePlayer.open
  rw [h]
  simp only [bind, Except.bind]
  rw [if_neg (by simp [hvp]), hi.frameCount, this]

/-! ### A file to play: an inter frame, a key frame, and a hidden inter frame -/

def exampleClip : List (List UInt8) := [[0x31, 0, 0, 9, 8], [0x10, 0, 0, 0x9d, 0x01, 0x2a, 16, 0, 16, 0, 7], [0x21, 0, 0, 1, 2]]

def exampleClipInfo : IvfInfo := { fourcc := [0x56, 0x50, 0x38, 0x30], width := 16, height := 16, frameRate := 24, timeScale := 1, expectedMinihash := 0 }

theorem exampleClip_opens : ∃ ivf, IVF.open (ivfBytes exampleClipInfo exampleClip) = .ok ivf ∧ ivf.Holds exampleClipInfo exampleClip := by
  obtain ⟨ivf, h1, h2⟩ := C33_reads_layout exampleClipInfo ⟨rfl, by decide, by decide, by decide, by decide, by decide⟩ exampleClip (by decide) (by decide) []
  exact ⟨ivf, by simpa using h1, h2⟩

/-- The hypotheses of `C55_playback` are met by this file, with one frame to be skipped. -/
example (R : Renderer) (fresh : References) : vp8decode R fresh (ivfBytes exampleClipInfo exampleClip) =
    reel ((Decoder.new fresh 16 16).run R (exampleClip.drop 1)).2 := by
  obtain ⟨ivf, h1, h2⟩ := exampleClip_opens
  refine (C55_playback R fresh _ ivf h1 exampleClipInfo (exampleClip.take 1) (exampleClip.drop 1) h2 (by decide +kernel) ?_ ?_).1
  · rw [h2.width, h2.height]
    intro f hf
    have : f = [0x31, 0, 0, 9, 8] := by simpa [exampleClip] using hf
    subst this
    exact ⟨fun ⟨b, hb, hk⟩ => by cases hb; exact absurd hk (by decide), _, rfl⟩
  · rw [h2.width, h2.height]
    intro f hf
    have : f = [0x10, 0, 0, 0x9d, 0x01, 0x2a, 16, 0, 16, 0, 7] := by cases hf; rfl
    subst this
    exact ⟨⟨_, rfl, by decide⟩, _, rfl⟩

end Alfalfa
