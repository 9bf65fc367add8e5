import Verif.Props.Resume

/-! # Playing a chunk that was encoded from a saved state (C103, C79) -/

namespace Alfalfa

/-- What is left of a decoder when it has been saved and restored: the last picture takes the place of the other two. -/
def Decoder.restored (d : Decoder) : Decoder := ⟨d.state, ⟨d.references.last, d.references.last, d.references.last⟩⟩

theorem outs_sound {l : List (Except FrameError (Bool × Raster))} (h : ∀ out ∈ l, ∃ x, out = .ok x) : ∃ o : List (Bool × Raster), l = o.map .ok := by
  induction l with
  | nil => exact ⟨[], rfl⟩
  | cons a l ih =>
    obtain ⟨x, hx⟩ := h a (List.mem_cons_self ..)
    obtain ⟨xs, hxs⟩ := ih (fun out h' => h out (List.mem_cons_of_mem _ h'))
    exact ⟨x :: xs, by rw [hx, hxs]; rfl⟩

theorem projected_shown (shown : List Raster) : projected (shown.map fun x => .ok (true, x)) = (shown, none) := by
  induction shown with
  | nil => rfl
  | cons x xs ih => rw [List.map_cons, projected_ok, ih]; rfl

/-- **C103, playback of chunks.** A chunk is played, its state is dumped, and a second chunk is encoded from the dump.  All programs succeed.  Played from the dump, the second chunk
shows a picture for each one given, near it.  Played after the first chunk, it shows the same if the decoder that has played the first chunk has the hash of the decoder restored from its dump (or if the
hash is zero); otherwise the playback program refuses the second chunk, although the decoder would show it correctly, since the file names the decoder with the last
picture in place of the other two. -/
theorem C103_bundle {σ Q : Type} [LinearOrder Q] (M : Meter Q) (mix : Nat → Nat → Nat) {width height : Nat} (hf : Fits width height) (hbig : 4 ≤ width ∧ 4 ≤ height)
    {next : σ → Except XcEncError (Option Raster × σ)} {mode : XcEncMode Q} (hm : mode.Ok) {inside : Nat → Inside} (hi : ∀ k, (inside k).Ok width height)
    (realtime : Bool) (references : References) (blank : Raster) {fresh : References} {start : Option (Raster × List UInt8)} {name1 name2 file1 : List UInt8}
    (hnames : 10 ∉ name1 ∧ 10 ∉ name2) {c1 : Chunk} (h1 : c1.InFile file1) (hsize : c1.1.width = width ∧ c1.1.height = height) (hlen : 0 < c1.2.length ∧ c1.2.length < 2 ^ 32)
    {d : Decoder} (hd : d.Ok) (hs : BeginsWith fresh start width height d) (hgoes : c1.GoesWith mix d) {after : Decoder} (hafter : (d.run codeRenderer c1.2).1 = after)
    (ho : ∀ out ∈ (d.run codeRenderer c1.2).2, ∃ x, out = .ok x) (hseg : after.state.segmentation = none)
    {rounds : Nat} {i : σ} {xs : List Raster} (hx : Gives next i xs) (hok : ∀ x ∈ xs, x.Ok width height) (hr : xs.length < rounds) (hl : xs.length < 2 ^ 32) :
    ∃ (state file2 : List UInt8) (shown : List Raster), xcDump codeRenderer mix fresh start file1 none = .ok state ∧
      xcEncPrimary mix next codeRenderer M mode inside realtime references (some (blank, state)) false rounds width height i = (some file2, none) ∧
      NearChunk M.zero mode inside realtime xs shown ∧
      ∀ disk, disk name1 = .ok file1 → disk name2 = .ok file2 →
        (∀ fresh' blank', decodeBundle codeRenderer mix fresh' (some (blank', state)) disk (lines [name2]) = (projection width height shown, none)) ∧
        decodeBundle codeRenderer mix fresh start disk (lines [name1, name2]) =
          if after.restored.minihash mix = 0 ∨ after.restored.minihash mix = after.minihash mix then
            (projection width height ((projected (d.run codeRenderer c1.2).2).1 ++ shown), none)
          else (projection width height (projected (d.run codeRenderer c1.2).2).1, some .mismatch) := by
  obtain ⟨k1, k2, k3⟩ := C18_any_history codeRenderer C63_renderer c1.2 d hd
  have hs1 : BeginsWith fresh start c1.1.width c1.1.height d := by rw [hsize.1, hsize.2]; exact hs
  have hdim : d.state.width = width ∧ d.state.height = height := by
    unfold BeginsWith at hs
    rcases start with _ | ⟨blank, state⟩
    · dsimp only at hs; subst hs; exact ⟨rfl, rfl⟩
    · exact hs.2
  rw [hafter, hdim.1] at k2
  rw [hafter, hdim.2] at k3
  obtain ⟨state, s1, s2⟩ := C79_dump C63_renderer mix h1 hlen.2 hd hs1 hgoes (frameNumber := none) (k := c1.2.length - 1) rfl (by omega)
    (by rw [List.take_of_length_le (by omega)]; exact ho)
  rw [List.take_of_length_le (by omega), hafter] at s2
  rw [hafter] at k1
  have hres : after.restored.Ok := ⟨k1.state, ⟨k1.references.last, k1.references.last, k1.references.last⟩⟩
  obtain ⟨file2, frames, shown, e1, e2, -, e4, e5⟩ := C103_goes_on M mix hf hbig hm hi realtime references (s2 blank) hres k2 k3 hseg false hx hok hr hl
  refine ⟨state, file2, shown, s1, e1, e4, fun disk hd1 hd2 => ?_⟩
  have g2 : ∀ x ∈ [name2], 10 ∉ x := List.forall_mem_cons.2 ⟨hnames.2, fun _ h => nomatch h⟩
  have g12 : ∀ x ∈ [name1, name2], 10 ∉ x := List.forall_mem_cons.2 ⟨hnames.1, g2⟩
  have p0 : ((after.restored).run codeRenderer frames).2 = shown.map (fun x => .ok (true, x)) := e5 _ hres ⟨⟨_, rfl⟩, rfl⟩
  have p1 : (after.run codeRenderer frames).2 = shown.map (fun x => .ok (true, x)) := e5 _ k1 ⟨⟨_, rfl⟩, rfl⟩
  have hgo1 : FollowOn codeRenderer mix d [c1] := by
    intro before c rest e
    cases before with
    | nil => cases e; exact hgoes
    | cons b before => cases before <;> exact nomatch e
  obtain ⟨o1, ho1⟩ := outs_sound ho
  refine ⟨fun fresh' blank' => ?_, ?_⟩
  · have b := C79_bundle (R := codeRenderer) mix g2 (fresh := fresh') (start := some (blank', state)) (disk := disk) (files := [file2]) (.cons hd2 .nil)
      (before := [(⟨vp80, width, height, 1, 1, after.restored.minihash mix⟩, frames)]) (after := []) rfl (.cons e2 .nil) hres ⟨s2 blank', k2, k3⟩
      (by
        intro before c rest e
        cases before with
        | nil => cases e; exact .inr rfl
        | cons b before => cases before <;> exact nomatch e)
      (fun c h => nomatch h)
    rw [show allFrames [((⟨vp80, width, height, 1, 1, after.restored.minihash mix⟩, frames) : Chunk)] = frames by simp [allFrames], p0, projected_shown] at b
    rw [b, show after.restored.state.width = width from k2, show after.restored.state.height = height from k3]
    rfl
  · by_cases hc : after.restored.minihash mix = 0 ∨ after.restored.minihash mix = after.minihash mix
    · rw [if_pos hc]
      have b := C79_bundle mix g12 (disk := disk) (files := [file1, file2]) (.cons hd1 (.cons hd2 .nil))
        (before := [c1, (⟨vp80, width, height, 1, 1, after.restored.minihash mix⟩, frames)]) (after := []) (first := c1) rfl (.cons h1 (.cons e2 .nil)) hd hs1
        (by
          intro before c rest e
          rcases before with _ | ⟨b, _ | ⟨b', before⟩⟩
          · cases e; exact hgoes
          · cases e
            rw [show allFrames [c1] = c1.2 by simp [allFrames], hafter]
            exact hc
          · cases before <;> exact nomatch e)
        (fun c h => nomatch h)
      rw [show allFrames [c1, ((⟨vp80, width, height, 1, 1, after.restored.minihash mix⟩, frames) : Chunk)] = c1.2 ++ frames by simp [allFrames], run_append, hafter, p1,
        projected_append, ho1, projected_sound, projected_shown, hdim.1, hdim.2] at b
      rw [b, ho1, projected_sound]
      rfl
    · rw [if_neg hc]
      have b := C79_bundle mix g12 (disk := disk) (files := [file1, file2]) (.cons hd1 (.cons hd2 .nil))
        (before := [c1]) (after := [(⟨vp80, width, height, 1, 1, after.restored.minihash mix⟩, frames)]) (first := c1) rfl (.cons h1 (.cons e2 .nil)) hd hs1 hgo1
        (by
          intro c e
          cases e
          rw [show allFrames [c1] = c1.2 by simp [allFrames], hafter]
          exact hc)
      rw [show allFrames [c1] = c1.2 by simp [allFrames], ho1, projected_sound, hdim.1, hdim.2] at b
      rw [b, ho1, projected_sound]
      rfl

/-- The condition fails for a decoder whose pictures differ, with a hash that adds up. -/
example : ¬ (exampleDecoder.restored.minihash (· + ·) = 0 ∨ exampleDecoder.restored.minihash (· + ·) = exampleDecoder.minihash (· + ·)) := by decide +kernel

/-- All hypotheses hold for a first chunk of two pictures made from nothing and a second chunk of one picture. -/
example : ∃ (file1 state file2 : List UInt8) (shown1 shown2 : List Raster), shown1.length = 2 ∧ shown2.length = 1 ∧
    xcEncPrimary (fun a b => a + 3 * b) pictureList codeRenderer (⟨0, fun _ _ => 3⟩ : Meter Int) (.constantQuantizer 20) exampleInside true
      ⟨grayRaster 40 30 9, grayRaster 40 30 8, grayRaster 40 30 7⟩ none false 10 40 30 [grayRaster 40 30 1, grayRaster 40 30 100] = (some file1, none) ∧
    xcDump codeRenderer (fun a b => a + 3 * b) ⟨grayRaster 40 30 9, grayRaster 40 30 8, grayRaster 40 30 7⟩ none file1 none = .ok state ∧
    xcEncPrimary (fun a b => a + 3 * b) pictureList codeRenderer (⟨0, fun _ _ => 3⟩ : Meter Int) (.constantQuantizer 20) exampleInside true
      ⟨grayRaster 40 30 9, grayRaster 40 30 8, grayRaster 40 30 7⟩ (some (grayRaster 40 30 5, state)) false 10 40 30 [grayRaster 40 30 50] = (some file2, none) ∧
    ∀ disk, disk [65] = .ok file1 → disk [66] = .ok file2 →
      ∀ fresh' blank', decodeBundle codeRenderer (fun a b => a + 3 * b) fresh' (some (blank', state)) disk (lines [[66]]) = (projection 40 30 shown2, none) := by
  have hf : Fits 40 30 := ⟨by decide, by decide, by decide⟩
  obtain ⟨file, f, fs, shown, indices, p1, p2, p3, p4, p5, p6, p7, p8⟩ := primary_begins (⟨0, fun _ _ => 3⟩ : Meter Int) (fun a b => a + 3 * b) hf (by decide)
    (mode := .constantQuantizer 20) (show 20 ≤ 127 by decide) exampleInside_ok true ⟨grayRaster 40 30 9, grayRaster 40 30 8, grayRaster 40 30 7⟩
    (pictureList_gives [grayRaster 40 30 1, grayRaster 40 30 100]) (List.cons_ne_nil _ _)
    (fun y h => by simp only [List.mem_cons, List.not_mem_nil, or_false] at h; rcases h with rfl | rfl <;> exact grayRaster_ok ..)
    (rounds := 10) (by simp only [List.length_cons, List.length_nil]; omega) (by simp only [List.length_cons, List.length_nil]; omega)
  let d := Decoder.new ⟨grayRaster 40 30 9, grayRaster 40 30 8, grayRaster 40 30 7⟩ 40 30
  have hd : d.Ok := ⟨⟨hf.wide, hf.high, fun _ h => (nomatch h), fun _ h => (nomatch h)⟩, grayRaster_ok .., grayRaster_ok .., grayRaster_ok ..⟩
  obtain ⟨r1, r2⟩ := p8 d rfl rfl
  have l2 : (f :: fs).length = 2 := p3
  obtain ⟨state, file2, shown2, q1, q2, q3, q4⟩ := C103_bundle (⟨0, fun _ _ => 3⟩ : Meter Int) (fun a b => a + 3 * b) hf (by decide)
    (mode := .constantQuantizer 20) (show 20 ≤ 127 by decide) exampleInside_ok true ⟨grayRaster 40 30 9, grayRaster 40 30 8, grayRaster 40 30 7⟩ (grayRaster 40 30 5)
    (fresh := ⟨grayRaster 40 30 9, grayRaster 40 30 8, grayRaster 40 30 7⟩) (start := none) (name1 := [65]) (name2 := [66]) (by decide) p2 ⟨rfl, rfl⟩
    (by show 0 < (f :: fs).length ∧ (f :: fs).length < _; omega) hd rfl (.inl rfl) rfl
    (by
      intro out ho
      rw [r1] at ho
      obtain ⟨y, -, rfl⟩ := List.mem_map.1 ho
      exact ⟨_, rfl⟩) r2 (pictureList_gives [grayRaster 40 30 50])
    (fun y h => by simp only [List.mem_cons, List.not_mem_nil, or_false] at h; subst h; exact grayRaster_ok ..)
    (rounds := 10) (by simp only [List.length_cons, List.length_nil]; omega) (by simp only [List.length_cons, List.length_nil]; omega)
  exact ⟨file, state, file2, shown, shown2, p5, q3.1, p1, q1, q2, fun disk h1 h2 => (q4 disk h1 h2).1⟩

end Alfalfa
