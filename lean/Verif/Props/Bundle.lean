import Verif.Spec.Bundle
import Verif.Props.Convert
import Verif.Props.Reencode
import Verif.Props.Terminate

/-! Chunks of a video, played one after another or from a saved state (C79). -/

namespace Alfalfa

/-! ### The names -/

theorem bundleNames_lines : ∀ (names : List (List UInt8)) (last : List UInt8) (n : Nat), (∀ x ∈ names, 10 ∉ x) → 10 ∉ last → names.length < n →
    bundleNames n (lines names ++ last) = names
  | [], last, n + 1, _, hl, _ => by
    have : ∀ l : List UInt8, 10 ∉ l → (splitLine l).2.2 = true := by
      intro l
      induction l with
      | nil => intro _; rfl
      | cons c l ih =>
        intro h
        rw [List.mem_cons, not_or] at h
        unfold splitLine
        rw [if_neg (fun e => h.1 e.symm)]
        exact ih h.2
    unfold bundleNames lines
    rw [List.flatMap_nil, List.nil_append, if_pos (this last hl)]
  | x :: names, last, n + 1, h, hl, hn => by
    have hx : splitLine (lines (x :: names) ++ last) = (x, lines names ++ last, false) := by
      unfold lines
      rw [List.flatMap_cons, List.append_assoc, List.append_assoc, List.singleton_append]
      exact splitLine_line _ _ (h x (List.mem_cons_self ..))
    unfold bundleNames
    rw [hx]
    dsimp only
    rw [if_neg (by decide), bundleNames_lines names last n (fun y hy => h y (List.mem_cons_of_mem _ hy)) hl (by rw [List.length_cons] at hn; omega)]

theorem lines_length (names : List (List UInt8)) : names.length ≤ (lines names).length := by
  induction names with
  | nil => exact Nat.zero_le _
  | cons x names ih =>
    unfold lines at ih ⊢
    rw [List.flatMap_cons, List.length_append, List.length_append, List.length_cons, List.length_singleton]
    omega

theorem map_disk {disk : List UInt8 → Except FrameError (List UInt8)} {names files : List (List UInt8)}
    (h : List.Forall₂ (fun name bytes => disk name = .ok bytes) names files) : names.map disk = files.map .ok := by
  induction h with
  | nil => rfl
  | cons h _ ih => exact congrArg₂ List.cons h ih

/-! ### Frames -/

theorem projected_ok (shown : Bool) (r : Raster) (l : List (Except FrameError (Bool × Raster))) :
    projected (.ok (shown, r) :: l) = ((if shown then [r] else []) ++ (projected l).1, (projected l).2) := rfl

theorem projected_append (a b : List (Except FrameError (Bool × Raster))) : projected (a ++ b) =
    match (projected a).2 with
    | some e => ((projected a).1, some e)
    | none => ((projected a).1 ++ (projected b).1, (projected b).2) := by
  induction a with
  | nil => rfl
  | cons x a ih =>
    rcases x with e | ⟨shown, r⟩
    · rfl
    · rw [List.cons_append, projected_ok, projected_ok, ih]
      rcases (projected a).2 with _ | e <;> simp only [List.append_assoc]

theorem bundleFrames_spec (R : Renderer) (ivf : IVF) : ∀ (frames : List (List UInt8)) (k : Nat) (d : Decoder),
    (∀ i (hi : i < frames.length), ivf.frame (k + i) = .ok frames[i]) →
    (bundleFrames R ivf frames.length k d).2 = ((projected (d.run R frames).2).1.flatMap y4mFrame, (projected (d.run R frames).2).2) ∧
    ((projected (d.run R frames).2).2 = none → (bundleFrames R ivf frames.length k d).1 = (d.run R frames).1)
  | [], _, _, _ => ⟨rfl, fun _ => rfl⟩
  | f :: frames, k, d, h => by
    have h0 := h 0 (by simp)
    rw [Nat.add_zero, List.getElem_cons_zero] at h0
    have hrest : ∀ i (hi : i < frames.length), ivf.frame (k + 1 + i) = .ok frames[i] := fun i hi => by
      have := h (i + 1) (by simpa using hi)
      rw [List.getElem_cons_succ] at this
      rw [← this]
      congr 1
      omega
    have hrun : d.run R (f :: frames) = (((d.getFrameOutput R f).1.run R frames).1, (d.getFrameOutput R f).2 :: ((d.getFrameOutput R f).1.run R frames).2) := rfl
    rw [hrun, List.length_cons]
    unfold bundleFrames
    rw [h0]
    dsimp only
    unfold Decoder.parseAndDecodeFrame
    rcases d.getFrameOutput R f with ⟨d1, e | ⟨shown, r⟩⟩
    · exact ⟨rfl, fun h => nomatch h⟩
    · dsimp only
      obtain ⟨i1, i2⟩ := bundleFrames_spec R ivf frames (k + 1) d1 hrest
      refine ⟨?_, fun hn => i2 hn⟩
      rw [i1, projected_ok]
      cases shown
      · rw [if_neg (by decide), if_neg (by decide)]; rfl
      · rw [if_pos rfl, if_pos rfl, List.flatMap_append, List.flatMap_singleton]; rfl

/-! ### Files -/

theorem goesWith_iff {mix : Nat → Nat → Nat} {c : Chunk} {d : Decoder} {ivf : IVF} (h : ivf.Holds c.1 c.2) :
    d.minihashMatch mix ivf.expectedMinihash = true ↔ c.GoesWith mix d := by
  unfold Decoder.minihashMatch Chunk.GoesWith
  rw [h.expectedMinihash]
  by_cases h0 : c.1.expectedMinihash = 0
  · rw [if_pos h0]; exact ⟨fun _ => .inl h0, fun _ => rfl⟩
  · rw [if_neg h0, decide_eq_true_eq]
    exact ⟨fun e => .inr e.symm, fun e => (e.resolve_left h0).symm⟩

theorem FollowOn.tail {R : Renderer} {mix : Nat → Nat → Nat} {d : Decoder} {c : Chunk} {chunks : List Chunk} (h : FollowOn R mix d (c :: chunks)) :
    FollowOn R mix (d.run R c.2).1 chunks := fun before c' after e => by
  have := h (c :: before) c' after (by rw [e]; rfl)
  have e1 : allFrames (c :: before) = c.2 ++ allFrames before := rfl
  rw [e1, run_append] at this
  exact this

/-- What has been written and how it ended, when the chunks `before` have been accepted and a chunk that does not follow on comes next (`stopped`). -/
def playedUntil (stopped : Bool) (out : List Raster × Option FrameError) : List UInt8 × Option BundleError :=
  (out.1.flatMap y4mFrame, match out.2 with
    | some e => some (.file e)
    | none => if stopped then some .mismatch else none)

theorem bundleLoop_going {R : Renderer} {mix : Nat → Nat → Nat} {fresh : References} {start : Option (Raster × List UInt8)} {after : List Chunk}
    : ∀ {before : List Chunk} {files : List (List UInt8)} {d : Decoder}, List.Forall₂ Chunk.InFile (before ++ after) files → FollowOn R mix d before →
    (∀ c, after.head? = some c → ¬ c.GoesWith mix (d.run R (allFrames before)).1) →
    bundleLoop R mix fresh start (files.map .ok) (some d) = playedUntil (!after.isEmpty) (projected (d.run R (allFrames before)).2)
  | [], files, d, h, _, ha => by
    cases after with
    | nil => cases h; rfl
    | cons c after =>
      cases h with
      | cons h _ =>
        obtain ⟨ivf, h1, h2⟩ := h
        rw [List.map_cons]
        unfold bundleLoop
        rw [h1]
        dsimp only
        have : d.minihashMatch mix ivf.expectedMinihash = false := Bool.eq_false_iff.2 fun e => ha c rfl ((goesWith_iff h2).1 e)
        rw [if_pos this]
        rfl
  | c :: before, _, d, .cons (b := bytes) (l₂ := files) ⟨ivf, h1, h2⟩ hrest, hf, ha => by
    have e1 : allFrames (c :: before) = c.2 ++ allFrames before := rfl
    have hm : d.minihashMatch mix ivf.expectedMinihash = true := (goesWith_iff h2).2 (hf [] c before rfl)
    obtain ⟨g1, g2⟩ := bundleFrames_spec R ivf c.2 0 d (fun i hi => by rw [Nat.zero_add]; exact h2.contents i hi)
    rw [e1, run_append] at ha
    have ih := bundleLoop_going (start := start) (fresh := fresh) hrest hf.tail ha
    rw [List.map_cons, e1, run_append]
    unfold bundleLoop
    rw [h1]
    dsimp only
    rw [hm, if_neg (by decide), h2.frameCount, projected_append]
    generalize bundleFrames R ivf c.2.length 0 d = z at g1 g2
    obtain ⟨d1, out, err⟩ := z
    cases g1
    cases hp : (projected (d.run R c.2).2).2 with
    | some e => rfl
    | none =>
      have hd := g2 hp
      dsimp only at hd ⊢
      rw [hd, ih]
      unfold playedUntil
      dsimp only
      rw [List.flatMap_append, List.nil_append]

theorem bundleLoop_spec {R : Renderer} {mix : Nat → Nat → Nat} {fresh : References} {start : Option (Raster × List UInt8)} {c : Chunk} {bytes : List UInt8}
    {files : List (List UInt8)} (h : Chunk.InFile c bytes) {d : Decoder} (hs : BeginsWith fresh start c.1.width c.1.height d) :
    bundleLoop R mix fresh start ((bytes :: files).map .ok) none =
      ((Y4MHeader.ofRaster d.references.last).text ++ (bundleLoop R mix fresh start ((bytes :: files).map .ok) (some d)).1,
        (bundleLoop R mix fresh start ((bytes :: files).map .ok) (some d)).2) := by
  obtain ⟨ivf, h1, h2⟩ := h
  have hb : bundleStart fresh start ivf = .ok d := by
    unfold BeginsWith at hs
    unfold bundleStart
    rcases start with _ | ⟨blank, state⟩
    · dsimp only at hs ⊢
      rw [hs, h2.width, h2.height]
    · dsimp only at hs ⊢
      obtain ⟨s1, s2, s3⟩ := hs
      rw [s1]
      dsimp only
      rw [h2.width, h2.height, s2, s3, if_neg (by simp)]
  rw [List.map_cons]
  conv => lhs; unfold bundleLoop
  conv => rhs; unfold bundleLoop
  rw [h1]
  dsimp only
  rw [hb]
  dsimp only [Except.map]
  by_cases hm : d.minihashMatch mix ivf.expectedMinihash = false
  · rw [if_pos hm, if_pos hm, List.append_nil]
  · rw [if_neg hm, if_neg hm]
    rcases bundleFrames R ivf ivf.frameCount 0 d with ⟨d1, out, _ | e⟩
    · dsimp only; rw [List.nil_append, List.append_assoc]
    · dsimp only; rw [List.nil_append]

theorem projection_eq {d : Decoder} (hd : d.Ok) (pictures : List Raster) :
    (Y4MHeader.ofRaster d.references.last).text ++ pictures.flatMap y4mFrame = projection d.state.width d.state.height pictures := by
  unfold projection Y4MHeader.ofRaster
  rw [hd.references.last.displayWidth, hd.references.last.displayHeight]

/-- **C79, playback of chunks.** The files that are named, one in each line, are played as one stream: the output is a raw-video file with the pictures of the shown
frames of all the chunks, in order, up to the first frame that cannot be decoded.  A chunk that names another decoder state than the one that
the frames before it lead to is refused, and nothing of it and of the chunks after it is shown. -/
theorem C79_bundle {R : Renderer} (mix : Nat → Nat → Nat) {fresh : References} {start : Option (Raster × List UInt8)}
    {disk : List UInt8 → Except FrameError (List UInt8)} {names files : List (List UInt8)} (hnames : ∀ x ∈ names, 10 ∉ x)
    (hdisk : List.Forall₂ (fun name bytes => disk name = .ok bytes) names files)
    {before after : List Chunk} {first : Chunk} (hfirst : (before ++ after).head? = some first) (hfiles : List.Forall₂ Chunk.InFile (before ++ after) files)
    {d : Decoder} (hd : d.Ok) (hs : BeginsWith fresh start first.1.width first.1.height d)
    (hfollow : FollowOn R mix d before) (hstop : ∀ c, after.head? = some c → ¬ c.GoesWith mix (d.run R (allFrames before)).1) :
    decodeBundle R mix fresh start disk (lines names) =
      (projection d.state.width d.state.height (projected (d.run R (allFrames before)).2).1,
        match (projected (d.run R (allFrames before)).2).2 with
        | some e => some (.file e)
        | none => if after = [] then none else some .mismatch) := by
  have hn := bundleNames_lines names [] ((lines names).length + 1) hnames (fun h => nomatch h) (by have := lines_length names; omega)
  rw [List.append_nil] at hn
  have hmap := map_disk hdisk
  have hloop := bundleLoop_going (fresh := fresh) (start := start) hfiles hfollow hstop
  unfold decodeBundle
  rw [hn, hmap]
  generalize hall : before ++ after = all at hfirst hfiles
  cases hfiles with
  | nil => exact nomatch hfirst
  | cons h hrest =>
    cases hfirst
    rw [bundleLoop_spec h hs, hloop]
    unfold playedUntil
    dsimp only
    rw [projection_eq hd]
    congr 1
    cases (projected (d.run R (allFrames before)).2).2 with
    | some e => rfl
    | none => cases after <;> rfl

/-- **C79**: wherever a stream is cut, and into however many chunks, the output is the same. -/
theorem C79_cut_anywhere {R : Renderer} (mix : Nat → Nat → Nat) {fresh : References} {start : Option (Raster × List UInt8)}
    {disk : List UInt8 → Except FrameError (List UInt8)} {names names' files files' : List (List UInt8)} (hnames : ∀ x ∈ names, 10 ∉ x) (hnames' : ∀ x ∈ names', 10 ∉ x)
    (hdisk : List.Forall₂ (fun name bytes => disk name = .ok bytes) names files) (hdisk' : List.Forall₂ (fun name bytes => disk name = .ok bytes) names' files')
    {chunks chunks' : List Chunk} {first first' : Chunk} (hfirst : chunks.head? = some first) (hfirst' : chunks'.head? = some first')
    (hfiles : List.Forall₂ Chunk.InFile chunks files) (hfiles' : List.Forall₂ Chunk.InFile chunks' files')
    {d : Decoder} (hd : d.Ok) (hs : BeginsWith fresh start first.1.width first.1.height d) (hs' : BeginsWith fresh start first'.1.width first'.1.height d)
    (hfollow : FollowOn R mix d chunks) (hfollow' : FollowOn R mix d chunks') (hsame : allFrames chunks = allFrames chunks') :
    decodeBundle R mix fresh start disk (lines names) = decodeBundle R mix fresh start disk (lines names') := by
  rw [C79_bundle mix hnames hdisk (before := chunks) (after := []) (by rw [List.append_nil]; exact hfirst) (by rw [List.append_nil]; exact hfiles) hd hs hfollow
      (fun c h => nomatch h),
    C79_bundle mix hnames' hdisk' (before := chunks') (after := []) (by rw [List.append_nil]; exact hfirst') (by rw [List.append_nil]; exact hfiles') hd hs' hfollow'
      (fun c h => nomatch h), hsame]

theorem projected_sound (outs : List (Bool × Raster)) : projected (outs.map .ok) = ((outs.filter (·.1)).map (·.2), none) := by
  induction outs with
  | nil => rfl
  | cons x outs ih =>
    obtain ⟨shown, r⟩ := x
    rw [List.map_cons, projected_ok, ih]
    cases shown <;> rfl

/-- **C79**: two chunks of the same size, played one after the other, give the same file as the two merged into one and given to the decoder program, if the stream
begins with a key frame, can be decoded and does not end with a hidden frame. -/
theorem C79_as_merged {R : Renderer} (hR : R.Ok) (mix : Nat → Nat → Nat) {fresh : References} {disk : List UInt8 → Except FrameError (List UInt8)}
    {name1 name2 file1 file2 : List UInt8} (hnames : 10 ∉ name1 ∧ 10 ∉ name2) (hdisk : disk name1 = .ok file1 ∧ disk name2 = .ok file2)
    {c1 c2 : Chunk} (h1 : c1.InFile file1) (h2 : c2.InFile file2) (hsize : c1.1.width = c2.1.width ∧ c1.1.height = c2.1.height)
    (hd : (Decoder.new fresh c1.1.width c1.1.height).Ok) (hcount : c1.2.length + c2.2.length < 2 ^ 32)
    (hfollow : FollowOn R mix (Decoder.new fresh c1.1.width c1.1.height) [c1, c2])
    {f : List UInt8} {fs : List (List UInt8)} (hf : c1.2 ++ c2.2 = f :: fs) (hkey : SaysKey f)
    {outs : List (Bool × Raster)} (houts : ((Decoder.new fresh c1.1.width c1.1.height).run R (f :: fs)).2 = outs.map .ok) {x : Raster} (hlast : outs.getLast? = some (true, x)) :
    ∃ merged, xcMerge file1 file2 = .ok merged ∧
      decodeBundle R mix fresh none disk (lines [name1, name2]) = ((vp8decodeFile R fresh merged).1, none) ∧ (vp8decodeFile R fresh merged).2 = none := by
  obtain ⟨ivf1, a1, a2⟩ := id h1
  obtain ⟨ivf2, b1, b2⟩ := id h2
  obtain ⟨merged, ivf, m1, m2, m3⟩ := (C53_merge file1 file2 ivf1 ivf2 a1 b1 c1.2 c2.2 a2.frameCount b2.frameCount a2.contents b2.contents hcount).1
    ⟨by rw [a2.width, b2.width, hsize.1], by rw [a2.height, b2.height, hsize.2]⟩
  have all : allFrames [c1, c2] = f :: fs := by rw [← hf]; simp [allFrames]
  have hb := C79_bundle (R := R) mix (fresh := fresh) (start := none) (disk := disk) (names := [name1, name2]) (files := [file1, file2])
    (List.forall_mem_cons.2 ⟨hnames.1, List.forall_mem_cons.2 ⟨hnames.2, fun _ h => nomatch h⟩⟩) (.cons hdisk.1 (.cons hdisk.2 .nil)) (before := [c1, c2]) (after := [])
    (first := c1) rfl (.cons h1 (.cons h2 .nil)) hd rfl hfollow (fun c h => nomatch h)
  rw [all, houts, projected_sound] at hb
  have hsplit : ∃ c, splitFrame f c1.1.width c1.1.height false = .ok c := by
    have hrun : ((Decoder.new fresh c1.1.width c1.1.height).run R (f :: fs)).2.head? = some ((Decoder.new fresh c1.1.width c1.1.height).getFrameOutput R f).2 := rfl
    rw [houts] at hrun
    cases outs with
    | nil => exact nomatch hlast
    | cons o outs =>
      have ho : ((Decoder.new fresh c1.1.width c1.1.height).getFrameOutput R f).2 = .ok o := (Option.some.inj hrun).symm
      rcases output_cases R (Decoder.new fresh c1.1.width c1.1.height) f with ⟨e', -, h⟩ | ⟨c, hs, -⟩
      · rw [h] at ho; exact nomatch ho
      · exact ⟨c, hs⟩
  have e1 : ivf.width = c1.1.width := by rw [m3.width]; exact a2.width
  have e2 : ivf.height = c1.1.height := by rw [m3.height]; exact a2.height
  have hp := (C55_playback R fresh merged ivf m2
    { fourcc := "VP80".toUTF8.toList, width := ivf1.width, height := ivf1.height, frameRate := 1, timeScale := 1, expectedMinihash := 0 } [] (f :: fs)
    (by rw [List.nil_append, ← hf]; exact m3) rfl (fun f h => nomatch h)
    (fun g hg => by cases hg; rw [e1, e2]; exact ⟨hkey, hsplit⟩)).1
  dsimp only at hp
  rw [show ivf1.width = c1.1.width from a2.width, show ivf1.height = c1.1.height from a2.height, houts, C55_reel_of_sound_stream outs (fun z hz => by rw [hlast] at hz; cases hz; rfl)] at hp
  refine ⟨merged, m1, ?_, by unfold vp8decodeFile; rw [hp]⟩
  have hall : ∀ y ∈ (outs.filter (·.1)).map (·.2), y.Ok c1.1.width c1.1.height := by
    intro y hy
    obtain ⟨⟨s, y'⟩, hz, rfl⟩ := List.mem_map.1 hy
    exact run_ok R hR (f :: fs) _ hd s y' (by rw [houts]; exact List.mem_map.2 ⟨_, (List.mem_filter.1 hz).1, rfl⟩)
  have hne : x ∈ (outs.filter (·.1)).map (·.2) :=
    List.mem_map.2 ⟨(true, x), List.mem_filter.2 ⟨List.mem_of_getLast? hlast, rfl⟩, rfl⟩
  rw [hb]
  unfold vp8decodeFile
  rw [hp]
  dsimp only
  generalize (outs.filter (·.1)).map (·.2) = shown at hall hne
  rw [if_pos (rfl : ([] : List Chunk) = [])]
  refine Prod.ext ?_ rfl
  cases shown with
  | nil => exact nomatch hne
  | cons y ys =>
    have hy := hall y (List.mem_cons_self ..)
    show projection c1.1.width c1.1.height (y :: ys) = _
    unfold y4mOutput y4mFile projection Y4MHeader.ofRaster
    dsimp only
    rw [hy.displayWidth, hy.displayHeight]

/-! ### Saving the state at a frame -/

theorem dumpFrame_spec {R : Renderer} {d : Decoder} {bytes : List UInt8} {x : Bool × Raster} (h : (d.getFrameOutput R bytes).2 = .ok x) :
    dumpFrame R d.state.width d.state.height d bytes = .ok (d.getFrameOutput R bytes).1 := by
  unfold Decoder.getFrameOutput at h ⊢
  unfold dumpFrame
  cases hs : splitFrame bytes d.state.width d.state.height false with
  | error e => rw [hs] at h; exact nomatch h
  | ok c =>
    rw [hs] at h
    dsimp only at h ⊢
    by_cases hk : c.keyFrame = true
    · rw [if_pos hk] at h ⊢
      rw [if_pos hk]
      generalize d.state.applyKey c = z at h ⊢
      obtain ⟨st, e | f⟩ := z
      · exact nomatch h
      · rfl
    · rw [if_neg hk] at h ⊢
      rw [if_neg hk]
      by_cases hx : ¬ c.experimental = true
      · rw [if_pos hx] at h ⊢
        generalize d.state.applyInter c = z at h ⊢
        obtain ⟨st, e | f⟩ := z
        · exact nomatch h
        · rfl
      · rw [if_neg hx] at h; exact nomatch h

theorem dumpLoop_spec {R : Renderer} (hR : R.Ok) {ivf : IVF} {frameNumber : Nat} : ∀ {frames : List (List UInt8)} {i n : Nat} {d : Decoder}, d.Ok → ivf.width = d.state.width →
    ivf.height = d.state.height → frames ≠ [] → frames.length ≤ n → i + frames.length = frameNumber + 1 → (∀ j (hj : j < frames.length), ivf.frame (i + j) = .ok frames[j]) →
    (∀ out ∈ (d.run R frames).2, ∃ x, out = .ok x) → dumpLoop R ivf frameNumber n i d = .ok (saveDecoder (d.run R frames).1)
  | [], _, _, _, _, _, _, h, _, _, _, _ => absurd rfl h
  | f :: frames, i, 0, d, _, _, _, _, hn, _, _, _ => by rw [List.length_cons] at hn; omega
  | f :: frames, i, n + 1, d, hd, hw, hh, _, hn, he, hf, ho => by
    have h0 := hf 0 (by simp)
    rw [Nat.add_zero, List.getElem_cons_zero] at h0
    have hrun : d.run R (f :: frames) = (((d.getFrameOutput R f).1.run R frames).1, (d.getFrameOutput R f).2 :: ((d.getFrameOutput R f).1.run R frames).2) := rfl
    rw [hrun] at ho ⊢
    obtain ⟨x, hx⟩ := ho _ (List.mem_cons_self ..)
    obtain ⟨k1, k2, k3, -⟩ := C18_rejected_frame_leaves_usable R hR d hd f
    unfold dumpLoop
    rw [h0]
    dsimp only
    rw [hw, hh, dumpFrame_spec hx]
    dsimp only
    rw [List.length_cons] at he hn
    cases frames with
    | nil =>
      rw [List.length_nil] at he
      rw [if_pos (by omega)]
      rfl
    | cons g frames =>
      rw [List.length_cons] at he hn
      rw [if_neg (by omega)]
      refine dumpLoop_spec hR k1 (hw.trans k2.symm) (hh.trans k3.symm) (fun h => nomatch h) (by rw [List.length_cons]; omega)
        (by rw [List.length_cons]; omega) (fun j hj => ?_) (fun out h => ho out (List.mem_cons_of_mem _ h))
      have := hf (j + 1) (by rw [List.length_cons]; omega)
      rw [List.getElem_cons_succ] at this
      rw [← this]
      congr 1
      omega

/-- **C79, saving the state at a frame.** The file is the state of a decoder that was given the frames up to and including this one (without a number: all
frames), and a decoder that is read from it is in this state but for the golden and the alternate picture. -/
theorem C79_dump {R : Renderer} (hR : R.Ok) (mix : Nat → Nat → Nat) {fresh : References} {start : Option (Raster × List UInt8)} {bytes : List UInt8} {c : Chunk} (hc : c.InFile bytes)
    (hlen : c.2.length < 2 ^ 32) {d : Decoder} (hd : d.Ok) (hs : BeginsWith fresh start c.1.width c.1.height d) (hgoes : c.GoesWith mix d) {frameNumber : Option Nat} {k : Nat}
    (hk : frameNumber.getD (c.2.length - 1) = k) (hin : k < c.2.length) (ho : ∀ out ∈ (d.run R (c.2.take (k + 1))).2, ∃ x, out = .ok x) :
    ∃ file, xcDump R mix fresh start bytes frameNumber = .ok file ∧ ∀ blank, loadDecoder blank file =
      some ⟨(d.run R (c.2.take (k + 1))).1.state, ⟨(d.run R (c.2.take (k + 1))).1.references.last, (d.run R (c.2.take (k + 1))).1.references.last,
        (d.run R (c.2.take (k + 1))).1.references.last⟩⟩ := by
  obtain ⟨ivf, h1, h2⟩ := hc
  refine ⟨saveDecoder (d.run R (c.2.take (k + 1))).1, ?_, fun blank => C16_save_restore_partial _ (C18_any_history R hR _ d hd).1 blank⟩
  have hsize : ivf.width = d.state.width ∧ ivf.height = d.state.height ∧ dumpStart fresh start ivf = some d := by
    unfold dumpStart
    rw [h2.width, h2.height]
    unfold BeginsWith at hs
    rcases start with _ | ⟨blank, state⟩
    · dsimp only at hs; subst hs; exact ⟨rfl, rfl, rfl⟩
    · exact ⟨hs.2.1.symm, hs.2.2.symm, hs.1⟩
  unfold xcDump
  rw [h1]
  dsimp only
  rw [hsize.2.2]
  dsimp only
  have hm : ¬ d.minihashMatch mix ivf.expectedMinihash = false := by rw [(goesWith_iff h2).2 hgoes]; decide
  rw [if_neg hm]
  have hnum : frameNumber.getD ((ivf.frameCount + (2 ^ 32 - 1)) % 2 ^ 32) = k := by
    cases frameNumber with
    | some n => rw [Option.getD_some] at hk ⊢; exact hk
    | none => rw [Option.getD_none] at hk ⊢; rw [h2.frameCount]; omega
  rw [hnum]
  refine dumpLoop_spec hR hd hsize.1 hsize.2.1 (fun h => ?_) (by rw [List.length_take, h2.frameCount]; omega) (by rw [List.length_take]; omega) (fun j hj => ?_) ho
  · have := congrArg List.length h
    rw [List.length_take, List.length_nil] at this
    omega
  · rw [Nat.zero_add, List.getElem_take]
    exact h2.contents _ _

/-- **C79, going on from a saved state.** If the decoder holds one picture after the first chunk (as after a key frame, or after a chunk that was made by
re-encoding: `C74_reencode`), the state can be saved there and playback go on with the second chunk in another process: the pictures that the
two processes write are those that one process writes. -/
theorem C79_resume {R : Renderer} (hR : R.Ok) (mix : Nat → Nat → Nat) {fresh : References} {start : Option (Raster × List UInt8)}
    {disk : List UInt8 → Except FrameError (List UInt8)} {name1 name2 file1 file2 : List UInt8} (hnames : 10 ∉ name1 ∧ 10 ∉ name2)
    (hdisk : disk name1 = .ok file1 ∧ disk name2 = .ok file2) {c1 c2 : Chunk} (h1 : c1.InFile file1) (h2 : c2.InFile file2)
    (hsize : c1.1.width = c2.1.width ∧ c1.1.height = c2.1.height) (hlen : 0 < c1.2.length ∧ c1.2.length < 2 ^ 32)
    {d : Decoder} (hd : d.Ok) (hs : BeginsWith fresh start c1.1.width c1.1.height d) (hfollow : FollowOn R mix d [c1, c2])
    (ho : ∀ out ∈ (d.run R c1.2).2, ∃ x, out = .ok x) (hconv : (d.run R c1.2).1.references.Converged) :
    let pictures1 := (projected (d.run R c1.2).2).1
    let pictures2 := (projected ((d.run R c1.2).1.run R c2.2).2).1
    ∃ state err, xcDump R mix fresh start file1 none = .ok state ∧
      decodeBundle R mix fresh start disk (lines [name1]) = (projection c1.1.width c1.1.height pictures1, none) ∧
      (∀ fresh' blank, decodeBundle R mix fresh' (some (blank, state)) disk (lines [name2]) = (projection c1.1.width c1.1.height pictures2, err)) ∧
      decodeBundle R mix fresh start disk (lines [name1, name2]) = (projection c1.1.width c1.1.height (pictures1 ++ pictures2), err) := by
  have all : allFrames [c1, c2] = c1.2 ++ c2.2 := by simp [allFrames]
  have all1 : allFrames [c1] = c1.2 := by simp [allFrames]
  have all2 : allFrames [c2] = c2.2 := by simp [allFrames]
  obtain ⟨k1, k2, k3⟩ := C18_any_history R hR c1.2 d hd
  have hdim : d.state.width = c1.1.width ∧ d.state.height = c1.1.height := by
    unfold BeginsWith at hs
    rcases start with _ | ⟨blank, state⟩
    · dsimp only at hs; subst hs; exact ⟨rfl, rfl⟩
    · exact hs.2
  obtain ⟨state, s1, s2⟩ := C79_dump hR mix h1 hlen.2 hd hs (hfollow [] c1 [c2] rfl) (frameNumber := none) (k := c1.2.length - 1) rfl (by omega)
    (by rw [List.take_of_length_le (by omega)]; exact ho)
  rw [List.take_of_length_le (by omega)] at s2
  have hload : ∀ blank, loadDecoder blank state = some (d.run R c1.2).1 := fun blank => by
    rw [s2 blank]
    exact congrArg some (Decoder.ext rfl (References.ext rfl hconv.1.symm hconv.2.symm))
  obtain ⟨o1, ho1⟩ : ∃ o1 : List (Bool × Raster), (d.run R c1.2).2 = o1.map .ok := by
    clear hload s2 s1 hfollow hs hconv
    generalize (d.run R c1.2).2 = l at ho
    induction l with
    | nil => exact ⟨[], rfl⟩
    | cons a l ih =>
      obtain ⟨x, hx⟩ := ho a (List.mem_cons_self ..)
      obtain ⟨xs, hxs⟩ := ih (fun out h => ho out (List.mem_cons_of_mem _ h))
      exact ⟨x :: xs, by rw [hx, hxs]; rfl⟩
  have f1 : FollowOn R mix d [c1] := fun before c after e => hfollow before c (after ++ [c2]) (by
    rw [show [c1, c2] = [c1] ++ [c2] from rfl, e, List.append_assoc]; rfl)
  have g1 : ∀ x ∈ [name1], 10 ∉ x := List.forall_mem_cons.2 ⟨hnames.1, fun _ h => nomatch h⟩
  have g2 : ∀ x ∈ [name2], 10 ∉ x := List.forall_mem_cons.2 ⟨hnames.2, fun _ h => nomatch h⟩
  have g12 : ∀ x ∈ [name1, name2], 10 ∉ x := List.forall_mem_cons.2 ⟨hnames.1, g2⟩
  have b1 := C79_bundle mix g1 (disk := disk) (files := [file1]) (.cons hdisk.1 .nil) (before := [c1]) (after := []) (first := c1) rfl (.cons h1 .nil) hd hs f1
    (fun c h => nomatch h)
  have b12 := C79_bundle mix g12 (disk := disk) (files := [file1, file2]) (.cons hdisk.1 (.cons hdisk.2 .nil)) (before := [c1, c2]) (after := []) (first := c1) rfl
    (.cons h1 (.cons h2 .nil)) hd hs hfollow (fun c h => nomatch h)
  have b2 : ∀ fresh' blank, _ := fun fresh' blank => C79_bundle (R := R) mix g2 (fresh := fresh') (start := some (blank, state)) (disk := disk) (files := [file2]) (.cons hdisk.2 .nil)
    (before := [c2]) (after := []) (first := c2) rfl
    (.cons h2 .nil) k1 ⟨hload blank, by rw [k2, hdim.1, hsize.1], by rw [k3, hdim.2, hsize.2]⟩ hfollow.tail (fun c h => nomatch h)
  rw [all1, ho1, projected_sound, hdim.1, hdim.2] at b1
  rw [all, run_append, projected_append, ho1, projected_sound, hdim.1, hdim.2] at b12
  rw [all2, k2, k3, hdim.1, hdim.2] at b2
  rw [ho1, projected_sound]
  exact ⟨state, _, s1, b1, b2, b12⟩

/-- **C79, deviation.** If the last line is not ended, the file it names is left out, and the program says nothing. -/
theorem C79_unfinished_line_ignored (R : Renderer) (mix : Nat → Nat → Nat) (fresh : References) (start : Option (Raster × List UInt8))
    (disk : List UInt8 → Except FrameError (List UInt8)) (names : List (List UInt8)) (hnames : ∀ x ∈ names, 10 ∉ x) (last : List UInt8) (hl : 10 ∉ last) :
    decodeBundle R mix fresh start disk (lines names ++ last) = decodeBundle R mix fresh start disk (lines names) := by
  have h1 := bundleNames_lines names last ((lines names ++ last).length + 1) hnames hl (by have := lines_length names; rw [List.length_append]; omega)
  have h2 := bundleNames_lines names [] ((lines names).length + 1) hnames (fun h => nomatch h) (by have := lines_length names; omega)
  rw [List.append_nil] at h2
  unfold decodeBundle
  rw [h1, h2]

/-! ### Example -/

/-- What the headers of the files say; `hash` is the state that they name. -/
def exampleChunkInfo (hash : Nat) : IvfInfo := { fourcc := [0x56, 0x50, 0x38, 0x30], width := 17, height := 20, frameRate := 24, timeScale := 1, expectedMinihash := hash }

/-- The memory of a new decoder. -/
def exampleFresh : References := ⟨blankRaster 17 20, blankRaster 17 20, blankRaster 17 20⟩

theorem exampleFresh_ok : (Decoder.new exampleFresh 17 20).Ok :=
  ⟨⟨by decide, by decide, fun _ h => (nomatch h), fun _ h => (nomatch h)⟩, ⟨blank_ok 17 20, blank_ok 17 20, blank_ok 17 20⟩⟩

theorem exampleChunkInfo_fits {hash : Nat} (h : hash < 2 ^ 32) : (exampleChunkInfo hash).Fits :=
  ⟨rfl, show 17 < 2 ^ 16 by decide, show 20 < 2 ^ 16 by decide, show 24 < 2 ^ 32 by decide, show 1 < 2 ^ 32 by decide, h⟩

theorem inFile_layout {info : IvfInfo} (hf : info.Fits) {frames : List (List UInt8)} (hn : frames.length < 2 ^ 32) (hl : ∀ f ∈ frames, f.length < 2 ^ 32) :
    Chunk.InFile (info, frames) (ivfBytes info frames) := by
  obtain ⟨ivf, h1, h2⟩ := C33_reads_layout info hf frames hn hl []
  exact ⟨ivf, by rwa [List.append_nil] at h1, h2⟩

/-- Two frames, of which the first is a key frame, with the pictures that the code makes of them. -/
theorem exampleChunks : ∃ (key inter : List UInt8) (d1 : Decoder) (x1 x2 : Raster), key.length < 2 ^ 32 ∧ inter.length < 2 ^ 32 ∧ SaysKey key ∧ d1.references.Converged ∧
    (Decoder.new exampleFresh 17 20).run codeRenderer [key] = (d1, [.ok (true, x1)]) ∧
    ((Decoder.new exampleFresh 17 20).run codeRenderer [key, inter, key]).2 = [(true, x1), (false, x2), (true, x1)].map .ok := by
  let e : Encoder := ⟨{ width := 17, height := 20 }, exampleFresh⟩
  obtain ⟨l1, l2⟩ := C68_lengths_fit (width := 17) (height := 20) (by decide)
  have hk : KeyEmittable e exampleKeyFrame2 := ⟨exampleKeyFrame2_ok, rfl, rfl, rfl, (l1 _ _ exampleKeyFrame2_ok rfl rfl).1,
    fun bs hbs b hb => (l1 _ _ exampleKeyFrame2_ok rfl rfl).2 bs hbs b (List.dropLast_subset _ hb)⟩
  obtain ⟨e1, b1, k1, k2, k3, k4, k5, -⟩ := key_step codeRenderer e exampleKeyFrame2 hk
  have hw1 : e1.state.width = 17 := by rw [k4]; exact (keyStart_dims _ _ _).1
  have hh1 : e1.state.height = 20 := by rw [k4]; exact (keyStart_dims _ _ _).2
  have hi : InterEmittable e1 exampleInterFrame2 := ⟨exampleInterFrame2_ok, hw1.symm, hh1.symm, rfl, (l2 _ _ exampleInterFrame2_ok rfl rfl).1,
    fun bs hbs b hb => (l2 _ _ exampleInterFrame2_ok rfl rfl).2 bs hbs b (List.dropLast_subset _ hb)⟩
  obtain ⟨e2, b2, new, i1, i2, i3, i4, i5, -⟩ := inter_step codeRenderer e1 exampleInterFrame2 hi k3
  have n1 : b1.length < 2 ^ 32 := by
    unfold Encoder.writeKey at k1
    obtain ⟨x, hx, h⟩ := Option.bind_eq_some_iff.mp k1
    cases h
    exact serialize_length keyKind_lawful exampleKeyFrame2_ok l1 hx
  have n2 : b2.length < 2 ^ 32 := by
    unfold Encoder.writeInter at i1
    obtain ⟨x, hx, h⟩ := Option.bind_eq_some_iff.mp i1
    cases h
    exact serialize_length interKind_lawful exampleInterFrame2_ok l2 hx
  have k2' : (Decoder.new exampleFresh 17 20).getFrameOutput codeRenderer b1 = (e1.exportDecoder, .ok (true, e1.references.last)) := k2
  have i2' : e1.exportDecoder.getFrameOutput codeRenderer b2 = (e2.exportDecoder, .ok (false, new)) := i2
  have hsays : SaysKey b1 := by
    obtain ⟨bytes, parts, g1, g2, g3, -⟩ := C09_key_frame_round_trip exampleKeyFrame2 exampleKeyFrame2_ok hk.first hk.tokens
    have htab : keyKind.tables (e.updateStateKey exampleKeyFrame2.header).tables exampleKeyFrame2.header = keyKind.tables {} exampleKeyFrame2.header := by
      unfold Encoder.updateStateKey
      by_cases hr : exampleKeyFrame2.header.refreshEntropyProbs = true
      · rw [if_pos hr]; exact keyTables_idem _ _
      · rw [if_neg hr]; rfl
    unfold Encoder.writeKey at k1
    obtain ⟨b', j1, j2⟩ := Option.bind_eq_some_iff.1 k1
    change keyKind.serialize (e.updateStateKey exampleKeyFrame2.header).tables exampleKeyFrame2 = some b' at j1
    rw [serialize_congr _ htab, g1] at j1
    cases j1
    cases j2
    exact splitFrame_key_head g2 g3
  obtain ⟨b, hb, hbk⟩ := id hsays
  have hdim : e2.exportDecoder.state.width = 17 ∧ e2.exportDecoder.state.height = 20 := by
    have h := C18_any_history codeRenderer C63_renderer [b1, b2] (Decoder.new exampleFresh 17 20) exampleFresh_ok
    simp only [Decoder.run, k2', i2'] at h
    exact h.2
  have hagain : (e2.exportDecoder.getFrameOutput codeRenderer b1).2 = .ok (true, e1.references.last) := by
    rw [(C14_key_frame_resets codeRenderer e2.exportDecoder (Decoder.new exampleFresh 17 20) hdim.1 hdim.2 b1 b hb hbk).1, k2']
  refine ⟨b1, b2, e1.exportDecoder, e1.references.last, new, n1, n2, hsays, ?_, ?_, ?_⟩
  · show e1.references.golden = e1.references.last ∧ e1.references.alternative = e1.references.last
    rw [k5]
    exact ⟨rfl, rfl⟩
  · simp only [Decoder.run, k2']
  · simp only [Decoder.run, k2', i2', hagain]
    rfl

/-- The key frame is in one file; the inter frame and the key frame again are in another, which names the state after the first file.  They are played, merged and
played, and played by two processes with a state file between them. -/
example (mix : Nat → Nat → Nat) : ∃ (file1 file2 merged state : List UInt8) (pictures : List Raster), pictures.length = 2 ∧
    let disk : List UInt8 → Except FrameError (List UInt8) := fun name => if name = [49] then .ok file1 else if name = [50] then .ok file2 else .error .invalid
    decodeBundle codeRenderer mix exampleFresh none disk [49, 10, 50, 10] = (projection 17 20 pictures, none) ∧
    xcMerge file1 file2 = .ok merged ∧ vp8decodeFile codeRenderer exampleFresh merged = (projection 17 20 pictures, none) ∧
    xcDump codeRenderer mix exampleFresh none file1 none = .ok state ∧
    decodeBundle codeRenderer mix exampleFresh none disk [49, 10] = (projection 17 20 (pictures.take 1), none) ∧
    decodeBundle codeRenderer mix exampleFresh (some (blankRaster 1 1, state)) disk [50, 10] = (projection 17 20 (pictures.drop 1), none) := by
  obtain ⟨key, inter, d1, x1, x2, l1, l2, hk, hconv, r1, r2⟩ := exampleChunks
  let c1 : Chunk := (exampleChunkInfo 0, [key])
  let c2 : Chunk := (exampleChunkInfo (d1.minihash mix), [inter, key])
  have hh : d1.minihash mix < 2 ^ 32 := Nat.mod_lt _ (by decide)
  have f1 : c1.InFile (ivfBytes c1.1 c1.2) := inFile_layout (exampleChunkInfo_fits (by decide)) (show 1 < 2 ^ 32 by decide) (List.forall_mem_cons.2 ⟨l1, fun _ h => nomatch h⟩)
  have f2 : c2.InFile (ivfBytes c2.1 c2.2) := inFile_layout (exampleChunkInfo_fits hh) (show 2 < 2 ^ 32 by decide)
    (List.forall_mem_cons.2 ⟨l2, List.forall_mem_cons.2 ⟨l1, fun _ h => nomatch h⟩⟩)
  have hfollow : FollowOn codeRenderer mix (Decoder.new exampleFresh 17 20) [c1, c2] := by
    intro before c after e
    match before, e with
    | [], e => cases e; exact .inl rfl
    | [a], e => cases e; exact .inr (by rw [show allFrames [c1] = [key] from rfl, r1]; rfl)
    | a :: b :: l, e => exact absurd (congrArg List.length e) (by simp)
  let disk : List UInt8 → Except FrameError (List UInt8) := fun name =>
    if name = [49] then .ok (ivfBytes c1.1 c1.2) else if name = [50] then .ok (ivfBytes c2.1 c2.2) else .error .invalid
  have hdisk : disk [49] = .ok (ivfBytes c1.1 c1.2) ∧ disk [50] = .ok (ivfBytes c2.1 c2.2) := ⟨rfl, rfl⟩
  have hb := C79_bundle (R := codeRenderer) mix (fresh := exampleFresh) (start := none) (disk := disk) (names := [[49], [50]]) (by decide)
    (.cons hdisk.1 (.cons hdisk.2 .nil)) (before := [c1, c2]) (after := []) (first := c1) rfl (.cons f1 (.cons f2 .nil)) exampleFresh_ok rfl hfollow (fun c h => nomatch h)
  have e12 : projected ([(true, x1), (false, x2), (true, x1)].map .ok) = ([x1, x1], none) := rfl
  have e2 : projected ([(false, x2), (true, x1)].map .ok) = ([x1], none) := rfl
  have e1 : projected [.ok (true, x1)] = ([x1], none) := rfl
  have w1 : (Decoder.new exampleFresh 17 20).state.width = 17 := rfl
  have w2 : (Decoder.new exampleFresh 17 20).state.height = 20 := rfl
  rw [show allFrames [c1, c2] = [key, inter, key] from rfl, r2, e12, w1, w2] at hb
  dsimp only at hb
  rw [if_pos (rfl : ([] : List Chunk) = [])] at hb
  obtain ⟨merged, m1, m2, m3⟩ := C79_as_merged C63_renderer mix (fresh := exampleFresh) (disk := disk) (name1 := [49]) (name2 := [50]) (by decide) hdisk f1 f2 ⟨rfl, rfl⟩
    exampleFresh_ok (show 1 + 2 < 2 ^ 32 by decide) hfollow (f := key) (fs := [inter, key]) rfl hk r2 rfl
  obtain ⟨state, err, s1, s2, s3, s4⟩ := C79_resume C63_renderer mix (fresh := exampleFresh) (start := none) (disk := disk) (name1 := [49]) (name2 := [50]) (by decide) hdisk
    f1 f2 ⟨rfl, rfl⟩ (show 0 < 1 ∧ 1 < 2 ^ 32 by decide) exampleFresh_ok rfl hfollow
    (by rw [show c1.2 = [key] from rfl, r1]; exact List.forall_mem_cons.2 ⟨⟨_, rfl⟩, fun _ h => nomatch h⟩) (by rw [show c1.2 = [key] from rfl, r1]; exact hconv)
  have q1 : (Decoder.run codeRenderer (Decoder.new exampleFresh 17 20) [key]).1 = d1 := by rw [r1]
  have q2 : (d1.run codeRenderer [inter, key]).2 = [(false, x2), (true, x1)].map .ok := by
    have := run_append codeRenderer [key] [inter, key] (Decoder.new exampleFresh 17 20)
    rw [q1] at this
    have := congrArg (fun z => z.2.tail) this
    rw [List.singleton_append] at this
    rw [r2, r1] at this
    exact this.symm
  rw [show c1.2 = [key] from rfl, show c2.2 = [inter, key] from rfl, q1, q2, e2] at s3
  rw [show c1.2 = [key] from rfl, r1, e1] at s2
  have herr : err = none := congrArg Prod.snd (s4.symm.trans hb)
  rw [herr] at s3
  have hm : (vp8decodeFile codeRenderer exampleFresh merged).1 = projection 17 20 [x1, x1] := congrArg Prod.fst (m2.symm.trans hb)
  exact ⟨_, _, merged, state, [x1, x1], rfl, hb, m1, Prod.ext hm m3, s1, s2, s3 exampleFresh (blankRaster 1 1)⟩

/-- A second file that names another state: the first is shown, and the second refused. -/
example (mix : Nat → Nat → Nat) : ∃ (file1 file2 : List UInt8) (x : Raster),
    decodeBundle codeRenderer mix exampleFresh none (fun name => if name = [49] then .ok file1 else .ok file2) [49, 10, 50, 10] = (projection 17 20 [x], some .mismatch) := by
  obtain ⟨key, inter, d1, x1, x2, l1, l2, hk, hconv, r1, r2⟩ := exampleChunks
  let hash := if d1.minihash mix = 1 then 2 else 1
  have hne : ¬ (hash = 0 ∨ hash = d1.minihash mix) := by
    show ¬ ((if d1.minihash mix = 1 then 2 else 1) = 0 ∨ (if d1.minihash mix = 1 then 2 else 1) = d1.minihash mix)
    split <;> omega
  have hh : hash < 2 ^ 32 := by
    show (if d1.minihash mix = 1 then 2 else 1) < 2 ^ 32
    split <;> decide
  let c1 : Chunk := (exampleChunkInfo 0, [key])
  let c2 : Chunk := (exampleChunkInfo hash, [inter])
  have f1 : c1.InFile (ivfBytes c1.1 c1.2) := inFile_layout (exampleChunkInfo_fits (by decide)) (show 1 < 2 ^ 32 by decide) (List.forall_mem_cons.2 ⟨l1, fun _ h => nomatch h⟩)
  have f2 : c2.InFile (ivfBytes c2.1 c2.2) := inFile_layout (exampleChunkInfo_fits hh) (show 1 < 2 ^ 32 by decide) (List.forall_mem_cons.2 ⟨l2, fun _ h => nomatch h⟩)
  have all : allFrames [c1] = [key] := rfl
  have hb := C79_bundle (R := codeRenderer) mix (fresh := exampleFresh) (start := none)
    (disk := fun name => if name = [49] then .ok (ivfBytes c1.1 c1.2) else .ok (ivfBytes c2.1 c2.2)) (names := [[49], [50]])
    (files := [ivfBytes c1.1 c1.2, ivfBytes c2.1 c2.2]) (by decide)
    (.cons rfl (.cons rfl .nil)) (before := [c1]) (after := [c2]) (first := c1) rfl (.cons f1 (.cons f2 .nil)) exampleFresh_ok rfl
    (fun before c after e => by
      match before, e with
      | [], e => cases e; exact .inl rfl
      | a :: l, e => exact absurd (congrArg List.length e) (by simp))
    (fun c h => by cases h; rw [all, r1]; exact hne)
  have e1 : projected [.ok (true, x1)] = ([x1], none) := rfl
  have w1 : (Decoder.new exampleFresh 17 20).state.width = 17 := rfl
  have w2 : (Decoder.new exampleFresh 17 20).state.height = 20 := rfl
  rw [all, r1, e1, w1, w2] at hb
  dsimp only at hb
  rw [if_neg (List.cons_ne_nil _ _)] at hb
  exact ⟨_, _, x1, hb⟩

end Alfalfa
