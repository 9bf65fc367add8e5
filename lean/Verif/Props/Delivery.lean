import Verif.Proof.Delivery

/-! C72 (continued): a frame whose packets all arrive is shown. -/

namespace Alfalfa

section
variable {hash : Decoder → Nat} {width height : Nat} {base : Session} {d : Decoder} {mode : OperationMode} {start : Int} {b : Broadcast}

/-- **C72** (delivery): when packets of the next frame arrive, in any order and each as often as it likes, the receiver goes on, as long as no accident with
hashes happened; once all of them came, and the receiver has the state that the frame was coded against or the frame was made by the first encoder, the
viewer sees exactly the picture that the sender's encoder judged the frame by.  The decoder is then equal to the sender's record of it, and the sender is
told so. -/
theorem C72_delivered_frame_shown (hs : Broadcast.Starts hash width height base d) (hmb : macroblockCount width height ≤ 14300)
    (h : Broadcast.Reaches hash width height mode base d start b)
    (hn : System.NoAccident (codecPlaying hash) (hash base.decoder) b.sys.sent b.sys.receiver.handed) (hc : b.NoCollision hash d)
    {k : Nat} {f : FragmentedFrame} {m : Made} (hf : b.sys.sent[k]? = some f) (hm : b.made[k]? = some m) (hk : b.sys.receiver.nextFrameNo = k)
    {ws : List (List UInt8 × Nat)} (hw : ∀ w ∈ ws, ∃ p ∈ f.fragments, p.toBytes = some w.1)
    (hall : ∀ p ∈ f.fragments, ∃ w ∈ ws, p.toBytes = some w.1)
    (hsrc : m.before = base ∨ b.sys.receiver.decoders f.sourceState ≠ none) :
    ∃ r x, b.sys.receiver.run (codecPlaying hash) ws = some r ∧ r.nextFrameNo = k + 1 ∧ r.handed.getLast? = some (k, x, m.bytes) ∧
      x.getFrameOutputWith codeRenderer true m.bytes = (m.after.decoder, .ok (true, m.shown)) ∧ r.player = m.after.decoder ∧
      (hash m.after.decoder ≠ hash d → hash m.after.decoder ∈ r.completeStates ∧ r.decoders (hash m.after.decoder) ≠ none) := by
  have hi := h.binv hs
  obtain ⟨a1, a2, a3⟩ := aligned_get hi.aligned hf hm
  have hlen : b.sys.sent.length < 2 ^ 32 := by
    cases h with
    | start => exact (by decide : 0 < 2 ^ 32)
    | step _ _ hl => exact hl
  obtain ⟨r, hr⟩ := run_total (codecPlaying hash) (k := k) (f := f) (ws := ws) (r := b.sys.receiver)
    (I := fun r => ∃ b', Broadcast.Reaches hash width height mode base d start b' ∧ b'.sys.receiver = r ∧ b'.sys.sent = b.sys.sent ∧
      r.handed = b.sys.receiver.handed) hi.frames hf (fun r ⟨b', h1, h2, h3, h4⟩ => by
        have := h1.binv hs
        rw [← h2, ← h3]; exact ⟨this.genuine, this.packets⟩) (fun r ⟨b', h1, h2, h3, h4⟩ hrk p hp wire hpw avg => by
        subst h2
        obtain ⟨-, -, -, -, total⟩ := C60_codec_neither_side_ends_partial hs hmb h1 (by rw [h3, h4]; exact hn)
        obtain ⟨wire', e1, e2⟩ := total f (by rw [h3]; exact List.mem_of_getElem? hf) p hp
        rw [hpw] at e1
        cases e1
        refine e2 avg fun r hr => ?_
        have hnum : f.frameNo = k := by
          have has := (hi.frames k f hf).1
          have hbi := h1.binv hs
          have := hbi.counts.numbers k f (by rw [h3]; exact hf)
          exact this
        unfold Receiver.skipTo at hr
        rw [if_neg (by omega)] at hr
        cases hr
        rw [h3, h4]; exact hn) (fun r ⟨b', h1, h2, h3, h4⟩ hrk p hp wire hpw avg r' ack he hh => by
        subst h2
        exact ⟨_, .step h1 (.data f (by rw [h3]; exact List.mem_of_getElem? hf) p hp wire hpw avg r' ack he) (by rw [← h3] at hlen; exact hlen), rfl, h3,
          hh.trans h4⟩)
    (.inl ⟨⟨b, h, rfl, rfl, rfl⟩, hk⟩) hw
  rcases run_collects (codecPlaying hash) hi.frames hf h.receiver hi.genuine hi.packets hw hk.le hr with
    ⟨x, z, c1, c2, c3, c4, c5, c6, c7, c8⟩ | ⟨-, -, c3⟩
  · have held := reaches_held _ h.receiver
    have hx := c8 hk
    have hhad : b.sys.receiver.Had (codecPlaying hash) d x ∧ (codecPlaying hash).Occurs d x := by
      rcases hx with rfl | hx
      · exact held.player
      · exact held.decoders _ _ hx
    obtain ⟨-, o1, o2⟩ := occurs_dims hs.decoder hhad.2
    rw [a1] at c3 c4
    have hshow := shows hs hi (o1.trans hs.wide) (o2.trans hs.high) (List.mem_of_getElem? hm) fun hst => by
      refine ⟨?_, fun m' hm' he => hc x hhad.1 m' hm' he⟩
      rcases hsrc with e | e
      · rw [e, hs.ready.2] at hst; exact nomatch hst
      · exact (c6 e).trans a2
    have hz : z = m.after.decoder := by
      change (match x.getFrameOutputWith codeRenderer true m.bytes with | (d', .ok _) => some d' | (_, .error _) => none) = some z at c4
      rw [hshow] at c4
      exact (Option.some.inj c4).symm
    refine ⟨r, x, hr, c1, c3, hshow, c5.trans hz, fun hne => ?_⟩
    rw [← a3]
    exact c7 (by rw [hz]; exact a3.symm) (by rw [a3]; exact hne)
  · exfalso
    have has := (hi.frames k f hf).1
    have hne : f.fragments ≠ [] := by
      intro he
      refine (hi.frames k f hf).2 ?_
      show (f.fragments.map (·.payload)).flatten = []
      rw [he]; rfl
    obtain ⟨p, hp⟩ := List.exists_mem_of_ne_nil _ hne
    obtain ⟨w, hw1, hw2⟩ := hall p hp
    obtain ⟨g, g1, g2, g3, -⟩ := c3 w hw1 p hp hw2
    rw [all_complete g3] at g2
    · exact nomatch g2
    · intro j hj
      have hj : j < f.fragments.length := hj
      have hj' : f.fragments[j]? = some f.fragments[j] := List.getElem?_eq_getElem hj
      obtain ⟨w, hw1, hw2⟩ := hall _ (List.getElem_mem hj)
      obtain ⟨g', g1', -, -, g4⟩ := c3 w hw1 _ (List.getElem_mem hj) hw2
      rw [g1] at g1'
      cases g1'
      rw [has.cut.number j _ hj'] at g4
      exact g4

end

/-! ### Example -/

/-- A new encoder of pictures of 40 by 30 pixels with references that differ. -/
def exampleBase : Session :=
  { encoder := ⟨{ width := 40, height := 30 }, ⟨grayRaster 40 30 9, grayRaster 40 30 8, grayRaster 40 30 7⟩⟩, hasState := false
    keyHeader := emptyKeyHeader, interHeader := emptyInterHeader, realtime := true, lastQi := none }

theorem grayRaster_ne : grayRaster 40 30 9 ≠ grayRaster 40 30 8 := by
  intro h
  have := congrArg (fun r : Raster => r.y.cells.head?) h
  exact absurd this (by decide +kernel)

theorem exampleBase_ok : exampleBase.decoder.Ok :=
  ⟨⟨by decide, by decide, fun _ h => (nomatch h), fun _ h => (nomatch h)⟩, ⟨grayRaster_ok .., grayRaster_ok .., grayRaster_ok ..⟩⟩

/-- A frame is made, sent and on its way: this meets the hypotheses of the theorems of C72. -/
theorem exampleBroadcast : ∃ (hash : Decoder → Nat) (b : Broadcast) (f : FragmentedFrame) (m : Made) (ws : List (List UInt8 × Nat)),
    Broadcast.Starts hash 40 30 exampleBase exampleBase.decoder ∧
    Broadcast.Reaches hash 40 30 .conventional exampleBase exampleBase.decoder 0 b ∧
    System.NoAccident (codecPlaying hash) (hash exampleBase.decoder) b.sys.sent b.sys.receiver.handed ∧ b.NoCollision hash exampleBase.decoder ∧
    b.sys.sent = [f] ∧ b.made = [m] ∧ m.before = exampleBase ∧ m.original = grayRaster 40 30 77 ∧ b.sys.receiver.nextFrameNo = 0 ∧
    (∀ w ∈ ws, ∃ p ∈ f.fragments, p.toBytes = some w.1) ∧ (∀ p ∈ f.fragments, ∃ w ∈ ws, p.toBytes = some w.1) ∧
    hash m.after.decoder ≠ hash exampleBase.decoder := by
  have hfits : Fits 40 30 := ⟨by decide, by decide, by decide⟩
  have hw := exampleOnePass_work
  have hready : exampleBase.Ready 40 30 := ⟨rfl, rfl, emptyKeyHeader_reusable, emptyInterHeader_reusable, fun q h => nomatch h⟩
  obtain ⟨s', bytes, shown, q1, q2, q3, q4, q5, q6⟩ := firstCall (⟨0, fun _ _ => 0⟩ : Meter Int) hfits hready rfl
    (c := .quantizer (grayRaster 40 30 77) 30 ⟨{ exampleKeyChoices with second := none }, exampleInterChoices, grayRaster 40 30 0⟩) ⟨grayRaster_ok .., by decide, hw⟩
  obtain ⟨m, hm⟩ : ∃ m : Made, m = ⟨grayRaster 40 30 77, 30, exampleBase, s', bytes, shown⟩ := ⟨_, rfl⟩
  have hne : exampleBase.decoder ≠ s'.decoder := by
    intro h
    have h : exampleBase.encoder.references = s'.encoder.references := congrArg Decoder.references h
    rw [q5] at h
    have h1 : grayRaster 40 30 9 = shown := congrArg References.last h
    have h2 : grayRaster 40 30 8 = shown := congrArg References.golden h
    exact grayRaster_ne (h1.trans h2.symm)
  classical
  obtain ⟨hash, hh⟩ : ∃ hash : Decoder → Nat, hash = fun x => if x = s'.decoder then 1 else 0 := ⟨_, rfl⟩
  have hash1 : hash s'.decoder = 1 := by rw [hh]; exact if_pos rfl
  have hash0 : hash exampleBase.decoder = 0 := by rw [hh]; exact if_neg hne
  have hashInj : ∀ x, hash x = 1 → x = s'.decoder := by
    intro x hx
    rw [hh] at hx
    by_contra hn
    exact absurd (hx.symm.trans (if_neg hn)) (by decide)
  have hs : Broadcast.Starts hash 40 30 exampleBase exampleBase.decoder :=
    ⟨hfits, fun x => by rw [hh]; dsimp only; split <;> decide, ⟨true, ⟨grayRaster 40 30 9, grayRaster 40 30 8, grayRaster 40 30 7⟩, rfl⟩,
      exampleBase_ok, rfl, rfl, rfl⟩
  -- the encode is started
  obtain ⟨b0, hb0⟩ : ∃ b0 : Broadcast,
      b0 = ⟨System.start (fun s => hash s.decoder) (codecPlaying hash) .conventional exampleBase exampleBase.decoder 0, []⟩ := ⟨_, rfl⟩
  have r0 : Broadcast.Reaches hash 40 30 .conventional exampleBase exampleBase.decoder 0 b0 := by rw [hb0]; exact .start
  have hstart : b0.sys.sender.startEncode 0 30 false =
      some { b0.sys.sender with jobs := [⟨.frame, exampleBase, 30⟩] } := by
    rw [hb0]
    show Option.bind (if hash exampleBase.decoder = hash exampleBase.decoder then some exampleBase else none) _ = _
    rw [if_pos rfl]
    rfl
  obtain ⟨b1, hb1⟩ : ∃ b1 : Broadcast, b1 = { b0 with sys := { b0.sys with sender := { b0.sys.sender with jobs := [⟨.frame, exampleBase, 30⟩] } } } := ⟨_, rfl⟩
  have r1 : Broadcast.Reaches hash 40 30 .conventional exampleBase exampleBase.decoder 0 b1 := by
    rw [hb1]
    exact .step r0 (.startEncode 0 30 (by decide) false _ hstart) (by rw [hb0]; exact (by decide : 0 < 2 ^ 32))
  have hjobs : b1.sys.sender.jobs = [⟨.frame, exampleBase, 30⟩] := by rw [hb1]
  have hsent1 : b1.sys.sent = [] := by rw [hb1, hb0]; rfl
  have hhand1 : b1.sys.receiver.handed = [] := by rw [hb1, hb0]; rfl
  have hmk : List.Forall₂ (fun job m => EncodeJob.Makes 40 30 (grayRaster 40 30 77) job m) b1.sys.sender.jobs [m] := by
    rw [hjobs, hm]
    exact .cons ⟨rfl, rfl, rfl, _, hw, rfl, q1⟩ .nil
  have hacc1 : System.NoAccident (codecPlaying hash) (hash exampleBase.decoder) b1.sys.sent b1.sys.receiver.handed := by
    rw [hsent1, hhand1]
    exact ⟨by simp, fun _ _ _ _ h => nomatch h⟩
  obtain ⟨-, -, hend, -⟩ := C60_codec_neither_side_ends_partial hs (by decide) r1 hacc1
  obtain ⟨⟨s2, ff⟩, hend⟩ := hend (grayRaster 40 30 77) (grayRaster_ok ..) [m] hmk (by rw [hjobs]; exact fun h => nomatch h) (by show 1 < MAX64; decide) 0
  obtain ⟨f, rfl⟩ : ∃ f, ff = some f := by
    obtain ⟨size, choice, -, c1, ⟨c2, -⟩ | ⟨best, o, f, count, c2, -, -, -, c3, -⟩⟩ := endEncode_spec _ hend
    · have hmode : b1.sys.sender.mode = .conventional := by rw [hb1, hb0]; rfl
      rw [hmode, c2] at c1
      exact nomatch c1
    · exact ⟨f, c3⟩
  obtain ⟨job, hjob, m', hch, hsa, -⟩ := endEncode_sentAs hmk hend
  have hm' : m' = m := by
    unfold Sender.chosen at hch
    obtain ⟨size, -, hch⟩ := Option.bind_eq_some_iff.1 hch
    obtain ⟨choice, -, hch⟩ := Option.bind_eq_some_iff.1 hch
    obtain ⟨i, -, hch⟩ := Option.bind_eq_some_iff.1 hch
    exact List.mem_singleton.1 (List.mem_of_getElem? hch)
  subst hm'
  have r2 := Broadcast.Reaches.step r1 (.endEncode (grayRaster 40 30 77) (grayRaster_ok ..) [m'] hmk 0 (by decide) s2 (some f) hend) (by
    show (b1.sys.sent ++ _).length < _
    rw [hsent1]; exact (by decide : 1 < 2 ^ 32))
  have hi2 := r2.binv hs
  have hsent : b1.sys.sent ++ (some f).toList = [f] := by rw [hsent1]; rfl
  have hmade : b1.made ++ (b1.sys.sender.chosen hash [m']).toList = [m'] := by rw [hch, hb1, hb0]; rfl
  have htarget : f.targetState = 1 := by rw [hsa.target, hm]; exact hash1
  refine ⟨hash, _, f, m', f.fragments.flatMap fun p => (p.toBytes.map fun w => (w, 0)).toList, hs, r2, ?_, ?_, hsent, hmade, by rw [hm], by rw [hm], ?_,
    fun w hw => ?_, fun p hp => ?_, ?_⟩
  · show System.NoAccident _ _ (b1.sys.sent ++ (some f).toList) b1.sys.receiver.handed
    rw [hsent, hhand1, hash0]
    exact ⟨by simp [htarget], fun _ _ _ _ h => nomatch h⟩
  · intro x hx y hy he
    change y ∈ b1.made ++ (b1.sys.sender.chosen hash [m']).toList at hy
    rw [hmade, List.mem_singleton] at hy
    subst hy
    have e1 : y.after.decoder = s'.decoder := by rw [hm]
    rw [e1] at he ⊢
    exact hashInj x (he.trans hash1)
  · show b1.sys.receiver.nextFrameNo = 0
    rw [hb1, hb0]; rfl
  · obtain ⟨p, hp, hpw⟩ := List.mem_flatMap.1 hw
    refine ⟨p, hp, ?_⟩
    rw [Option.mem_toList] at hpw
    obtain ⟨w', h1, rfl⟩ := Option.map_eq_some_iff.1 hpw
    exact h1
  · have has := (hi2.frames 0 f (by show (b1.sys.sent ++ (some f).toList)[0]? = _; rw [hsent]; rfl)).1
    obtain ⟨wire, h1, -⟩ := C20_packet_round_trip p (has.cut.fragment has.connection has.source has.target has.number has.time has.count p hp)
    exact ⟨(wire, 0), List.mem_flatMap.2 ⟨p, hp, by rw [h1]; exact List.mem_singleton.2 rfl⟩, h1⟩
  · rw [hash0, hm, hash1]; decide

example : ∃ (hash : Decoder → Nat) (b : Broadcast) (m : Made) (ws : List (List UInt8 × Nat)) (r : Receiver Decoder) (x : Decoder),
    Broadcast.Reaches hash 40 30 .conventional exampleBase exampleBase.decoder 0 b ∧ b.made = [m] ∧ m.original = grayRaster 40 30 77 ∧
    b.sys.receiver.run (codecPlaying hash) ws = some r ∧ r.handed.getLast? = some (0, x, m.bytes) ∧
    x.getFrameOutputWith codeRenderer true m.bytes = (m.after.decoder, .ok (true, m.shown)) ∧ hash m.after.decoder ∈ r.completeStates := by
  obtain ⟨hash, b, f, m, ws, h1, h2, h3, h4, h5, h6, h7, h8, h9, h10, h11, h12⟩ := exampleBroadcast
  obtain ⟨r, x, k1, -, k2, k3, -, k4⟩ := C72_delivered_frame_shown h1 (by decide) h2 h3 h4 (k := 0) (f := f) (m := m) (by rw [h5]; rfl) (by rw [h6]; rfl) h9 h10 h11
    (.inl h7)
  exact ⟨hash, b, m, ws, r, x, h2, h6, h8, k1, k2, k3, (k4 h12).1⟩

end Alfalfa
