import Verif.Proof.Broadcast

/-! C72: what the viewer sees is what the sender's encoder made, over a network that loses, repeats and reorders packets, with the encoder and the decoder
of this program at the two ends. -/

namespace Alfalfa

theorem Broadcast.Starts.ready {hash : Decoder → Nat} {width height : Nat} {base : Session} {d : Decoder} (h : Broadcast.Starts hash width height base d) :
    base.Ready width height ∧ base.hasState = false := by
  obtain ⟨realtime, references, hc⟩ := h.created
  unfold Session.create at hc
  split at hc
  · exact nomatch hc
  · cases hc
    exact ⟨⟨rfl, rfl, emptyKeyHeader_reusable, emptyInterHeader_reusable, fun q h => nomatch h⟩, rfl⟩

section
variable {hash : Decoder → Nat} {width height : Nat} {base : Session} {d : Decoder} {mode : OperationMode} {start : Int} {b : Broadcast}

theorem Broadcast.Reaches.binv (hs : Broadcast.Starts hash width height base d) (h : Broadcast.Reaches hash width height mode base d start b) :
    BInv hash width height base b := h.inv hs.hash32 hs.fits hs.ready.1 hs.ready.2

theorem aligned_get {α β : Type} {R : α → β → Prop} {l : List α} {l' : List β} (h : List.Forall₂ R l l') {k : Nat} {a : α} {c : β}
    (ha : l[k]? = some a) (hb : l'[k]? = some c) : R a c := by
  obtain ⟨i1, i2⟩ := List.getElem?_eq_some_iff.1 ha
  obtain ⟨j1, j2⟩ := List.getElem?_eq_some_iff.1 hb
  rw [← i2, ← j2]
  exact List.Forall₂.get h i1 j1

/-- **C72** (what is sent): each frame that was sent carries the bytes that an encoder made, and names the states of the encoder's decoder before and
after; that encoder was the first one, or the one after another frame that was sent. -/
theorem C72_what_is_sent (hs : Broadcast.Starts hash width height base d) (h : Broadcast.Reaches hash width height mode base d start b) :
    b.made.length = b.sys.sent.length ∧ ∀ (k : Nat) f m, b.sys.sent[k]? = some f → b.made[k]? = some m →
      (f.fragments.map (·.payload)).flatten = m.bytes ∧ f.sourceState = hash m.before.decoder ∧ f.targetState = hash m.after.decoder ∧
      (m.before = base ∨ ∃ m' ∈ b.made, m.before = m'.after) := by
  have hi := h.binv hs
  refine ⟨hi.aligned.length_eq.symm, fun k f m hf hm => ?_⟩
  obtain ⟨h1, h2, h3⟩ := aligned_get hi.aligned hf hm
  exact ⟨h1, h2, h3, (hi.made m (List.mem_of_getElem? hm)).2⟩

theorem shown_eq {x y : Decoder} {bytes : List UInt8} {shown : Raster} (h : x.getFrameOutput codeRenderer bytes = (y, .ok (true, shown))) :
    x.getFrameOutputWith codeRenderer true bytes = (y, .ok (true, shown)) := by
  rw [C71_whole_frames, h]
  rw [h]
  exact fun h => nomatch h

/-- The same for any decoder that occurs and any frame that was made. -/
theorem shows (hs : Broadcast.Starts hash width height base d) (hi : BInv hash width height base b) {x : Decoder} (hw : x.state.width = width)
    (hh : x.state.height = height) {m : Made} (hm : m ∈ b.made)
    (hx : m.before.hasState = true → hash x = hash m.before.decoder ∧ ∀ m' ∈ b.made, hash x = hash m'.after.decoder → x = m'.after.decoder) :
    x.getFrameOutputWith codeRenderer true m.bytes = (m.after.decoder, .ok (true, m.shown)) := by
  obtain ⟨r, hk⟩ := hi.made m hm
  by_cases hn : m.before.hasState = true
  · obtain ⟨h1, h2⟩ := hx hn
    rcases hk with hk | ⟨m', hm', hk⟩
    · rw [hk, hs.ready.2] at hn; exact nomatch hn
    · rw [h2 m' hm' (by rw [h1, hk]), ← hk]
      exact shown_eq (r.later hn)
  · exact shown_eq (r.first (by simpa using hn) x hw hh)

/-- **C72** (what is shown): each time the receiver gives its decoder the whole of a frame, and the decoder has the hash that the frame names as its
source, the decoder shows exactly the picture that the sender's encoder judged the frame by, whatever was lost, repeated or reordered before, and is
then equal to the encoder's record of it. -/
theorem C72_complete_frame_shown (hs : Broadcast.Starts hash width height base d) (h : Broadcast.Reaches hash width height mode base d start b)
    (hc : b.NoCollision hash d) {k : Nat} {x : Decoder} {f : FragmentedFrame} {m : Made}
    (hk : (k, x, (f.fragments.map (·.payload)).flatten) ∈ b.sys.receiver.handed) (hf : b.sys.sent[k]? = some f) (hm : b.made[k]? = some m)
    (hx : hash x = f.sourceState) :
    x.getFrameOutputWith codeRenderer true (f.fragments.map (·.payload)).flatten = (m.after.decoder, .ok (true, m.shown)) := by
  have hi := h.binv hs
  have hh := (reaches_held _ h.receiver).handed _ hk
  obtain ⟨-, o1, o2⟩ := occurs_dims hs.decoder hh.2
  obtain ⟨h1, h2, h3⟩ := aligned_get hi.aligned hf hm
  rw [h1]
  exact shows hs hi (o1.trans hs.wide) (o2.trans hs.high) (List.mem_of_getElem? hm) fun _ => ⟨hx.trans h2, fun m' hm' he => hc x hh.1 m' hm' he⟩

/-- **C72** (frames of the first encoder): these are shown in the same way by every decoder, whatever its state. -/
theorem C72_first_frames_shown (hs : Broadcast.Starts hash width height base d) (h : Broadcast.Reaches hash width height mode base d start b)
    {k : Nat} {x : Decoder} {f : FragmentedFrame} {m : Made} (hk : (k, x, (f.fragments.map (·.payload)).flatten) ∈ b.sys.receiver.handed)
    (hf : b.sys.sent[k]? = some f) (hm : b.made[k]? = some m) (hb : m.before = base) :
    x.getFrameOutputWith codeRenderer true (f.fragments.map (·.payload)).flatten = (m.after.decoder, .ok (true, m.shown)) := by
  have hi := h.binv hs
  obtain ⟨-, o1, o2⟩ := occurs_dims hs.decoder ((reaches_held _ h.receiver).handed _ hk).2
  rw [(aligned_get hi.aligned hf hm).bytes]
  refine shows hs hi (o1.trans hs.wide) (o2.trans hs.high) (List.mem_of_getElem? hm) fun hn => ?_
  rw [hb, hs.ready.2] at hn; exact nomatch hn

/-! ### The states that the receiver keeps -/

theorem receive_initial {D : Type} (P : Playing D) {r r' : Receiver D} {wire : List UInt8} {avg : Nat} {ack : Option AckPacket} (hr : r.Ok P)
    (h : r.receive P wire avg = some (r', ack)) : r'.decoders r.initialState = r.decoders r.initialState := by
  obtain ⟨p, hp, ⟨_, rfl, _⟩ | ⟨hle, ra, rb, ha, hb, hc, _⟩⟩ := receive_spec P h
  · rfl
  obtain ⟨-, i1, c1, d1, -⟩ := skipTo_spec P hle ha
  obtain ⟨g, rfl, -⟩ := addPacket_spec hb
  obtain rfl | ⟨f', frame, r1, r2, q1, -, -, q2, q3, rfl⟩ := finishFrame_spec P hc
  · show ra.decoders _ = _
    rw [d1]
  have k1 : r1.decoders r.initialState = r.decoders r.initialState ∧ r1.initialState = r.initialState := by
    obtain ⟨y, c, e, -⟩ := loadSource_spec ({ ra with fragmentedFrames := g } : Receiver D) f'.sourceState
    rw [e] at q2
    obtain ⟨cs, ds, rfl, ⟨_, rfl, _⟩ | ⟨_, hne, hp⟩⟩ := prune_spec q2
    · exact ⟨by show ra.decoders _ = _; rw [d1], i1⟩
    · obtain ⟨pre, _, _, hsplit, _, hm⟩ := pruneStates_spec _ _ _ _ _ hp
      refine ⟨?_, i1⟩
      show ds _ = _
      rw [hm, if_neg, show ({ ra with fragmentedFrames := g, player := y, currentState := c } : Receiver D).decoders = ra.decoders from rfl, d1]
      intro hin
      have : r.initialState ∈ ra.completeStates := by
        have : ra.completeStates = _ := hsplit
        rw [this]; exact List.mem_append_left _ hin
      rw [c1] at this
      exact hr.notInitial this
  have k2 : r2.decoders = r1.decoders ∧ r2.initialState = r1.initialState := by
    obtain ⟨_, rfl⟩ | ⟨_, y, hy, rfl⟩ := enqueueFrame_eq P q3 <;> exact ⟨rfl, rfl⟩
  show (r2.saveState P f'.targetState).decoders _ = _
  unfold Receiver.saveState
  dsimp only
  split
  · next hcur =>
    show (if r.initialState = P.minihash r2.player then _ else r2.decoders r.initialState) = _
    rw [if_neg, k2.1, k1.1]
    intro he
    exact hcur.2 (by rw [← he, k2.2, k1.2])
  · show r2.decoders _ = _
    rw [k2.1, k1.1]

theorem reaches_initial {D : Type} (P : Playing D) {d : D} {r : Receiver D} (h : Receiver.Reaches P d r) : r.decoders (P.minihash d) = some d := by
  induction h with
  | start => exact if_pos rfl
  | step h hs ih =>
    obtain ⟨h1, h2⟩ := reaches_ok P h
    rw [← h2] at ih ⊢
    rw [receive_initial P h1 hs, ih]

/-- **C72** (what the receiver keeps): each decoder that the receiver keeps is the first one or equal to the sender's record after one of the frames it
sent, under the hash that the frame gave. -/
theorem C72_kept_states (hs : Broadcast.Starts hash width height base d) (h : Broadcast.Reaches hash width height mode base d start b)
    (hc : b.NoCollision hash d) {s : Nat} {x : Decoder} (hx : b.sys.receiver.decoders s = some x) :
    (s = hash d ∧ x = d) ∨ ∃ (k : Nat) (f : FragmentedFrame) (m : Made), b.sys.sent[k]? = some f ∧ b.made[k]? = some m ∧ f.targetState = s ∧ x = m.after.decoder := by
  have hi := h.binv hs
  obtain ⟨hok, hin⟩ := reaches_ok _ h.receiver
  rcases hi.kept s x hx with h1 | ⟨f, hf, h1⟩
  · left
    have h1 : s = (codecPlaying hash).minihash d := h1.trans hin
    refine ⟨h1, ?_⟩
    rw [h1, reaches_initial _ h.receiver] at hx
    exact (Option.some.inj hx).symm
  · right
    obtain ⟨k, hk⟩ := List.mem_iff_getElem?.1 hf
    obtain ⟨i1, i2⟩ := List.getElem?_eq_some_iff.1 hk
    have hl := hi.aligned.length_eq
    have hm : b.made[k]? = some b.made[k] := List.getElem?_eq_getElem (by omega)
    refine ⟨k, f, _, hk, hm, h1, hc x ((reaches_held _ h.receiver).decoders s x hx).1 _ (List.mem_of_getElem? hm) ?_⟩
    rw [← (aligned_get hi.aligned hk hm).target, h1]
    exact hok.known s x hx

/-! ### A frame that is complete -/

theorem receive_finishes {D : Type} (P : Playing D) {sent : List FragmentedFrame}
    (hsent : ∀ (k : Nat) (f : FragmentedFrame), sent[k]? = some f → (sentFrame f).As 1337 k ∧ (sentFrame f).whole ≠ [])
    {r r' : Receiver D} {wire : List UInt8} {avg : Nat} {ack : Option AckPacket} (hw : GenuineWire (sentAt sent) wire) (hg : r.Genuine (sentAt sent))
    (hne : ∀ k f, r.fragmentedFrames k = some f → (sentAt sent k).packets ≠ []) (hr : r.Ok P) {k : Nat} {f : FragmentedFrame} (hf : sent[k]? = some f)
    {p : Packet} (hparse : Packet.parse wire = .ok p) (hpk : p.frameNo = k) (hle : r.nextFrameNo ≤ k) (h : r.receive P wire avg = some (r', ack))
    (hfin : r'.nextFrameNo = k + 1) :
    ∃ x z, r'.handed.getLast? = some (k, x, (f.fragments.map (·.payload)).flatten) ∧ P.decode x (f.fragments.map (·.payload)).flatten = some z ∧
      r'.player = z ∧ (r.decoders f.sourceState ≠ none → P.minihash x = f.sourceState) ∧
      (P.minihash z = f.targetState → f.targetState ≠ r.initialState → f.targetState ∈ r'.completeStates ∧ r'.decoders f.targetState ≠ none) ∧
      (r.nextFrameNo = k → x = r.player ∨ r.decoders f.sourceState = some x) := by
  subst hpk
  have has := sentAt_as hsent
  obtain ⟨p', hp, ⟨hlt, _, _⟩ | ⟨-, ra, rb, ha, hb, hc, _⟩⟩ := receive_spec P h
  · rw [hparse] at hp; cases hp; omega
  rw [hparse] at hp; cases hp
  have hpin := hw p hparse
  obtain ⟨ga, sa⟩ := skipTo_genuine P has hg hne hle ha
  obtain ⟨g, f0, e, hgf, hgo, gb⟩ := addPacket_genuine ga (has _ (mem_ne_nil hpin)) hpin
  rw [e] at hb
  have hb := Option.some.inj hb
  subst hb
  obtain ⟨n1, i1, -, d1, c1, -⟩ := skipTo_spec P hle ha
  obtain rfl | ⟨f', frame, r1, r2, q1, qc, qf, q2, q3, rfl⟩ := finishFrame_spec P hc
  · have : ra.nextFrameNo = p.frameNo + 1 := hfin
    omega
  have q1 : g p.frameNo = some f' := by rw [← n1]; exact q1
  have hfrom := gb.frames _ _ q1
  have hat : sentAt sent p.frameNo = sentFrame f := sentAt_some hf
  rw [hat] at hfrom
  have hframe := hfrom.frame (hsent _ f hf).1 qc
  rw [hframe] at qf
  injection qf with qf
  have hwhole : (sentFrame f).whole = (f.fragments.map (·.payload)).flatten := rfl
  rw [← qf] at q3
  obtain ⟨x, c, el, hl⟩ := loadSource_spec ({ ra with fragmentedFrames := g } : Receiver D) f'.sourceState
  rw [el] at q2
  obtain ⟨cs, ds, rfl, hpr⟩ := prune_spec q2
  obtain ⟨he, -⟩ | ⟨-, z, hz, rfl⟩ := enqueueFrame_eq P q3
  · exact absurd he (hsent _ f hf).2
  have hz : P.decode x (f.fragments.map (·.payload)).flatten = some z := hz
  have hcur : ra.currentState = P.minihash ra.player := by
    rcases c1 with c1 | rfl
    · exact c1
    · exact hr.current
  refine ⟨x, z, ?_, hz, ?_, fun hs => ?_, fun ht hni => ?_, fun heq => ?_⟩
  · show (Receiver.saveState P _ f'.targetState).handed.getLast? = _
    rw [(saveState_handed P _ f'.targetState).1]
    show (ra.handed ++ [(ra.nextFrameNo, x, (sentFrame f).whole)]).getLast? = _
    rw [List.getLast?_append, n1]; rfl
  · show (Receiver.saveState P _ f'.targetState).player = _
    unfold Receiver.saveState
    dsimp only
    split <;> rfl
  · have hsrc : f'.sourceState = f.sourceState := hfrom.source
    rcases hl with ⟨l1, l2, l3⟩ | ⟨l1, l2⟩
    · have l1 : c = ra.currentState := l1
      have l2 : x = ra.player := l2
      rcases l3 with l3 | l3
      · rw [l2, ← hcur, ← l1, l3, hsrc]
      · have l3 : ra.decoders f'.sourceState = none := l3
        rw [d1, hsrc] at l3; exact absurd l3 hs
    · have l2 : ra.decoders f'.sourceState = some x := l2
      rw [d1, hsrc] at l2
      exact hr.known _ _ l2
  · have htar : f'.targetState = f.targetState := hfrom.target
    unfold Receiver.saveState
    dsimp only
    rw [if_pos ⟨by show P.minihash z = _; rw [ht, htar], by show P.minihash z ≠ ra.initialState; rw [ht, i1]; exact hni⟩]
    refine ⟨?_, ?_⟩
    · show f.targetState ∈ _ ++ [P.minihash z]
      rw [ht]; exact List.mem_append_right _ (List.mem_singleton.2 rfl)
    · show (if f.targetState = P.minihash z then (ds (P.minihash z)).or (some z) else ds f.targetState) ≠ none
      rw [if_pos ht.symm]
      cases ds (P.minihash z) <;> exact fun h => nomatch h
  · have hsrc : f'.sourceState = f.sourceState := hfrom.source
    have hsame : ra = r := by
      unfold Receiver.skipTo at ha
      rw [if_neg (by omega)] at ha
      exact (Option.some.inj ha).symm
    rcases hl with ⟨-, l2, -⟩ | ⟨-, l2⟩
    · left
      have l2 : x = ra.player := l2
      rw [l2, hsame]
    · right
      have l2 : ra.decoders f'.sourceState = some x := l2
      rw [d1, hsrc] at l2
      exact l2

/-- **C72** (a frame that arrives): when a packet completes a frame and the receiver has the state the frame was coded against, or the frame was made by
the first encoder, the decoder is given the whole frame in that state, shows exactly the picture that the sender's encoder judged the frame by, and is
then equal to the sender's record of it.  The receiver tells the sender that it has the new state. -/
theorem C72_arriving_frame_shown (hs : Broadcast.Starts hash width height base d) (h : Broadcast.Reaches hash width height mode base d start b)
    {k : Nat} {f : FragmentedFrame} {m : Made} (hf : b.sys.sent[k]? = some f) (hm : b.made[k]? = some m) {p : Packet} (hp : p ∈ f.fragments)
    {wire : List UInt8} (hw : p.toBytes = some wire) {avg : Nat} {r : Receiver Decoder} {ack : Option AckPacket}
    (hr : b.sys.receiver.receive (codecPlaying hash) wire avg = some (r, ack)) (hnew : b.sys.receiver.nextFrameNo ≤ k) (hfin : r.nextFrameNo = k + 1)
    (hc : ({ b with sys := { b.sys with receiver := r } } : Broadcast).NoCollision hash d)
    (hsrc : m.before = base ∨ b.sys.receiver.decoders f.sourceState ≠ none) :
    ∃ x, r.handed.getLast? = some (k, x, m.bytes) ∧ x.getFrameOutputWith codeRenderer true m.bytes = (m.after.decoder, .ok (true, m.shown)) ∧
      r.player = m.after.decoder ∧
      (hash m.after.decoder ≠ hash d → hash m.after.decoder ∈ r.completeStates ∧ r.decoders (hash m.after.decoder) ≠ none) := by
  have hi := h.binv hs
  obtain ⟨hok, hin⟩ := reaches_ok _ h.receiver
  obtain ⟨a1, a2, a3⟩ := aligned_get hi.aligned hf hm
  have hfm := List.mem_of_getElem? hf
  have has := (hi.frames k f hf).1
  have hfit := fragment_parse (has.cut.fragment has.connection has.source has.target has.number has.time has.count p hp) hw
  obtain ⟨x, z, k1, k2, k3, k4, k5, -⟩ := receive_finishes (codecPlaying hash) hi.frames (sent_genuine hi.frames hfm hp hw) hi.genuine hi.packets hok hf
    hfit ((hi.frames k f hf).1.cut.same p hp).2.2.2.2 hnew hr hfin
  have hreach : Receiver.Reaches (codecPlaying hash) d r := .step h.receiver hr
  have hh := (reaches_held _ hreach).handed _ (List.mem_of_getLast? k1)
  obtain ⟨-, o1, o2⟩ := occurs_dims hs.decoder hh.2
  rw [a1] at k1 k2
  have hx := shows hs hi (o1.trans hs.wide) (o2.trans hs.high) (List.mem_of_getElem? hm) fun hst => by
    refine ⟨?_, fun m' hm' he => hc x hh.1 m' hm' he⟩
    rcases hsrc with e | e
    · rw [e, hs.ready.2] at hst; exact nomatch hst
    · exact (k4 e).trans a2
  have hz : z = m.after.decoder := by
    change (match x.getFrameOutputWith codeRenderer true m.bytes with | (d', .ok _) => some d' | (_, .error _) => none) = some z at k2
    rw [hx] at k2
    exact (Option.some.inj k2).symm
  refine ⟨x, k1, hx, k3.trans hz, fun hne => ?_⟩
  rw [← a3]
  exact k5 (by rw [hz]; exact a3.symm) (by rw [a3, hin]; exact hne)

/-! ### Nothing throws -/

/-- **C72** (no exception): no decoder that can come about throws on what came of a frame that was sent. -/
theorem C72_decoder_accepts (hs : Broadcast.Starts hash width height base d) (h : Broadcast.Reaches hash width height mode base d start b)
    {f : FragmentedFrame} (hf : f ∈ b.sys.sent) {x : Decoder} (hx : (codecPlaying hash).Occurs d x) {n : Nat}
    (hn : (f.fragments.map (·.payload)).flatten.take (1400 * n) ≠ []) :
    ∃ y, (codecPlaying hash).decode x ((f.fragments.map (·.payload)).flatten.take (1400 * n)) = some y := by
  have hi := h.binv hs
  obtain ⟨o1, o2, o3⟩ := occurs_dims hs.decoder hx
  obtain ⟨k, hk⟩ := List.mem_iff_getElem?.1 hf
  obtain ⟨i1, i2⟩ := List.getElem?_eq_some_iff.1 hk
  have hl := hi.aligned.length_eq
  have hm : b.made[k]? = some b.made[k] := List.getElem?_eq_getElem (by omega)
  rw [(aligned_get hi.aligned hk hm).bytes] at hn ⊢
  have hone := (hi.made _ (List.mem_of_getElem? hm)).1.encoded.one
  rw [← hs.wide, ← hs.high, ← o2, ← o3] at hone
  obtain ⟨out, ho⟩ := C71_beginning_accepted codeRenderer x o1 _ hone (1400 * n) (by
    rcases n with _ | n
    · exact absurd List.take_zero hn
    · omega)
  show ∃ y, (match x.getFrameOutputWith codeRenderer true _ with | (d', .ok _) => some d' | (_, .error _) => none) = some y
  rcases hq : x.getFrameOutputWith codeRenderer true (b.made[k].bytes.take (1400 * n)) with ⟨y, e | z⟩
  · rw [hq] at ho; exact nomatch ho
  · exact ⟨y, rfl⟩

theorem NoAccident.before {D : Type} {P : Playing D} {i : Nat} {sent s2 : List FragmentedFrame} {handed h2 : List (Nat × D × List UInt8)}
    (h : System.NoAccident P i (sent ++ s2) (handed ++ h2)) : System.NoAccident P i sent handed := by
  refine ⟨?_, fun k d bytes d' hk hd hin => ?_⟩
  · have := h.fresh
    rw [List.map_append, ← List.cons_append] at this
    exact (List.nodup_append.1 this).1
  · obtain ⟨f, f1, f2, f3⟩ := h.decoded k d bytes d' (List.mem_append_left _ hk) hd (by rw [List.map_append]; exact List.mem_append_left _ hin)
    refine ⟨f, ?_, f2, f3⟩
    by_cases hlt : k < sent.length
    · rwa [List.getElem?_append_left hlt] at f1
    · rw [List.getElem?_append_right (by omega)] at f1
      have := (List.nodup_cons.1 h.fresh).2
      rw [List.map_append] at this
      exact absurd rfl ((List.nodup_append.1 this).2.2 _ hin _ (List.mem_map.2 ⟨f, List.mem_of_getElem? f1, f2⟩))

/-- What happens here also happens in the system with any encoder and any decoder. -/
theorem Broadcast.Step.sys {b b' : Broadcast} (h : Broadcast.Step hash width height b b') :
    System.Step (fun s => hash s.decoder) (codecPlaying hash) b.sys b'.sys := by
  cases h with
  | startEncode now cc hcc due s h => exact .startEncode now cc due s h
  | endEncode original ho made hm time ht s ff h => exact .endEncode _ time ht s ff h
  | data f hf p hp wire hw avg r ack h => exact .data f hf p hp wire hw avg r ack h
  | ack lost rest a ha s h => exact .ack lost rest a ha s h

theorem step_extends {E D : Type} {minihash : E → Nat} {P : Playing D} {sys sys' : System E D} (h : System.Step minihash P sys sys') :
    ∃ s2 h2, sys'.sent = sys.sent ++ s2 ∧ sys'.receiver.handed = sys.receiver.handed ++ h2 := by
  cases h with
  | startEncode => exact ⟨[], [], by simp, by simp⟩
  | endEncode results time ht s ff h => exact ⟨ff.toList, [], rfl, by simp⟩
  | data f hf p hp wire hw avg r ack h =>
    obtain ⟨new, h1, -⟩ := (receive_advances P h).handed
    exact ⟨[], new, by simp, h1⟩
  | ack => exact ⟨[], [], by simp, by simp⟩

theorem Broadcast.Reaches.sys (h : Broadcast.Reaches hash width height mode base d start b)
    (hn : System.NoAccident (codecPlaying hash) (hash base.decoder) b.sys.sent b.sys.receiver.handed) :
    System.Reaches (fun s => hash s.decoder) (codecPlaying hash) mode base d start b.sys := by
  induction h with
  | start => exact .start
  | step h hs hl ih =>
    obtain ⟨s2, h2, e1, e2⟩ := step_extends hs.sys
    exact .step (ih (by rw [e1, e2] at hn; exact NoAccident.before hn)) hs.sys hn hl

/-- **C60 (partial)**, with the codec (both programs go on): as long as no accident with hashes happened (see `System.NoAccident`), with the encoder and the decoder of this program
at the two ends neither program ends: an encode can be started (the mode `conventional` divides by the reported delay, which may be zero), its
jobs give frames for every picture of the right size, whatever is decided inside them, and these are sent or skipped, any acknowledgement on its way is
taken, and so is any packet of any frame that was sent.  Pictures may have up to 14300 macroblocks. -/
theorem C60_codec_neither_side_ends_partial (hs : Broadcast.Starts hash width height base d) (hmb : macroblockCount width height ≤ 14300)
    (h : Broadcast.Reaches hash width height mode base d start b)
    (hn : System.NoAccident (codecPlaying hash) (hash base.decoder) b.sys.sent b.sys.receiver.handed) :
    (∀ now cc due, ¬ (b.sys.sender.mode = .conventional ∧ due = true ∧ b.sys.sender.avgDelay = 0) → ∃ s, b.sys.sender.startEncode now cc due = some s) ∧
    (∀ original : Raster, original.Ok width height → ∀ job ∈ b.sys.sender.jobs, ∀ w : Work, w.Ok width height → ∃ after bytes shown,
      job.encoder.encodeWithQuantizer codeRenderer w original job.yAcQi = .ok (after, bytes, shown)) ∧
    (∀ original : Raster, original.Ok width height → ∀ made, List.Forall₂ (fun job m => job.Makes width height original m) b.sys.sender.jobs made →
      b.sys.sender.jobs ≠ [] → made.length < MAX64 → ∀ time,
        ∃ x, b.sys.sender.endEncode (fun s => hash s.decoder) (made.map fun m => (m.after, m.bytes)) time = some x) ∧
    (∀ a ∈ b.sys.acks, ∃ s, b.sys.sender.acknowledge a = some s) ∧
    (∀ f ∈ b.sys.sent, ∀ p ∈ f.fragments, ∃ wire, p.toBytes = some wire ∧ ∀ avg,
      (∀ r, b.sys.receiver.skipTo (codecPlaying hash) f.frameNo = some r →
        System.NoAccident (codecPlaying hash) (hash base.decoder) b.sys.sent r.handed) →
      ∃ r ack, b.sys.receiver.receive (codecPlaying hash) wire avg = some (r, ack)) := by
  have hi := h.binv hs
  obtain ⟨k1, k2, k3, k4⟩ := C60_neither_side_ends_partial (minihash := fun s : Session => hash s.decoder) (P := codecPlaying hash) (fun e => hs.hash32 _)
    (base := base) (d := d) hs.same (h.sys hn)
  refine ⟨k1, fun o ho job hj w hw => ?_, fun o ho made hm hj hl time => ?_, k3, fun f hf p hp => ?_⟩
  · obtain ⟨j1, j2⟩ := hi.jobs job hj
    obtain ⟨r1, r2⟩ := hi.ready hs.ready.1 hs.ready.2 j2
    by_cases hst : job.encoder.hasState = true
    · obtain ⟨s', bytes, shown, q, -⟩ := laterCall (⟨0, fun _ _ => 0⟩ : Meter Int) hs.fits (r2 hst) hst (c := .quantizer o job.yAcQi w) ⟨ho, j1, hw⟩
      exact ⟨s', bytes, shown, q⟩
    · obtain ⟨s', bytes, shown, q, -⟩ := firstCall (⟨0, fun _ _ => 0⟩ : Meter Int) hs.fits r1 (by simpa using hst) (c := .quantizer o job.yAcQi w) ⟨ho, j1, hw⟩
      exact ⟨s', bytes, shown, q⟩
  · refine k2 _ time hj (by rw [List.length_map, hm.length_eq]) (by rw [List.length_map]; exact hl) fun r hr => ?_
    obtain ⟨m, hmm, rfl⟩ := List.mem_map.1 hr
    obtain ⟨i, hi1⟩ := List.mem_iff_getElem?.1 hmm
    obtain ⟨hlt, -⟩ := List.getElem?_eq_some_iff.1 hi1
    obtain ⟨job, hjob⟩ : ∃ job, b.sys.sender.jobs[i]? = some job := ⟨_, List.getElem?_eq_getElem (by rw [hm.length_eq]; exact hlt)⟩
    obtain ⟨j1, j2⟩ := hi.jobs _ (List.mem_of_getElem? hjob)
    obtain ⟨r1, r2⟩ := hi.ready hs.ready.1 hs.ready.2 j2
    have he := ((aligned_get hm hjob hi1).right hs.fits ho j1 r1 r2).encoded
    refine ⟨List.length_pos_iff.1 he.nonempty, ?_⟩
    have := he.small
    show m.bytes.length ≤ _
    omega
  · obtain ⟨wire, hw, q⟩ := k4 f hf p hp
    refine ⟨wire, hw, fun avg hacc => q avg (fun g hg x n hx hne => ?_) hacc⟩
    obtain ⟨y, hy⟩ := C72_decoder_accepts hs h hg hx hne
    rw [hy]; exact fun h => nomatch h

end

end Alfalfa
