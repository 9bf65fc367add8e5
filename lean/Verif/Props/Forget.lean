import Verif.Spec.Forget
import Verif.Props.SystemExamples

/-! C73: what a sender in its conservative mode codes against. -/

namespace Alfalfa

variable {E D : Type}

theorem pair_sublist {s t : Nat} : ∀ {l : List Nat}, [s, t].Sublist l → ∃ i j : Nat, i < j ∧ l[i]? = some s ∧ l[j]? = some t := by
  intro l
  induction l with
  | nil => intro h; cases h
  | cons a l ih =>
    intro h
    cases h with
    | cons _ h =>
      obtain ⟨i, j, hij, hi, hj⟩ := ih h
      exact ⟨i + 1, j + 1, by omega, by simpa using hi, by simpa using hj⟩
    | cons_cons _ h =>
      obtain ⟨j, hj⟩ := List.mem_iff_getElem?.mp (List.singleton_sublist.mp h)
      exact ⟨0, j + 1, by omega, rfl, by simpa using hj⟩

variable {P : Playing D} {initial : Nat} {minihash : E → Nat}

/-- A state that is listed before a datagram arrives is listed afterwards, or the datagram makes a frame complete that is decoded from a newer state. -/
theorem SysInv.forgets {sys : System E D} (h : SysInv minihash P initial sys) {p : Packet} (hp : p ∈ (sentAt sys.sent p.frameNo).packets)
    {wire : List UInt8} (hpw : Packet.parse wire = .ok p) {avg : Nat} {r' : Receiver D} {ack : Option AckPacket}
    (hr : sys.receiver.receive P wire avg = some (r', ack)) (hn : System.NoAccident P initial sys.sent r'.handed)
    (acks : List AckPacket) {s : Nat} (hs : s ∈ sys.receiver.completeStates) :
    s ∈ r'.completeStates ∨ System.DecodedFromNewer P ({ sys with receiver := r', acks := acks } : System E D) s := by
  obtain ⟨q, hq, ⟨_, rfl, rfl⟩ | ⟨hle, r1, r2, h1, h2, h3, _⟩⟩ := receive_spec P hr
  · exact Or.inl hs
  rw [hpw] at hq
  have hq := Except.ok.inj hq
  subst hq
  obtain ⟨new3, hnew3, _⟩ := (finishFrame_advances P h3).handed
  have e2 : r2.handed = r1.handed := by obtain ⟨g, rfl, _⟩ := addPacket_spec h2; rfl
  have hn1 : System.NoAccident P initial sys.sent r1.handed :=
    ⟨hn.fresh, fun k d b d' hin => hn.decoded k d b d' (by rw [hnew3, e2]; exact List.mem_append_left _ hin)⟩
  obtain ⟨i1, w1, c1⟩ := h.receiver.skip h.as h.waiting hle h1 hn1
  have hk : r1.nextFrameNo = p.frameNo := (skipTo_spec P hle h1).1
  obtain ⟨i2, o2, _, c2, n2⟩ := i1.add (h.as _ (mem_ne_nil hp)) hp hk h2
  rw [← c1, ← c2] at hs
  obtain rfl | ⟨f, frame, r3, r4, hf, hc, hfr, h4, h5, rfl⟩ := finishFrame_spec P h3
  · exact Or.inl hs
  have hfs := i2.genuine.frames _ f hf
  have hpk := i2.packets _ f hf
  obtain ⟨fs, hfsent, hfat⟩ := sentAt_packets hpk
  have hwhole := hfs.frame (h.as _ hpk) hc
  rw [hfr] at hwhole
  have hwhole := Except.ok.inj hwhole
  have hsource : f.sourceState = fs.sourceState := by rw [hfs.source, hfat]; rfl
  obtain ⟨d, c, e1, h6⟩ := loadSource_spec r2 f.sourceState
  rw [e1] at h4
  obtain ⟨cs, ds, e3, h7⟩ := prune_spec h4
  dsimp only at e3 h7
  subst e3
  obtain ⟨hb, _⟩ | ⟨_, y, hy, e4⟩ := enqueueFrame_eq P h5
  · exact absurd (hwhole ▸ hb) (h.whole _ hpk)
  subst e4
  have hkeeps : ∀ q : Receiver D, s ∈ q.completeStates → s ∈ (q.saveState P f.targetState).completeStates := by
    intro q hin
    unfold Receiver.saveState
    dsimp only
    split
    · exact List.mem_append_left _ hin
    · exact hin
  obtain ⟨rfl, rfl, _⟩ | ⟨hcur, hni, hprune⟩ := h7
  · exact Or.inl (hkeeps _ hs)
  obtain ⟨pre, rest, e5, e6, e7, _⟩ := pruneStates_spec _ _ _ _ _ hprune
  rw [e6] at hs
  obtain hs | hs := List.mem_append.mp hs
  swap
  · exact Or.inl (hkeeps _ hs)
  right
  have hpair : [s, f.sourceState].Sublist sys.targets := by
    refine List.Sublist.trans ?_ (i2.sub.trans (List.take_sublist _ _))
    rw [e6, e5]
    exact (List.singleton_sublist.mpr hs).append (List.singleton_sublist.mpr List.mem_cons_self)
  obtain ⟨i, j, hij, hi, hj⟩ := pair_sublist hpair
  obtain ⟨fi, hfi, ti⟩ := Option.map_eq_some_iff.mp (List.getElem?_map ▸ hi)
  obtain ⟨fj, hfj, tj⟩ := Option.map_eq_some_iff.mp (List.getElem?_map ▸ hj)
  refine ⟨r2.nextFrameNo, d, fs, hfsent, ?_, ?_, ?_⟩
  · show _ ∈ (Receiver.saveState P _ f.targetState).handed
    rw [(saveState_handed P _ f.targetState).1]
    have : frame = (fs.fragments.map (·.payload)).flatten := by rw [hwhole, hfat]; rfl
    rw [← this]; simp
  · rw [← hsource]
    obtain ⟨g1, g2, _⟩ | ⟨g1, g2⟩ := h6
    · rw [g2, ← i2.ok.current, ← g1, hcur]
    · exact i2.ok.known _ _ g2
  · rw [← hsource]; exact ⟨i, j, fi, fj, hfi, hfj, hij, ti, tj⟩

/-- Frames and calls of the decoder are only added. -/
theorem System.Step.grows {sys sys' : System E D} (h : System.Step minihash P sys sys') :
    (∀ (k : Nat) (f : FragmentedFrame), sys.sent[k]? = some f → sys'.sent[k]? = some f) ∧ ∀ x ∈ sys.receiver.handed, x ∈ sys'.receiver.handed := by
  cases h with
  | startEncode now cc due s h => exact ⟨fun _ _ h => h, fun _ h => h⟩
  | endEncode results time ht s ff h =>
    exact ⟨fun k f hf => (List.getElem?_append_left (List.getElem?_eq_some_iff.mp hf).1).trans hf, fun _ h => h⟩
  | data f hf p hp wire hw avg r ack h =>
    refine ⟨fun _ _ h => h, fun x hx => ?_⟩
    obtain ⟨new, hnew, _⟩ := (receive_advances P h).handed
    show x ∈ r.handed
    rw [hnew]; exact List.mem_append_left _ hx
  | ack lost rest a ha s h => exact ⟨fun _ _ h => h, fun _ h => h⟩

theorem System.DecodedFromNewer.step {sys sys' : System E D} {s : Nat} (hd : sys.DecodedFromNewer P s) (h : System.Step minihash P sys sys') :
    sys'.DecodedFromNewer P s := by
  obtain ⟨g1, g2⟩ := h.grows
  obtain ⟨k, d, f, a1, a2, a3, i, j, fi, fj, b1, b2, b3⟩ := hd
  exact ⟨k, d, f, g1 _ _ a1, g2 _ a2, a3, i, j, fi, fj, g1 _ _ b1, g1 _ _ b2, b3⟩

/-- The receiver lists the state, or has decoded a frame from a newer one. -/
def System.Kept (P : Playing D) (sys : System E D) (s : Nat) : Prop := s ∈ sys.receiver.completeStates ∨ sys.DecodedFromNewer P s

theorem System.Kept.step {sys sys' : System E D} {s : Nat} (hi : SysInv minihash P initial sys) (hk : sys.Kept P s) (h : System.Step minihash P sys sys')
    (hn : System.NoAccident P initial sys'.sent sys'.receiver.handed) : sys'.Kept P s := by
  obtain hk | hk := hk
  swap
  · exact Or.inr (hk.step h)
  cases h with
  | startEncode now cc due s h => exact Or.inl hk
  | endEncode results time ht s ff h => exact Or.inl hk
  | data f hf p hp wire hw avg r ack h =>
    obtain ⟨_, _, _, hfrag, hin⟩ := hi.packet hf hp
    exact hi.forgets hin (fragment_parse hfrag hw) h hn _ hk
  | ack lost rest a ha s h => exact Or.inl hk

/-- What holds of the acknowledgements on their way and of the one the sender goes by. -/
structure KnownKept (P : Playing D) (sys : System E D) : Prop where
  known : ∀ s ∈ sys.sender.receiverCompleteStates, sys.Kept P s
  acks : ∀ a ∈ sys.acks, ∀ s ∈ a.completeStates, sys.Kept P s

theorem acknowledge_states {s s' : Sender E} {a : AckPacket} (h : s.acknowledge a = some s') :
    s'.receiverCompleteStates = s.receiverCompleteStates ∨ s'.receiverCompleteStates = a.completeStates := by
  obtain ⟨_, rfl⟩ | ⟨_, seq, _, ⟨_, _, rfl⟩ | ⟨_, rfl⟩⟩ := acknowledge_spec h
  · exact Or.inl rfl
  · exact Or.inl rfl
  · exact Or.inr rfl

theorem endEncode_states {s s' : Sender E} {results : List (E × List UInt8)} {time : Nat} {ff : Option FragmentedFrame}
    (h : s.endEncode minihash results time = some (s', ff)) : s'.receiverCompleteStates = s.receiverCompleteStates := by
  obtain ⟨size, choice, _, hch, ⟨hcn, rfl, rfl⟩ | ⟨best, o, f, count, _, ho, hf, hcount, rfl, rfl⟩⟩ := endEncode_spec minihash h <;> rfl

theorem KnownKept.step {sys sys' : System E D} (hi : SysInv minihash P initial sys) (hk : KnownKept P sys) (h : System.Step minihash P sys sys')
    (hn : System.NoAccident P initial sys'.sent sys'.receiver.handed) : KnownKept P sys' := by
  have hstep : ∀ s, sys.Kept P s → sys'.Kept P s := fun s hs => hs.step hi h hn
  cases h with
  | startEncode now cc due s h =>
    refine ⟨fun t ht => hstep t (hk.known t ?_), fun a ha t ht => hstep t (hk.acks a ha t ht)⟩
    rw [← (hi.sender.startEncode h).2.1]; exact ht
  | endEncode results time ht s ff h =>
    refine ⟨fun t ht => hstep t (hk.known t ?_), fun a ha t ht => hstep t (hk.acks a ha t ht)⟩
    rw [← endEncode_states h]; exact ht
  | data f hf p hp wire hw avg r ack h =>
    refine ⟨fun t ht => hstep t (hk.known t ht), fun a ha t ht => ?_⟩
    obtain ha | ha := List.mem_append.mp ha
    · exact hstep t (hk.acks a ha t ht)
    · obtain ⟨q, _, ⟨_, _, rfl⟩ | ⟨_, _, _, _, _, _, rfl⟩⟩ := receive_spec P h
      · exact absurd ha List.not_mem_nil
      · rw [Option.toList_some, List.mem_singleton] at ha
        subst ha
        exact Or.inl ht
  | ack lost rest a ha s h =>
    refine ⟨fun t ht => hstep t ?_, fun b hb t ht => hstep t (hk.acks b ?_ t ht)⟩
    · obtain e | e := acknowledge_states h
      · exact hk.known t (e ▸ ht)
      · exact hk.acks a (by rw [ha]; simp) t (e ▸ ht)
    · rw [ha]; exact List.mem_append_right _ (List.mem_cons_of_mem _ hb)

theorem reaches_knownKept (hm : ∀ e, minihash e < 2 ^ 32) {mode : OperationMode} {base : E} {d : D} {now : Int} (hb : minihash base = P.minihash d)
    {sys : System E D} (h : System.Reaches minihash P mode base d now sys) : KnownKept P sys := by
  induction h with
  | start => exact ⟨fun s hs => absurd hs List.not_mem_nil, fun a ha => absurd ha List.not_mem_nil⟩
  | step h hs hn hl ih => exact ih.step (reaches_sysInv hm hb h) hs hn

theorem System.Reaches.noAccident {mode : OperationMode} {base : E} {d : D} {now : Int} {sys : System E D}
    (h : System.Reaches minihash P mode base d now sys) :
    System.NoAccident P (minihash base) sys.sent sys.receiver.handed ∧ sys.sent.length < 2 ^ 32 := by
  cases h with
  | start => exact ⟨⟨by simp [System.start], fun k d b d' h => absurd h List.not_mem_nil⟩, (by decide : 0 < 2 ^ 32)⟩
  | step _ _ hn hl => exact ⟨hn, hl⟩

/-- **C73 (partial).** A sender in its conservative mode takes as the base of a frame the initial state or the last state listed in the acknowledgement
it goes by.  From then on and for as long as the system runs, whatever the network does to packets and acknowledgements, the receiver has a decoder in this
state, unless it has decoded a frame in a newer state.  Missing: the latter does happen
(`C73_conservative_frame_misdecoded`). -/
theorem C73_conservative_source_kept_partial (hm : ∀ e, minihash e < 2 ^ 32) {mode : OperationMode} {base : E} {d : D} {start : Int}
    (hb : minihash base = P.minihash d) {sys sys' : System E D} (h : System.Reaches minihash P mode base d start sys)
    (now : Int) (cc : Nat) (due : Bool) (s : Sender E) (hidle : sys.sender.jobs = []) (hstart : sys.sender.startEncode now cc due = some s)
    (hcons : now < s.conservativeUntil) (hlater : System.Continues minihash P (minihash base) { sys with sender := s } sys') :
    ∀ job ∈ s.jobs, sys'.CanDecodeFrom P (minihash job.encoder) ∨ sys'.DecodedFromNewer P (minihash job.encoder) := by
  have hi := reaches_sysInv hm hb h
  have hk := reaches_knownKept hm hb h
  intro job hjob
  have hsource : minihash job.encoder = minihash base ∨ minihash job.encoder ∈ sys.sender.receiverCompleteStates := by
    obtain ⟨hj, _⟩ | ⟨_, s1, source, u, e, h1, h2, h3, rfl⟩ := startEncode_spec hstart
    · exact absurd hidle hj
    obtain ⟨i1, m1, _, _, c1⟩ := hi.sender.cleanUp h1
    have he : minihash job.encoder = source := by
      rw [← i1.key _ _ h3]
      change job ∈ encodeJobs _ _ _ _ at hjob
      unfold encodeJobs at hjob
      split at hjob
      · rw [List.mem_singleton.mp hjob]
      · simp only [List.mem_cons, List.not_mem_nil, or_false] at hjob
        obtain rfl | rfl := hjob <;> rfl
    have hks : source = s1.knownState := by
      change now < u at hcons
      unfold Sender.select at h2
      split at h2
      · exact (Prod.mk.inj (Option.some.inj h2)).1.symm
      · rename_i hu
        split at h2
        · have := (Prod.mk.inj (Option.some.inj h2)).2; omega
        · split at h2
          · exact (Prod.mk.inj (Option.some.inj h2)).1.symm
          · obtain ⟨x, _, hx⟩ := Option.map_eq_some_iff.mp h2
            have := (Prod.mk.inj hx).2; omega
    rw [he, hks]
    unfold Sender.knownState
    cases hl : s1.receiverCompleteStates.getLast? with
    | none => left; exact i1.start
    | some c => right; rw [← c1]; exact List.mem_of_getLast? hl
  have hstep : System.Step minihash P sys { sys with sender := s } := .startEncode now cc due s hstart
  have hn := h.noAccident
  have hall : System.Reaches minihash P mode base d start sys' ∧ (minihash job.encoder = minihash base ∨ sys'.Kept P (minihash job.encoder)) := by
    induction hlater with
    | refl => exact ⟨.step h hstep hn.1 hn.2, hsource.imp id fun hs => (hk.known _ hs).step hi hstep hn.1⟩
    | step _ hs hn hl ih => exact ⟨.step ih.1 hs hn hl, ih.2.imp id fun hk => hk.step (reaches_sysInv hm hb ih.1) hs hn⟩
  obtain ⟨hr, he | hin | hnew⟩ := hall
  · left
    have hok := (reaches_sysInv hm hb hr).receiver
    obtain ⟨x, hx⟩ := hok.ok.initial
    rw [hok.start] at hx
    rw [he]; exact ⟨x, hx, hok.ok.known _ _ hx⟩
  · exact Or.inl ((C60_advertised_states_partial hm hb hr).2.1 _ hin)
  · exact Or.inr hnew

/-- Eight frames.  Of frames 1 and 2 only the beginnings arrive, so that the sender becomes conservative and codes frame 3 against the state 9, which is
listed; frame 3 arrives, and frames 4 and 5 are coded against the state 50 after it.  Of frame 4 only the beginning arrives, which the acknowledgement of the
first packet of frame 5 tells; this acknowledgement takes its time.  Frame 5 arrives whole and leads to the state 70.  The five
seconds are over, and frame 6 is coded against the state 70.  It arrives, and the receiver forgets the state 50.  Now the
acknowledgement arrives, and the sender becomes conservative again. -/
def lateRun : List (SystemEvent UInt8) :=
  [.startEncode 1 30 false, .endEncode [(9, longFrame 2 7 2), (10, [10])] 100, .data 0 0 2000, .data 0 1 2000, .ack 1,
   .startEncode 2 30 false, .endEncode [(20, longFrame 2 12 8), (30, [30])] 100, .data 1 0 2000,
   .startEncode 3 30 false, .endEncode [(40, longFrame 2 22 18), (50, [50])] 100, .data 2 0 2000, .ack 1,
   .startEncode 4 30 false, .endEncode [(50, [50]), (51, [51])] 100, .data 3 0 2000, .ack 0,
   .startEncode 5 30 false, .endEncode [(60, longFrame 2 52 8), (61, [61])] 100, .data 4 0 2000,
   .startEncode 6 30 false, .endEncode [(70, longFrame 2 66 4), (71, [71])] 100, .data 5 0 2000, .data 5 1 2000,
   .startEncode 5000000005 30 false, .endEncode [(80, [80]), (81, [81])] 100, .data 6 0 2000, .ack 1]

/-- What then happens: the frame is encoded and sent, and arrives. -/
def afterLateRun : List (SystemEvent UInt8) := [.endEncode [(90, [90]), (91, [91])] 100, .data 7 0 2000]

theorem System.execAll_continues {E D : Type} (minihash : E → Nat) (P : Playing D) (initial : Nat) (es : List (SystemEvent E)) : ∀ (sys0 sys sys' : System E D),
    System.Continues minihash P initial sys0 sys → sys.execAll minihash P initial es = some sys' → System.Continues minihash P initial sys0 sys' := by
  induction es with
  | nil => intro sys0 sys sys' h he; cases Option.some.inj he; exact h
  | cons e es ih =>
    intro sys0 sys sys' h he
    obtain ⟨s1, h1, he⟩ := Option.bind_eq_some_iff.mp he
    split at he
    · rename_i hc
      rw [Bool.and_eq_true, decide_eq_true_iff] at hc
      exact ih _ _ _ (.step h (System.exec_step _ _ _ _ _ h1) (noAccident_sound _ _ _ _ hc.1) hc.2) he
    · exact nomatch he

theorem lateRun_state : (((System.start UInt8.toNat sumPlaying .s2 0 0 0).execAll UInt8.toNat sumPlaying 0 lateRun).bind fun sys =>
      (sys.sender.startEncode 5000000006 30 false).bind fun s =>
        (({ sys with sender := s } : System UInt8 Nat).execAll UInt8.toNat sumPlaying 0 afterLateRun).bind fun sys' =>
          (sys'.sent[7]?).map fun f =>
            sys.sender.jobs.isEmpty && (decide (5000000006 < s.conservativeUntil) && (s.jobs.all (fun j => j.encoder.toNat == f.sourceState) &&
            ((sys.sender.receiverCompleteStates.getLast? == some f.sourceState) && ((sys.receiver.decoders f.sourceState).isNone &&
            sys'.receiver.handed.any (fun x => x.1 == 7 && (x.2.1 != f.sourceState && x.2.2 == (f.fragments.map (·.payload)).flatten))))))) =
    some true := by
  decide +kernel

/-- **C73 does not hold in general.** A sender becomes conservative and codes a frame against the last state that the receiver is known to have; but the
receiver has forgotten it, as the acknowledgement is older than a frame that the receiver has decoded from a newer state in the meantime.  The
frame arrives complete, and is decoded in another state than the one it was coded against.  No packet and no acknowledgement was reordered. -/
theorem C73_conservative_frame_misdecoded : ∃ (sys sys' : System UInt8 Nat) (s : Sender UInt8) (f : FragmentedFrame) (d : Nat),
    System.Reaches UInt8.toNat sumPlaying .s2 0 0 0 sys ∧ sys.sender.jobs = [] ∧
    sys.sender.startEncode 5000000006 30 false = some s ∧ 5000000006 < s.conservativeUntil ∧
    System.Continues UInt8.toNat sumPlaying 0 { sys with sender := s } sys' ∧
    sys'.sent[7]? = some f ∧ (∀ job ∈ s.jobs, job.encoder.toNat = f.sourceState) ∧
    sys.sender.receiverCompleteStates.getLast? = some f.sourceState ∧ ¬ sys.CanDecodeFrom sumPlaying f.sourceState ∧
    (7, d, (f.fragments.map (·.payload)).flatten) ∈ sys'.receiver.handed ∧ sumPlaying.minihash d ≠ f.sourceState := by
  obtain ⟨sys, h1, h⟩ := Option.bind_eq_some_iff.mp lateRun_state
  obtain ⟨s, h2, h⟩ := Option.bind_eq_some_iff.mp h
  obtain ⟨sys', h3, h⟩ := Option.bind_eq_some_iff.mp h
  obtain ⟨f, h4, h⟩ := Option.map_eq_some_iff.mp h
  rw [Bool.and_eq_true, Bool.and_eq_true, Bool.and_eq_true, Bool.and_eq_true, Bool.and_eq_true] at h
  obtain ⟨a1, a2, a3, a4, a5, a6⟩ := h
  obtain ⟨⟨k, d, b⟩, a7, a8⟩ := List.any_eq_true.mp a6
  rw [Bool.and_eq_true, Bool.and_eq_true] at a8
  obtain ⟨b1, b2, b3⟩ := a8
  have b1 : k = 7 := beq_iff_eq.mp b1
  have b4 : b = (f.fragments.map (·.payload)).flatten := beq_iff_eq.mp b3
  subst b1 b4
  refine ⟨sys, sys', s, f, d, System.execAll_reaches _ _ _ _ _ _ _ _ _ .start h1, List.isEmpty_iff.mp a1, h2, of_decide_eq_true a2,
    System.execAll_continues _ _ _ _ _ _ _ .refl h3, h4, fun j hj => beq_iff_eq.mp (List.all_eq_true.mp a3 j hj), beq_iff_eq.mp a4, ?_, a7, bne_iff_ne.mp b2⟩
  rintro ⟨x, hx, _⟩
  rw [hx] at a5; exact nomatch a5

/-- The hypotheses of `C73_conservative_source_kept_partial` are met: when the sender becomes conservative for the first time, it codes against the state 9,
which the receiver then has. -/
example : ∃ (sys : System UInt8 Nat) (s : Sender UInt8), System.Reaches UInt8.toNat sumPlaying .s2 0 0 0 sys ∧ sys.sender.jobs = [] ∧
    sys.sender.startEncode 4 30 false = some s ∧ 4 < s.conservativeUntil ∧ s.jobs.map (fun j => j.encoder.toNat) = [9, 9] ∧
    (sys.receiver.decoders 9).isSome = true := by
  have h : (((System.start UInt8.toNat sumPlaying .s2 0 0 0).execAll UInt8.toNat sumPlaying 0 (lateRun.take 12)).bind fun sys =>
      (sys.sender.startEncode 4 30 false).map fun s =>
        (sys.sender.jobs.isEmpty, decide (4 < s.conservativeUntil), s.jobs.map (fun j => j.encoder.toNat), (sys.receiver.decoders 9).isSome)) =
      some (true, true, [9, 9], true) := by decide +kernel
  obtain ⟨sys, h1, h⟩ := Option.bind_eq_some_iff.mp h
  obtain ⟨s, h2, h⟩ := Option.map_eq_some_iff.mp h
  obtain ⟨a1, h⟩ := Prod.mk.inj h
  obtain ⟨a2, h⟩ := Prod.mk.inj h
  obtain ⟨a3, a4⟩ := Prod.mk.inj h
  exact ⟨sys, s, System.execAll_reaches _ _ _ _ _ _ _ _ _ .start h1, List.isEmpty_iff.mp a1, h2, of_decide_eq_true a2, a3, a4⟩

end Alfalfa
