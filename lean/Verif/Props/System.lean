import Verif.Proof.SystemSender

/-! The sender and the receiver together (C29, C60). -/

namespace Alfalfa

variable {E D : Type} {minihash : E → Nat} {P : Playing D}

/-- What a frame that leaves the sender looks like. -/
theorem endEncode_frame {s s' : Sender E} {results : List (E × List UInt8)} {time : Nat} {f : FragmentedFrame}
    (h : s.endEncode minihash results time = some (s', some f)) (hm : ∀ e, minihash e < 2 ^ 32) (hc : s.connectionId = 1337) (ht : time < 2 ^ 32)
    (hn : s.frameNo < 2 ^ 32) : (sentFrame f).As 1337 s.frameNo ∧ (sentFrame f).whole ≠ [] ∧ f.frameNo = s.frameNo := by
  obtain ⟨size, choice, _, hch, ⟨_, _, hcn⟩ | ⟨best, o, f', count, _, ho, hf, hcount, he, _⟩⟩ := endEncode_spec minihash h
  · exact nomatch hcn
  have he := Option.some.inj he
  subst he
  obtain ⟨j, r, _, _, hoe⟩ := zipWith_get _ _ _ _ _ ho
  have hlen : 0 < o.frame.length ∧ o.frame.length ≤ 65535 * 1400 := by
    by_contra hbad
    have hn := C23_other_lengths o.frame (by omega) s.connectionId o.sourceMinihash (minihash o.encoder) s.frameNo time o.frame.length
    rw [hf] at hn; exact nomatch hn
  obtain ⟨g, hg, hcut, _, hx, _⟩ := C23_fragmentation o.frame s.connectionId o.sourceMinihash (minihash o.encoder) s.frameNo time o.frame.length
    hlen.1 hlen.2 (by omega)
  rw [hf] at hg
  have hg := Option.some.inj hg
  subst hg
  have hfields : f.sourceState = o.sourceMinihash ∧ f.targetState = minihash o.encoder ∧ f.frameNo = s.frameNo := by
    unfold FragmentedFrame.outgoing at hf
    obtain ⟨ps, _, hf⟩ := Option.bind_eq_some_iff.mp hf
    cases ps with
    | nil => exact nomatch hf
    | cons first rest =>
      dsimp only at hf
      obtain ⟨fs, _, hf⟩ := Option.bind_eq_some_iff.mp hf
      rw [← Option.some.inj hf]
      exact ⟨rfl, rfl, rfl⟩
  have hcount := hcut.count
  obtain ⟨p, hp⟩ : ∃ p, f.fragments[0]? = some p := ⟨_, List.getElem?_eq_getElem (by omega)⟩
  have htime : (sentFrame f).time = time := by
    have := hcut.time 0 p hp
    rw [if_pos rfl] at this
    show ((f.fragments.head?).map (·.timeSinceLast)).getD 0 = time
    rw [List.head?_eq_getElem?, hp]
    exact this
  refine ⟨⟨?_, by decide, ?_, ?_, hn, by rw [htime]; exact ht, ?_⟩, ?_, hfields.2.2⟩
  · rw [htime]
    show CutOf 1337 f.sourceState f.targetState s.frameNo time (f.fragments.map (·.payload)).flatten f.fragments
    rw [hcut.payloads, hfields.1, hfields.2.1, ← hc]
    exact hcut
  · show f.sourceState < _
    rw [hfields.1, hoe]; exact hm _
  · show f.targetState < _
    rw [hfields.2.1]; exact hm _
  · show f.fragments.length < _
    omega
  · show (f.fragments.map (·.payload)).flatten ≠ []
    rw [hcut.payloads]
    exact List.length_pos_iff.mp hlen.1

/-- What holds in every state of the system. -/
structure SysInv (minihash : E → Nat) (P : Playing D) (initial : Nat) (sys : System E D) : Prop where
  sender : SInv minihash initial sys.targets sys.sender
  counts : Counts sys.sender sys.sent
  receiver : RInv P initial sys.sent sys.receiver
  waiting : sys.receiver.Waiting
  frames : ∀ (k : Nat) (f : FragmentedFrame), sys.sent[k]? = some f →
    (sentFrame f).As 1337 k ∧ (sentFrame f).whole ≠ [] ∧ (f.sourceState = initial ∨ f.sourceState ∈ sys.targets)
  acks : ∀ a ∈ sys.acks, a.connectionId = 1337 ∧ a.frameNo < sys.sent.length ∧ a.fragmentNo < 2 ^ 16 ∧ Seen P initial sys.receiver.handed a.currentState ∧
    (a.currentState ∈ sys.targets → a.completeStates.getLast? = some a.currentState) ∧ (∀ c, a.completeStates.getLast? = some c → c ∈ sys.targets)
  seen : ∀ a, sys.sender.receiverLastAckedState = some a → Seen P initial sys.receiver.handed a
  order : (rank sys.targets sys.sender.receiverCompleteStates ::
    (sys.acks.map (fun a => rank sys.targets a.completeStates) ++ [rank sys.targets sys.receiver.completeStates])).Pairwise (· ≤ ·)

section
variable {initial : Nat}

theorem SysInv.as {sys : System E D} (h : SysInv minihash P initial sys) :
    ∀ k, (sentAt sys.sent k).packets ≠ [] → (sentAt sys.sent k).As CONNECTION_ID k := by
  intro k hk
  obtain ⟨f, hf, he⟩ := sentAt_packets hk
  rw [he]; exact (h.frames k f hf).1

theorem SysInv.whole {sys : System E D} (h : SysInv minihash P initial sys) :
    ∀ k, (sentAt sys.sent k).packets ≠ [] → (sentAt sys.sent k).whole ≠ [] := by
  intro k hk
  obtain ⟨f, hf, he⟩ := sentAt_packets hk
  rw [he]; exact (h.frames k f hf).2.1

theorem SysInv.rlast {sys : System E D} (h : SysInv minihash P initial sys) :
    ∀ c, sys.receiver.completeStates.getLast? = some c → c ∈ sys.targets :=
  fun _ hc => mem_sublist_take h.receiver.sub (List.mem_of_getLast? hc)

/-- A packet of a frame that was sent arrives as it was sent. -/
theorem SysInv.packet {sys : System E D} (h : SysInv minihash P initial sys) {f : FragmentedFrame} (hf : f ∈ sys.sent) {p : Packet} (hp : p ∈ f.fragments) :
    ∃ k, sys.sent[k]? = some f ∧ p.frameNo = k ∧ p.Fragment ∧ p ∈ (sentAt sys.sent p.frameNo).packets := by
  obtain ⟨k, hk⟩ := List.mem_iff_getElem?.mp hf
  have has := (h.frames k f hk).1
  have hno : p.frameNo = k := (has.cut.same p hp).2.2.2.2
  refine ⟨k, hk, hno, has.cut.fragment has.connection has.source has.target has.number has.time has.count p hp, ?_⟩
  rw [hno, sentAt_some hk]; exact hp

theorem start_sysInv (mode : OperationMode) (base : E) (d : D) (now : Int) (hb : minihash base = P.minihash d) :
    SysInv minihash P (minihash base) (System.start minihash P mode base d now) where
  sender := start_sinv minihash mode base now
  counts := start_counts minihash 1337 mode base now
  receiver := by rw [hb]; exact start_rinv P d
  waiting := fun k f h => (nomatch h)
  frames := fun k f h => (nomatch h)
  acks := fun a h => absurd h List.not_mem_nil
  seen := fun a h => (nomatch h)
  order := by simp [System.start, Sender.start, Receiver.start, rank]

theorem fragment_parse {p : Packet} (h : p.Fragment) {wire : List UInt8} (hw : p.toBytes = some wire) : Packet.parse wire = .ok p := by
  obtain ⟨w, hw', hp⟩ := C20_packet_round_trip p h
  rw [hw] at hw'
  rw [Option.some.inj hw']; exact hp

theorem pairwise_drop {l : List Nat} {a x : Nat} {lost rest : List Nat} (h : (a :: (lost ++ x :: rest ++ l)).Pairwise (· ≤ ·)) :
    a ≤ x ∧ (x :: (rest ++ l)).Pairwise (· ≤ ·) ∧ (a :: (rest ++ l)).Pairwise (· ≤ ·) := by
  rw [List.pairwise_cons, List.append_assoc, List.pairwise_append] at h
  obtain ⟨h1, _, h2, _⟩ := h
  refine ⟨h1 x (by simp), h2, ?_⟩
  rw [List.cons_append, List.pairwise_cons] at h2
  rw [List.pairwise_cons]
  refine ⟨fun b hb => h1 b ?_, h2.2⟩
  simp only [List.cons_append, List.mem_append, List.mem_cons] at hb ⊢
  tauto

theorem SysInv.step (hm : ∀ e, minihash e < 2 ^ 32) {sys sys' : System E D} (h : SysInv minihash P initial sys) (hs : System.Step minihash P sys sys')
    (hn : System.NoAccident P initial sys'.sent sys'.receiver.handed) (hl : sys'.sent.length < 2 ^ 32) : SysInv minihash P initial sys' := by
  cases hs with
  | startEncode now cc due s hst =>
    obtain ⟨i, c, l⟩ := h.sender.startEncode hst
    have hcnt := step_counts minihash (e := .startEncode now cc due) sys.sent h.counts (s1 := s) (ff := none) (by rw [Sender.step, hst]; rfl)
    rw [Option.toList_none, List.append_nil] at hcnt
    refine ⟨i, hcnt, h.receiver, h.waiting, h.frames, h.acks, ?_, ?_⟩
    · show ∀ a, s.receiverLastAckedState = some a → _
      rw [l]; exact h.seen
    · show (rank sys.targets s.receiverCompleteStates :: _).Pairwise _
      rw [c]; exact h.order
  | endEncode results time ht s ff hst =>
    have hcnt := step_counts minihash (e := .endEncode results time) sys.sent h.counts (s1 := s) (ff := ff) hst
    cases ff with
    | none =>
      rw [Option.toList_none, List.append_nil] at hcnt
      obtain ⟨i, c, l, _⟩ := h.sender.endEncode hst (fun f hf => (nomatch hf))
      rw [Option.toList_none, List.map_nil, List.append_nil] at i
      simp only [Option.toList_none, List.append_nil]
      refine ⟨i, hcnt, h.receiver, h.waiting, h.frames, h.acks, ?_, ?_⟩
      · show ∀ a, s.receiverLastAckedState = some a → _
        rw [l]; exact h.seen
      · show (rank sys.targets s.receiverCompleteStates :: _).Pairwise _
        rw [c]; exact h.order
    | some f =>
      rw [Option.toList_some] at hcnt
      simp only [Option.toList_some] at hn hl ⊢
      have hns := target_not_seen hn h.receiver.handed_lt
      have htg : (sys.sent ++ [f]).map (·.targetState) = sys.targets ++ [f.targetState] := by rw [List.map_append]; rfl
      obtain ⟨i, c, l, hsrc⟩ := h.sender.endEncode hst (fun g hg => by
        have hg := Option.some.inj hg
        subst hg
        refine ⟨htg ▸ hn.fresh, fun hla => hns (h.seen _ hla)⟩)
      rw [Option.toList_some, List.map_singleton] at i
      have hfn : sys.sender.frameNo = sys.sent.length := h.counts.frameNo
      obtain ⟨has, hwh, _⟩ := endEncode_frame hst hm h.sender.connection ht (by
        rw [hfn]; rw [List.length_append] at hl; exact Nat.lt_of_le_of_lt (Nat.le_add_right _ _) hl)
      have hranks : ∀ l : List Nat, (∀ c, l.getLast? = some c → c ∈ sys.targets) → rank (sys.targets ++ [f.targetState]) l = rank sys.targets l :=
        fun l hl => rank_append _ hl
      refine ⟨?_, hcnt, h.receiver.grow f hn, h.waiting, ?_, ?_, ?_, ?_⟩
      · show SInv minihash initial ((sys.sent ++ [f]).map (·.targetState)) s
        rw [htg]; exact i
      · intro k g hg
        show _ ∧ _ ∧ (g.sourceState = initial ∨ g.sourceState ∈ (sys.sent ++ [f]).map (·.targetState))
        rw [htg]
        by_cases hk : k < sys.sent.length
        · rw [List.getElem?_append_left hk] at hg
          obtain ⟨a1, a2, a3⟩ := h.frames k g hg
          exact ⟨a1, a2, a3.imp id (List.mem_append_left _)⟩
        · have hkl : k = sys.sent.length := by
            have := (List.getElem?_eq_some_iff.mp hg).1
            rw [List.length_append] at this
            simp at this; omega
          subst hkl
          rw [List.getElem?_append_right (Nat.le_refl _), Nat.sub_self] at hg
          have hg := Option.some.inj hg
          rw [← hg, ← hfn]
          exact ⟨has, hwh, (hsrc f rfl).1.imp id (List.mem_append_left _)⟩
      · intro a ha
        obtain ⟨a1, a2, a3, a4, a5, a6⟩ := h.acks a ha
        refine ⟨a1, ?_, a3, a4, ?_, ?_⟩
        · show _ < (sys.sent ++ [f]).length
          rw [List.length_append]; exact Nat.lt_of_lt_of_le a2 (Nat.le_add_right _ _)
        · show _ ∈ (sys.sent ++ [f]).map (·.targetState) → _
          rw [htg]
          intro hin
          obtain hin | hin := List.mem_append.mp hin
          · exact a5 hin
          · rw [List.mem_singleton.mp hin] at a4; exact absurd a4 hns
        · intro c hc
          show _ ∈ (sys.sent ++ [f]).map (·.targetState)
          rw [htg]; exact List.mem_append_left _ (a6 c hc)
      · show ∀ a, s.receiverLastAckedState = some a → _
        rw [l]; exact h.seen
      · show (rank ((sys.sent ++ [f]).map (·.targetState)) s.receiverCompleteStates ::
          (sys.acks.map (fun a => rank ((sys.sent ++ [f]).map (·.targetState)) a.completeStates) ++
            [rank ((sys.sent ++ [f]).map (·.targetState)) sys.receiver.completeStates])).Pairwise (· ≤ ·)
        rw [htg, c, hranks _ h.sender.last, hranks _ h.rlast,
          List.map_congr_left (fun a ha => hranks a.completeStates (h.acks a ha).2.2.2.2.2)]
        exact h.order
  | data f hf p hp wire hw avg r ack hst =>
    obtain ⟨k, hk, hno, hfrag, hin⟩ := h.packet hf hp
    have hparse := fragment_parse hfrag hw
    obtain ⟨i, w, hrank, ⟨new, hnew⟩, hack⟩ := h.receiver.receive h.as h.whole h.waiting hparse hin hst hn
    have horder := h.order
    have hrlast : ∀ c, r.completeStates.getLast? = some c → c ∈ sys.targets :=
      fun _ hc => mem_sublist_take i.sub (List.mem_of_getLast? hc)
    have hseen : ∀ a, Seen P initial sys.receiver.handed a → Seen P initial r.handed a := by
      intro a ha; rw [hnew]; exact ha.mono
    refine ⟨h.sender, h.counts, i, w, h.frames, ?_, ?_, ?_⟩
    · intro a ha
      obtain ha | ha := List.mem_append.mp ha
      · obtain ⟨a1, a2, a3, a4, a5, a6⟩ := h.acks a ha
        exact ⟨a1, a2, a3, hseen _ a4, a5, a6⟩
      · obtain rfl | rfl := hack
        · exact absurd ha List.not_mem_nil
        · rw [Option.toList_some, List.mem_singleton] at ha
          subst ha
          refine ⟨rfl, ?_, ?_, i.hash, i.current, hrlast⟩
          · show p.frameNo < sys.sent.length
            rw [hno]; exact (List.getElem?_eq_some_iff.mp hk).1
          · show p.fragmentNo < 2 ^ 16
            exact Nat.lt_trans hfrag.number hfrag.fragmentsInThisFrame
    · intro a ha; exact hseen a (h.seen a ha)
    · show (rank sys.targets sys.sender.receiverCompleteStates ::
        ((sys.acks ++ ack.toList).map (fun a => rank sys.targets a.completeStates) ++ [rank sys.targets r.completeStates])).Pairwise (· ≤ ·)
      have hrank' : rank sys.targets sys.receiver.completeStates ≤ rank sys.targets r.completeStates := hrank
      generalize rank sys.targets sys.receiver.completeStates = x at horder hrank'
      have h0 : (rank sys.targets sys.sender.receiverCompleteStates ::
          (sys.acks.map (fun a => rank sys.targets a.completeStates) ++ [rank sys.targets r.completeStates])).Pairwise (· ≤ ·) := by
        rw [← List.cons_append, List.pairwise_append] at horder ⊢
        refine ⟨horder.1, by simp, ?_⟩
        intro a ha b hb
        rw [List.mem_singleton.mp hb]
        exact Nat.le_trans (horder.2.2 a ha x (by simp)) hrank'
      obtain rfl | rfl := hack
      · rw [Option.toList_none, List.append_nil]; exact h0
      · rw [Option.toList_some, List.map_append, List.map_singleton]
        rw [← List.cons_append, List.pairwise_append] at h0
        rw [List.append_assoc, ← List.cons_append, List.pairwise_append]
        refine ⟨h0.1, by simp, ?_⟩
        intro a ha b hb
        have : b = rank sys.targets r.completeStates := by simpa using hb
        rw [this]
        exact h0.2.2 a ha _ (by simp)
  | ack lost rest a ha s hst =>
    have hmem : a ∈ sys.acks := by rw [ha]; simp
    obtain ⟨a1, a2, a3, a4, a5, a6⟩ := h.acks a hmem
    have horder := h.order
    rw [ha, List.map_append, List.map_cons] at horder
    obtain ⟨o1, o2, o3⟩ := pairwise_drop horder
    have hne : sys.targets ≠ [] := by
      intro he
      have : sys.sent = [] := List.map_eq_nil_iff.mp he
      rw [this] at a2; exact absurd a2 (Nat.not_lt_zero _)
    obtain ⟨i, hor⟩ := h.sender.acknowledge hne a5 a6 o1 hst
    have hcnt := step_counts minihash (e := .ack a) sys.sent h.counts (s1 := s) (ff := none) (by rw [Sender.step, hst]; rfl)
    rw [Option.toList_none, List.append_nil] at hcnt
    refine ⟨i, hcnt, h.receiver, h.waiting, h.frames, ?_, ?_, ?_⟩
    · intro b hb; exact h.acks b (by rw [ha]; exact List.mem_append_right _ (List.mem_cons_of_mem _ hb))
    · intro b hb
      obtain rfl | ⟨_, e⟩ := hor
      · exact h.seen b hb
      · change s.receiverLastAckedState = some b at hb
        rw [e] at hb
        rw [← Option.some.inj hb]; exact a4
    · show (rank sys.targets s.receiverCompleteStates ::
        (rest.map (fun a => rank sys.targets a.completeStates) ++ [rank sys.targets sys.receiver.completeStates])).Pairwise (· ≤ ·)
      obtain rfl | ⟨e, _⟩ := hor
      · exact o3
      · rw [e]; exact o2

end

theorem reaches_sysInv (hm : ∀ e, minihash e < 2 ^ 32) {mode : OperationMode} {base : E} {d : D} {now : Int} (hb : minihash base = P.minihash d)
    {sys : System E D} (h : System.Reaches minihash P mode base d now sys) : SysInv minihash P (minihash base) sys := by
  induction h with
  | start => exact start_sysInv mode base d now hb
  | step h hs hn hl ih => exact ih.step hm hs hn hl

/-- **C29 (partial).** In a system in which frames and packets of frames may be lost, reordered and duplicated and acknowledgements may be lost but
not reordered, the state that the sender chooses as the base of the next frame is the initial one or one that a frame it sent leads to, and
it still has an encoder for it, which is in that state.  Missing: acknowledgements that overtake each other, for which the claim is false (see
`C29_reordered_acknowledgements_end_sender`), and accidents with hashes. -/
theorem C29_source_encoder_found_partial (hm : ∀ e, minihash e < 2 ^ 32) {mode : OperationMode} {base : E} {d : D} {start : Int}
    (hb : minihash base = P.minihash d) {sys : System E D} (h : System.Reaches minihash P mode base d start sys) (now : Int) :
    ∃ s source until_ e, sys.sender.cleanUp = some s ∧ s.select now = some (source, until_) ∧ s.encoders source = some e ∧ minihash e = source ∧
      (source = minihash base ∨ ∃ f ∈ sys.sent, f.targetState = source) := by
  have hi := reaches_sysInv hm hb h
  obtain ⟨s1, h1⟩ := hi.sender.cleanUp_total
  obtain ⟨i1, _⟩ := hi.sender.cleanUp h1
  obtain ⟨source, u, e, h2, h3, h4⟩ := i1.select now
  refine ⟨s1, source, u, e, h1, h2, h3, i1.key source e h3, ?_⟩
  obtain h | h := h4
  · exact Or.inl h
  · obtain ⟨f, hf, he⟩ := List.mem_map.mp h
    exact Or.inr ⟨f, hf, he⟩

theorem newCount_total {s : Sender E} {sent : List FragmentedFrame} (h : Counts s sent) (n : Nat) : ∃ c, s.newCount n = some c := by
  unfold Sender.newCount
  by_cases h0 : 0 < s.frameNo
  · rw [if_pos h0, h.count _ (by rw [← h.frameNo]; omega)]; exact ⟨_, rfl⟩
  · rw [if_neg h0]; exact ⟨_, rfl⟩

theorem chooseOutput_total (mode : OperationMode) (size skipped : Nat) (os : List (EncodeOutput E)) (hne : os ≠ []) (hl : os.length < MAX64) :
    chooseOutput mode size skipped os = some none ∨ ∃ best o, chooseOutput mode size skipped os = some (some best) ∧ os[best]? = some o := by
  have hpos : 0 < os.length := List.length_pos_iff.mpr hne
  by_cases hm : mode = .conventional
  · subst hm
    exact Or.inr ⟨0, os[0], rfl, List.getElem?_eq_getElem hpos⟩
  · rw [chooseOutput_eq mode hm]
    unfold chooseWith
    generalize MAX64 = M at *
    obtain ⟨last, hlast⟩ : ∃ x, os.getLast? = some x := ⟨_, List.getLast?_eq_some_getLast hne⟩
    obtain ⟨h1, _⟩ | ⟨k, o, h1, h2, _⟩ := bestOutput_spec size os 0 M M
    · rw [if_pos h1, hlast]
      show (if skipped < 3 ∨ last.jobName ≠ .failSmall then some none else some (some (os.length - 1))) = _ ∨ ∃ best o,
        (if skipped < 3 ∨ last.jobName ≠ .failSmall then some none else some (some (os.length - 1))) = _ ∧ _
      by_cases hc : skipped < 3 ∨ last.jobName ≠ .failSmall
      · rw [if_pos hc]; exact Or.inl rfl
      · rw [if_neg hc]
        exact Or.inr ⟨os.length - 1, last, rfl, by rw [← List.getLast?_eq_getElem?]; exact hlast⟩
    · rw [Nat.zero_add] at h1
      have hk := (List.getElem?_eq_some_iff.mp h2).1
      rw [h1, if_neg (by omega)]
      exact Or.inr ⟨k, o, rfl, h2⟩

theorem System.Reaches.receiver {mode : OperationMode} {base : E} {d : D} {start : Int} {sys : System E D}
    (h : System.Reaches minihash P mode base d start sys) : Receiver.Reaches P d sys.receiver := by
  induction h with
  | start => exact .start
  | step h hs hn hl ih =>
    cases hs with
    | startEncode => exact ih
    | endEncode => exact ih
    | ack => exact ih
    | data f hf p hp wire hw avg r ack hst => exact .step ih hst

/-- **C60.** In the same system neither program ends: starting an encode, ending one with a non-empty result of less than 65536 packets for each job,
receiving an acknowledgement that is on its way, and receiving any packet of any frame that was sent all return, if no decoder that can come about
throws on the first packets of a frame.  (The mode `conventional` divides by the reported delay, which may be zero: see `C60_zero_delay_ends_conventional_sender`.) -/
theorem C60_neither_side_ends_partial (hm : ∀ e, minihash e < 2 ^ 32) {mode : OperationMode} {base : E} {d : D} {start : Int}
    (hb : minihash base = P.minihash d) {sys : System E D} (h : System.Reaches minihash P mode base d start sys) :
    (∀ now cc due, ¬ (sys.sender.mode = .conventional ∧ due = true ∧ sys.sender.avgDelay = 0) → ∃ s, sys.sender.startEncode now cc due = some s) ∧
    (∀ results time, sys.sender.jobs ≠ [] → results.length = sys.sender.jobs.length → results.length < MAX64 →
      (∀ r ∈ results, r.2 ≠ [] ∧ r.2.length ≤ 65535 * 1400) → ∃ x, sys.sender.endEncode minihash results time = some x) ∧
    (∀ a ∈ sys.acks, ∃ s, sys.sender.acknowledge a = some s) ∧
    (∀ f ∈ sys.sent, ∀ p ∈ f.fragments, ∃ wire, p.toBytes = some wire ∧ ∀ avg,
      (∀ g ∈ sys.sent, ∀ x n, P.Occurs d x → ((g.fragments.map (·.payload)).flatten).take (1400 * n) ≠ [] →
        P.decode x (((g.fragments.map (·.payload)).flatten).take (1400 * n)) ≠ none) →
      (∀ r, sys.receiver.skipTo P f.frameNo = some r → System.NoAccident P (minihash base) sys.sent r.handed) →
      ∃ r ack, sys.receiver.receive P wire avg = some (r, ack)) := by
  have hi := reaches_sysInv hm hb h
  refine ⟨fun now cc due hd => hi.sender.startEncode_total now cc due hd, ?_, ?_, ?_⟩
  · intro results time hj hr hlt hres
    obtain ⟨os, hos⟩ : ∃ os, os = List.zipWith (EncodeJob.output minihash) sys.sender.jobs results := ⟨_, rfl⟩
    have hlen : os.length = results.length := by rw [hos, List.length_zipWith]; omega
    have hpos : 0 < sys.sender.jobs.length := List.length_pos_iff.mpr hj
    have hsize : ∃ size, sys.sender.frameSize = some size := by
      unfold Sender.frameSize
      by_cases hd : sys.sender.avgDelay ≠ 2 ^ 32 - 1
      · rw [if_pos hd]
        have hne : sys.sent ≠ [] := fun he => hi.sender.delay hd (by unfold System.targets; rw [he]; rfl)
        have : sys.sender.cumulativeFpf ≠ [] := by
          intro he
          have := hi.counts.length
          rw [he] at this
          exact hne (List.length_eq_zero_iff.mp this.symm)
        rw [List.getLast?_eq_some_getLast this]; exact ⟨_, rfl⟩
      · rw [if_neg hd]; exact ⟨_, rfl⟩
    obtain ⟨size, hsize⟩ := hsize
    unfold Sender.endEncode
    rw [hsize, ← hos]
    show ∃ x, (chooseOutput sys.sender.mode size sys.sender.skippedCount os).bind _ = some x
    obtain hc | ⟨best, o, hc, ho⟩ := chooseOutput_total sys.sender.mode size sys.sender.skippedCount os
      (List.length_pos_iff.mp (by omega)) (by rw [hlen]; exact hlt)
    · rw [hc]; exact ⟨_, rfl⟩
    · rw [hc]
      show ∃ x, (os[best]?).bind _ = some x
      rw [ho]
      obtain ⟨j, r, _, hrk, hoe⟩ := zipWith_get _ _ _ _ _ (hos ▸ ho)
      obtain ⟨hr1, hr2⟩ := hres r (List.mem_of_getElem? hrk)
      have hof : o.frame = r.2 := by rw [hoe]; rfl
      obtain ⟨g, hg, _⟩ := C23_fragmentation o.frame sys.sender.connectionId o.sourceMinihash (minihash o.encoder) sys.sender.frameNo time o.frame.length
        (by rw [hof]; exact List.length_pos_iff.mpr hr1) (by rw [hof]; exact hr2) (by omega)
      show ∃ x, (FragmentedFrame.outgoing o.frame.length _ _ _ _ _ _).bind _ = some x
      rw [hg]
      obtain ⟨c, hcount⟩ := newCount_total hi.counts g.fragmentsInThisFrame
      show ∃ x, (sys.sender.newCount g.fragmentsInThisFrame).bind _ = some x
      rw [hcount]
      exact ⟨_, rfl⟩
  · intro a ha
    obtain ⟨_, h2, _⟩ := hi.acks a ha
    unfold Sender.acknowledge
    by_cases hc : a.connectionId ≠ sys.sender.connectionId
    · rw [if_pos hc]; exact ⟨_, rfl⟩
    rw [if_neg hc]
    have hseq : ∃ seq, ackSeqNo a.frameNo a.fragmentNo sys.sender.cumulativeFpf = some seq := by
      unfold ackSeqNo
      by_cases h0 : 0 < a.frameNo
      · rw [if_pos h0, hi.counts.count _ (by omega)]; exact ⟨_, rfl⟩
      · rw [if_neg h0]; exact ⟨_, rfl⟩
    obtain ⟨seq, hseq⟩ := hseq
    rw [hseq]
    show ∃ s, (if sys.sender.lastAcked ≠ MAX64 ∧ seq < sys.sender.lastAcked then _ else _) = some s
    by_cases hl : sys.sender.lastAcked ≠ MAX64 ∧ seq < sys.sender.lastAcked
    · rw [if_pos hl]; exact ⟨_, rfl⟩
    · rw [if_neg hl]; exact ⟨_, rfl⟩
  · intro f hf p hp
    obtain ⟨k, hk, hno, hfrag, hin⟩ := hi.packet hf hp
    obtain ⟨wire, hw, hparse⟩ := C20_packet_round_trip p hfrag
    refine ⟨wire, hw, fun avg hdec hacc => ?_⟩
    have hfno : f.frameNo = p.frameNo := by rw [hno]; exact hi.counts.numbers k f hk
    have hdec' : ∀ k x n, P.Occurs d x → (sentAt sys.sent k).whole.take (1400 * n) ≠ [] → P.decode x ((sentAt sys.sent k).whole.take (1400 * n)) ≠ none := by
      intro k x n hx hne
      cases hk' : sys.sent[k]? with
      | some g => rw [sentAt_some hk'] at hne ⊢; exact hdec g (List.mem_of_getElem? hk') x _ hx hne
      | none =>
        rw [sentAt_none hk'] at hne
        exact absurd List.take_nil hne
    obtain ⟨r, ack, hr, _⟩ := hi.receiver.survives hi.as hi.waiting avg hparse hin (reaches_held P (System.Reaches.receiver h)) hdec' (by
      rw [hno, sentAt_some hk]; exact (hi.frames k f hk).2.2) (fun r1 h1 => hacc r1 (by rw [hfno]; exact h1))
    exact ⟨r, ack, hr⟩

/-- **C60, what the receiver advertises.** In the same system every state the receiver advertises is that of a frame it was sent, in the order of the
frames, and it has a decoder in that state; and if its own state is that of any frame at all, it is the last one advertised. -/
theorem C60_advertised_states_partial (hm : ∀ e, minihash e < 2 ^ 32) {mode : OperationMode} {base : E} {d : D} {start : Int}
    (hb : minihash base = P.minihash d) {sys : System E D} (h : System.Reaches minihash P mode base d start sys) :
    sys.receiver.completeStates.Sublist ((sys.sent.map (·.targetState)).take sys.receiver.nextFrameNo) ∧
    (∀ s ∈ sys.receiver.completeStates, ∃ x, sys.receiver.decoders s = some x ∧ P.minihash x = s) ∧
    (P.minihash sys.receiver.player ∈ sys.sent.map (·.targetState) → sys.receiver.completeStates.getLast? = some (P.minihash sys.receiver.player)) := by
  have hi := reaches_sysInv hm hb h
  refine ⟨hi.receiver.sub, ?_, ?_⟩
  · have hfresh : Receiver.ReachesFresh P (fun _ => True) d sys.receiver := by
      clear hi
      induction h with
      | start => exact .start
      | step h hs hn hl ih =>
        have hi' := (reaches_sysInv hm hb h).step hm hs hn hl
        have hnod := hi'.receiver.sub.nodup ((List.take_sublist _ _).nodup (List.nodup_cons.mp hn.fresh).2)
        cases hs with
        | startEncode => exact ih
        | endEncode => exact ih
        | ack => exact ih
        | data f hf p hp wire hw avg r ack hst => exact .step ih trivial hst hnod
    exact C28_advertised_states_available_partial P d hfresh
  · rw [← hi.receiver.ok.current]; exact hi.receiver.current

end Alfalfa
