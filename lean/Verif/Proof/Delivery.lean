import Verif.Props.Broadcast

/-! The packets of one frame that arrive one after the other. -/

namespace Alfalfa

/-- The slot is filled. -/
def FragmentedFrame.Has (g : FragmentedFrame) (j : Nat) : Prop := ∃ q, g.fragments[j]? = some q ∧ q.valid = true

theorem addPacket_has {f g : FragmentedFrame} {p : Packet} (hp : p.valid = true) (h : f.addPacket p = (g, none)) :
    g.Has p.fragmentNo ∧ ∀ j, f.Has j → g.Has j := by
  unfold FragmentedFrame.addPacket at h
  split at h
  · exact nomatch h
  · split at h
    · exact nomatch h
    · next old ho =>
      obtain ⟨hlt, -⟩ := List.getElem?_eq_some_iff.1 ho
      split at h
      · next hv =>
        cases h
        exact ⟨⟨old, ho, hv⟩, fun _ h => h⟩
      · cases h
        refine ⟨⟨p, by simp [hlt], hp⟩, fun j ⟨q, h1, h2⟩ => ?_⟩
        by_cases hj : p.fragmentNo = j
        · subst hj
          exact ⟨p, by simp [hlt], hp⟩
        · exact ⟨q, by simp [List.getElem?_set_ne hj, h1], h2⟩

theorem incoming_has {c : Nat} {g : FragmentedFrame} {p : Packet} (hp : p.valid = true) (h : FragmentedFrame.incoming c p = .ok g) : g.Has p.fragmentNo := by
  unfold FragmentedFrame.incoming at h
  dsimp only at h
  split at h
  · exact nomatch h
  · split at h
    · exact nomatch h
    · next g' hg =>
      cases h
      exact (addPacket_has hp hg).1

theorem all_complete {f : FragmentedFrame} {s : SentFrame} {c k : Nat} (h : FromSent f s c k) (hh : ∀ j, j < s.packets.length → f.Has j) : f.complete = true := by
  obtain ⟨ds, hd, -⟩ := h.holds
  unfold FragmentedFrame.complete
  rw [beq_iff_eq, hd.remaining, List.countP_eq_zero]
  intro q hq
  obtain ⟨j, hj⟩ := List.mem_iff_getElem?.1 hq
  obtain ⟨hlt, -⟩ := List.getElem?_eq_some_iff.1 hj
  obtain ⟨q', h1, h2⟩ := hh j (by rw [← h.length]; exact hlt)
  rw [hj] at h1
  cases h1
  simp [h2]

theorem receive_collects {D : Type} (P : Playing D) {sent : List FragmentedFrame}
    (hsent : ∀ (k : Nat) (f : FragmentedFrame), sent[k]? = some f → (sentFrame f).As 1337 k ∧ (sentFrame f).whole ≠ [])
    {r r' : Receiver D} {wire : List UInt8} {avg : Nat} {ack : Option AckPacket} (hw : GenuineWire (sentAt sent) wire) (hg : r.Genuine (sentAt sent))
    (hne : ∀ k f, r.fragmentedFrames k = some f → (sentAt sent k).packets ≠ []) {k : Nat}
    {p : Packet} (hparse : Packet.parse wire = .ok p) (hpk : p.frameNo = k) (hv : p.valid = true) (hle : r.nextFrameNo ≤ k)
    (h : r.receive P wire avg = some (r', ack)) :
    r'.nextFrameNo = k + 1 ∨ (r'.nextFrameNo = k ∧ r'.decoders = r.decoders ∧ r'.initialState = r.initialState ∧
      (r.nextFrameNo = k → r'.player = r.player ∧ r'.handed = r.handed) ∧ ∃ g, r'.fragmentedFrames k = some g ∧
      g.complete = false ∧ g.Has p.fragmentNo ∧ ∀ g0, r.fragmentedFrames k = some g0 → ∀ j, g0.Has j → g.Has j) := by
  subst hpk
  have has := sentAt_as hsent
  obtain ⟨p', hp, ⟨hlt, _, _⟩ | ⟨-, ra, rb, ha, hb, hc, _⟩⟩ := receive_spec P h
  · rw [hparse] at hp; cases hp; omega
  rw [hparse] at hp; cases hp
  obtain ⟨n1, i1, -, d1, -, f1, -⟩ := skipTo_spec P hle ha
  have f1 : ra.fragmentedFrames p.frameNo = r.fragmentedFrames p.frameNo := by rw [f1, if_neg (by omega)]
  obtain ⟨g, rfl, -, hg'⟩ := addPacket_spec hb
  have key : ∃ f, g p.frameNo = some f ∧ f.Has p.fragmentNo ∧ ∀ g0, r.fragmentedFrames p.frameNo = some g0 → ∀ j, g0.Has j → f.Has j := by
    rcases hg' with ⟨f, f', a1, a2, a3⟩ | ⟨a1, f', a2, a3⟩
    · obtain ⟨b1, b2⟩ := addPacket_has hv a2
      refine ⟨f', a3, b1, fun g0 h0 j hj => ?_⟩
      rw [← f1, a1] at h0
      cases h0
      exact b2 j hj
    · refine ⟨f', a3, incoming_has hv a2, fun g0 h0 => ?_⟩
      rw [← f1, a1] at h0; exact nomatch h0
  obtain ⟨f, k1, k2, k3⟩ := key
  have hfin := hc
  obtain rfl | ⟨f', frame, r1, r2, -, -, -, -, -, rfl⟩ := finishFrame_spec P hc
  · right
    refine ⟨n1, d1, i1, fun heq => ?_, f, k1, ?_, k2, k3⟩
    · unfold Receiver.skipTo at ha
      rw [if_neg (by omega)] at ha
      cases ha
      exact ⟨rfl, rfl⟩
    -- had it been complete, the number would have gone up
    by_contra hcomp
    have hcomp : f.complete = true := by simpa using hcomp
    unfold Receiver.finishFrame at hfin
    have k1' : ({ ra with fragmentedFrames := g } : Receiver D).fragmentedFrames ({ ra with fragmentedFrames := g } : Receiver D).nextFrameNo = some f := by
      show g ra.nextFrameNo = _
      rw [n1]; exact k1
    rw [k1'] at hfin
    dsimp only at hfin
    rw [if_pos hcomp] at hfin
    obtain ⟨r1, h1, hfin⟩ := Option.bind_eq_some_iff.mp hfin
    obtain ⟨frame, h2, hfin⟩ := Option.bind_eq_some_iff.mp hfin
    obtain ⟨r2, h3, hfin⟩ := Option.bind_eq_some_iff.mp hfin
    have hn := congrArg Receiver.nextFrameNo (Option.some.inj hfin)
    obtain ⟨d, c, e1, _⟩ := loadSource_spec ({ ra with fragmentedFrames := g } : Receiver D) f.sourceState
    obtain ⟨cs, ds, e2, _⟩ := prune_spec h1
    have e1n : r1.nextFrameNo = ra.nextFrameNo := by rw [e2, e1]
    have e2n : r2.nextFrameNo = r1.nextFrameNo := by
      obtain ⟨_, rfl⟩ | ⟨_, d, _, rfl⟩ := enqueueFrame_eq P h3 <;> rfl
    have e3n : (r2.saveState P f.targetState).nextFrameNo = r2.nextFrameNo := by
      unfold Receiver.saveState
      dsimp only
      split <;> rfl
    have hn : (r2.saveState P f.targetState).nextFrameNo + 1 = ra.nextFrameNo := hn
    omega
  · left
    show ra.nextFrameNo + 1 = _
    omega

/-- What becomes of a receiver that gets packets of the frame `k` only. -/
theorem run_collects {D : Type} (P : Playing D) {d : D} {sent : List FragmentedFrame}
    (hsent : ∀ (k : Nat) (f : FragmentedFrame), sent[k]? = some f → (sentFrame f).As 1337 k ∧ (sentFrame f).whole ≠ [])
    {k : Nat} {f : FragmentedFrame} (hf : sent[k]? = some f) : ∀ {ws : List (List UInt8 × Nat)} {r r' : Receiver D} (_ : Receiver.Reaches P d r)
    (_ : r.Genuine (sentAt sent)) (_ : ∀ k f, r.fragmentedFrames k = some f → (sentAt sent k).packets ≠ [])
    (_ : ∀ w ∈ ws, ∃ p ∈ f.fragments, p.toBytes = some w.1) (_ : r.nextFrameNo ≤ k) (_ : r.run P ws = some r'),
    (∃ x z, r'.nextFrameNo = k + 1 ∧ Receiver.Reaches P d r' ∧ r'.handed.getLast? = some (k, x, (f.fragments.map (·.payload)).flatten) ∧
      P.decode x (f.fragments.map (·.payload)).flatten = some z ∧
      r'.player = z ∧ (r.decoders f.sourceState ≠ none → P.minihash x = f.sourceState) ∧
      (P.minihash z = f.targetState → f.targetState ≠ P.minihash d → f.targetState ∈ r'.completeStates ∧ r'.decoders f.targetState ≠ none) ∧
      (r.nextFrameNo = k → x = r.player ∨ r.decoders f.sourceState = some x)) ∨
    (r'.nextFrameNo ≤ k ∧ (∀ g, r.fragmentedFrames k = some g → ∃ g', r'.fragmentedFrames k = some g' ∧ ∀ j, g.Has j → g'.Has j) ∧
      (∀ w ∈ ws, ∀ p ∈ f.fragments, p.toBytes = some w.1 → ∃ g', r'.fragmentedFrames k = some g' ∧ g'.complete = false ∧ FromSent g' (sentFrame f) 1337 k ∧
        g'.Has p.fragmentNo))
  | [], r, r', hr, hg, hne, hw, hle, h => by
    cases h
    exact .inr ⟨hle, fun g hg => ⟨g, hg, fun _ h => h⟩, fun w hw => nomatch hw⟩
  | w :: ws, r, r', hr, hg, hne, hw, hle, h => by
    obtain ⟨wire, avg⟩ := w
    obtain ⟨⟨r1, ack⟩, h1, h2⟩ := Option.bind_eq_some_iff.1 h
    change r1.run P ws = some r' at h2
    obtain ⟨p, hp, hpw⟩ := hw _ (List.mem_cons_self ..)
    have has := (hsent k f hf).1
    have hparse := fragment_parse (has.cut.fragment has.connection has.source has.target has.number has.time has.count p hp) hpw
    have hsame := has.cut.same p hp
    have hgw := sent_genuine hsent (List.mem_of_getElem? hf) hp hpw
    have hr1 : Receiver.Reaches P d r1 := .step hr h1
    obtain ⟨hg1, hne1⟩ := receive_genuine P (sentAt_as hsent) hgw hg hne h1
    obtain ⟨hok, hin⟩ := reaches_ok P hr
    have hpk : p.frameNo = k := hsame.2.2.2.2
    rcases receive_collects P hsent hgw hg hne hparse hpk hsame.1 hle h1 with hfin | ⟨c1, c2, c3, c8, g, c4, c5, c6, c7⟩
    · left
      obtain ⟨x, z, k1, k2, k3, k4, k5, k6⟩ := receive_finishes P hsent hgw hg hne hok hf hparse hpk hle h1 hfin
      have old : ∀ {ws : List (List UInt8 × Nat)}, (∀ w ∈ ws, ∃ p ∈ f.fragments, p.toBytes = some w.1) → r1.run P ws = some r' → r' = r1 := by
        intro ws hw h
        induction ws with
        | nil => cases h; rfl
        | cons w ws ih =>
          obtain ⟨wire, avg⟩ := w
          obtain ⟨q, hq, hqw⟩ := hw _ (List.mem_cons_self ..)
          have hqp := fragment_parse (has.cut.fragment has.connection has.source has.target has.number has.time has.count q hq) hqw
          have hqk : q.frameNo = k := (has.cut.same q hq).2.2.2.2
          obtain ⟨⟨r2, ack⟩, h1, h2⟩ := Option.bind_eq_some_iff.1 h
          rw [C27_old_packet P r1 q wire avg hqp (by omega)] at h1
          cases h1
          exact ih (fun w h => hw w (List.mem_cons_of_mem _ h)) h2
      have := old (fun w h => hw w (List.mem_cons_of_mem _ h)) h2
      rw [this]
      rw [hin] at k5
      exact ⟨x, z, hfin, hr1, k1, k2, k3, k4, k5, k6⟩
    · rcases run_collects P hsent hf hr1 hg1 hne1 (fun w h => hw w (List.mem_cons_of_mem _ h)) c1.le h2 with hl | ⟨e1, e2, e3⟩
      · left
        rw [c2] at hl
        obtain ⟨x, z, l1, l2, l3, l4, l5, l6, l7, l8⟩ := hl
        exact ⟨x, z, l1, l2, l3, l4, l5, l6, l7, fun heq => by rw [← (c8 heq).1]; exact l8 c1⟩
      · right
        obtain ⟨g', e4, e5⟩ := e2 g c4
        refine ⟨e1, fun g0 h0 => ⟨g', e4, fun j hj => e5 j (c7 g0 h0 j hj)⟩, fun w hm q hq hqw => ?_⟩
        rcases List.mem_cons.1 hm with rfl | hm
        · have hqp := fragment_parse (has.cut.fragment has.connection has.source has.target has.number has.time has.count q hq) hqw
          rw [hparse] at hqp
          cases hqp
          -- the assembly at the end
          have hcomp : g'.complete = false ∧ FromSent g' (sentFrame f) 1337 k := by
            cases ws with
            | nil =>
              cases h2
              rw [c4] at e4; cases e4
              have := hg1.frames k g c4
              rw [sentAt_some hf] at this
              exact ⟨c5, this⟩
            | cons w' ws' =>
              obtain ⟨p', hp', hpw'⟩ := hw w' (List.mem_cons_of_mem _ (List.mem_cons_self ..))
              obtain ⟨g2, y1, y2, y3, -⟩ := e3 w' (List.mem_cons_self ..) p' hp' hpw'
              rw [e4] at y1; cases y1
              exact ⟨y2, y3⟩
          exact ⟨g', e4, hcomp.1, hcomp.2, e5 _ c6⟩
        · exact e3 w hm q hq hqw

/-- Packets of the next frame do not end the receiver, if no single one can. -/
theorem run_total {D : Type} (P : Playing D) {sent : List FragmentedFrame} {I : Receiver D → Prop} {k : Nat} {f : FragmentedFrame}
    (hsent : ∀ (k : Nat) (f : FragmentedFrame), sent[k]? = some f → (sentFrame f).As 1337 k ∧ (sentFrame f).whole ≠ []) (hf : sent[k]? = some f)
    (hg : ∀ r, I r → r.Genuine (sentAt sent) ∧ ∀ k f, r.fragmentedFrames k = some f → (sentAt sent k).packets ≠ [])
    (hone : ∀ r, I r → r.nextFrameNo = k → ∀ p ∈ f.fragments, ∀ wire, p.toBytes = some wire → ∀ avg, ∃ r' ack, r.receive P wire avg = some (r', ack))
    (hstep : ∀ r, I r → r.nextFrameNo = k → ∀ p ∈ f.fragments, ∀ wire, p.toBytes = some wire → ∀ avg r' ack, r.receive P wire avg = some (r', ack) →
      r'.handed = r.handed → I r') :
    ∀ {ws : List (List UInt8 × Nat)} {r : Receiver D}, (I r ∧ r.nextFrameNo = k) ∨ k < r.nextFrameNo →
    (∀ w ∈ ws, ∃ p ∈ f.fragments, p.toBytes = some w.1) → ∃ r', r.run P ws = some r'
  | [], r, _, _ => ⟨r, rfl⟩
  | (wire, avg) :: ws, r, hr, hw => by
    obtain ⟨p, hp, hpw⟩ := hw _ (List.mem_cons_self ..)
    have has := (hsent k f hf).1
    have hparse := fragment_parse (has.cut.fragment has.connection has.source has.target has.number has.time has.count p hp) hpw
    have hsame := has.cut.same p hp
    have hpk : p.frameNo = k := hsame.2.2.2.2
    have hw' := fun w h => hw w (List.mem_cons_of_mem _ h)
    rcases hr with ⟨hi, hk⟩ | hk
    · obtain ⟨r1, ack, h1⟩ := hone r hi hk p hp wire hpw avg
      have hgw := sent_genuine hsent (List.mem_of_getElem? hf) hp hpw
      have : (I r1 ∧ r1.nextFrameNo = k) ∨ k < r1.nextFrameNo := by
        rcases receive_collects P hsent hgw (hg r hi).1 (hg r hi).2 hparse hpk hsame.1 hk.le h1 with h | ⟨c1, -, -, c2, -⟩
        · right; omega
        · left; exact ⟨hstep r hi hk p hp wire hpw avg r1 ack h1 (c2 hk).2, c1⟩
      obtain ⟨r', h2⟩ := run_total P hsent hf hg hone hstep this hw'
      exact ⟨r', by rw [Receiver.run, h1]; exact h2⟩
    · obtain ⟨r', h2⟩ := run_total P hsent hf hg hone hstep (.inr hk) hw'
      refine ⟨r', ?_⟩
      rw [Receiver.run, C27_old_packet P r p wire avg hparse (by omega)]
      exact h2

end Alfalfa
