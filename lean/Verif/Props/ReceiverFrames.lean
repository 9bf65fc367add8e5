import Verif.Spec.Receiver
import Verif.Props.ReceiverStates

/-! What the receiver hands to its decoder (C27), and what ends it (C59). -/

namespace Alfalfa

variable {D : Type} (P : Playing D)

/-- The assembly was made from packets of the frame. -/
structure FromSent (f : FragmentedFrame) (s : SentFrame) (c k : Nat) : Prop where
  connection : f.connectionId = c
  source : f.sourceState = s.source
  target : f.targetState = s.target
  number : f.frameNo = k
  count : f.fragmentsInThisFrame = s.packets.length
  holds : ∃ ds, f.Holds ds ∧ ∀ q ∈ ds, q ∈ s.packets

theorem FromSent.accepts {f : FragmentedFrame} {s : SentFrame} {c k : Nat} (h : FromSent f s c k) (hs : s.As c k) {p : Packet} (hp : p ∈ s.packets) :
    f.Accepts p := by
  obtain ⟨_, a1, a2, a3, a4⟩ := hs.cut.same p hp
  obtain ⟨j, hj, rfl⟩ := List.mem_iff_getElem.mp hp
  have hnum := hs.cut.number j _ (List.getElem?_eq_getElem hj)
  exact ⟨a1.trans h.connection.symm, a2.trans h.source.symm, a3.trans h.target.symm, a4.trans h.number.symm,
    (hs.cut.announced _ hp).trans h.count.symm, by rw [hnum, h.count]; exact hj⟩

theorem addPacket_fields (f : FragmentedFrame) (p : Packet) : (f.addPacket p).1.connectionId = f.connectionId ∧
    (f.addPacket p).1.sourceState = f.sourceState ∧ (f.addPacket p).1.targetState = f.targetState ∧ (f.addPacket p).1.frameNo = f.frameNo ∧
    (f.addPacket p).1.fragmentsInThisFrame = f.fragmentsInThisFrame := by
  unfold FragmentedFrame.addPacket
  by_cases h : f.insane p = true
  · rw [if_pos h]; exact ⟨rfl, rfl, rfl, rfl, rfl⟩
  · rw [if_neg h]
    cases f.fragments[p.fragmentNo]? with
    | none => exact ⟨rfl, rfl, rfl, rfl, rfl⟩
    | some old =>
      dsimp only
      by_cases hv : old.valid = true
      · rw [if_pos hv]; exact ⟨rfl, rfl, rfl, rfl, rfl⟩
      · rw [if_neg hv]; exact ⟨rfl, rfl, rfl, rfl, rfl⟩

/-- A genuine packet is taken in. -/
theorem FromSent.add {f : FragmentedFrame} {s : SentFrame} {c k : Nat} (h : FromSent f s c k) (hs : s.As c k) {p : Packet} (hp : p ∈ s.packets) :
    ∃ g, f.addPacket p = (g, none) ∧ FromSent g s c k := by
  have ha := h.accepts hs hp
  obtain ⟨ds, hd, hin⟩ := h.holds
  obtain ⟨h1, h2, h3, h4⟩ := addPacket_holds hd (h.count ▸ hs.count) p (hs.cut.same p hp).1
  rw [(insane_iff f p).mpr ha, if_neg (by simp)] at h4
  obtain ⟨e1, e2, e3, e4, e5⟩ := addPacket_fields f p
  refine ⟨(f.addPacket p).1, Prod.ext rfl h4, e1.trans h.connection, e2.trans h.source, e3.trans h.target, e4.trans h.number, e5.trans h.count, _, h1, ?_⟩
  intro q hq
  obtain hq | hq := List.mem_append.mp hq
  · exact hin q hq
  · rw [List.mem_singleton.mp hq]; exact hp

theorem FromSent.incoming {s : SentFrame} {c k : Nat} (hs : s.As c k) {p : Packet} (hp : p ∈ s.packets) :
    ∃ f, FragmentedFrame.incoming c p = .ok f ∧ FromSent f s c k := by
  have hfrag := hs.cut.fragment hs.connection hs.source hs.target hs.number hs.time hs.count p hp
  obtain ⟨_, a1, a2, a3, a4⟩ := hs.cut.same p hp
  obtain ⟨f, h1, h2, h3, h4⟩ := incoming_holds c p hfrag a1
  refine ⟨f, h1, by rw [← h4.connectionId, a1], by rw [← h4.sourceState, a2], by rw [← h4.targetState, a3], by rw [← h4.frameNo, a4],
    by rw [← h4.fragments, hs.cut.announced p hp], [p], h2, ?_⟩
  intro q hq
  rw [List.mem_singleton.mp hq]; exact hp

/-- The slots of the assembly are packets of the frame, each in its place. -/
theorem FromSent.slot {f : FragmentedFrame} {s : SentFrame} {c k : Nat} (h : FromSent f s c k) (hs : s.As c k) (j : Nat) (hj : j < s.packets.length)
    (hj' : j < f.fragments.length) (hv : f.fragments[j].valid = true) : f.fragments[j] = s.packets[j] := by
  obtain ⟨ds, hd, hin⟩ := h.holds
  obtain h0 | ⟨h1, h2, h3⟩ := hd.slots j _ (List.getElem?_eq_getElem hj')
  · rw [hv] at h0; exact nomatch h0
  · obtain ⟨i, hi, he⟩ := List.mem_iff_getElem.mp (hin _ h1)
    have hnum := hs.cut.number i _ (List.getElem?_eq_getElem hi)
    rw [he, h2] at hnum
    subst hnum
    exact he.symm

theorem FromSent.length {f : FragmentedFrame} {s : SentFrame} {c k : Nat} (h : FromSent f s c k) : f.fragments.length = s.packets.length := by
  obtain ⟨ds, hd, _⟩ := h.holds
  exact hd.length.trans h.count

theorem FromSent.frame {f : FragmentedFrame} {s : SentFrame} {c k : Nat} (h : FromSent f s c k) (hs : s.As c k) (hc : f.complete = true) :
    f.frame = .ok s.whole := by
  have heq : f.fragments = s.packets := by
    refine List.ext_getElem h.length fun j hj hj' => h.slot hs j hj' hj ?_
    obtain ⟨ds, hd, _⟩ := h.holds
    unfold FragmentedFrame.complete at hc
    rw [beq_iff_eq, hd.remaining, List.countP_eq_zero] at hc
    simpa using hc _ (List.getElem_mem hj)
  unfold FragmentedFrame.frame
  rw [if_neg (not_not.mpr hc), heq, hs.cut.payloads]

theorem takeWhile_eq_take {α : Type} (p : α → Bool) (l : List α) : ∃ n, n ≤ l.length ∧ l.takeWhile p = l.take n ∧ ∀ a ∈ l.take n, p a = true := by
  induction l with
  | nil => exact ⟨0, Nat.le_refl _, rfl, fun a h => absurd h List.not_mem_nil⟩
  | cons a l ih =>
    by_cases ha : p a = true
    · obtain ⟨n, h1, h2, h3⟩ := ih
      refine ⟨n + 1, Nat.succ_le_succ h1, by rw [List.takeWhile_cons, ha, h2]; rfl, ?_⟩
      intro b hb
      rw [List.take_succ_cons] at hb
      obtain rfl | hb := List.mem_cons.mp hb
      · exact ha
      · exact h3 b hb
    · refine ⟨0, Nat.zero_le _, ?_, fun a h => absurd h List.not_mem_nil⟩
      rw [List.takeWhile_cons, if_neg ha]; rfl

theorem FromSent.partialFrame {f : FragmentedFrame} {s : SentFrame} {c k : Nat} (h : FromSent f s c k) (hs : s.As c k) :
    ∃ n, n ≤ s.packets.length ∧ f.partialFrame = s.whole.take (1400 * n) := by
  obtain ⟨n, h1, h2, h3⟩ := takeWhile_eq_take (·.valid) f.fragments
  refine ⟨n, h.length ▸ h1, ?_⟩
  have htake : f.fragments.take n = s.packets.take n := by
    refine List.ext_getElem (by simp [h.length]) fun j hj hj' => ?_
    have hm := List.getElem_mem hj
    rw [List.length_take] at hj hj'
    have hv := h3 _ hm
    rw [List.getElem_take] at hv
    rw [List.getElem_take, List.getElem_take]
    exact h.slot hs j (by omega) (by omega) hv
  unfold FragmentedFrame.partialFrame
  rw [h2, htake, hs.cut.prefix n (h.length ▸ h1)]

/-- All assemblies come from the frames sent, and so does all that was handed to the decoder. -/
structure Receiver.Genuine (sent : Nat → SentFrame) (r : Receiver D) : Prop where
  frames : ∀ k f, r.fragmentedFrames k = some f → FromSent f (sent k) CONNECTION_ID k
  handed : ∀ h ∈ r.handed, h.2.2 ≠ [] ∧ ∃ n, n ≤ (sent h.1).packets.length ∧ h.2.2 = (sent h.1).whole.take (1400 * n)

theorem skipTo_genuine {sent : Nat → SentFrame} (hsent : ∀ k, (sent k).packets ≠ [] → (sent k).As CONNECTION_ID k) {r r' : Receiver D} {k : Nat}
    (hr : r.Genuine sent) (hne : ∀ k f, r.fragmentedFrames k = some f → (sent k).packets ≠ [])
    (hk : r.nextFrameNo ≤ k) (h : r.skipTo P k = some r') :
    r'.Genuine sent ∧ (∀ j f, r'.fragmentedFrames j = some f → r.fragmentedFrames j = some f) := by
  obtain ⟨_, _, _, _, _, hfr, new, hh, _, hnew⟩ := skipTo_spec P hk h
  have hsub : ∀ j f, r'.fragmentedFrames j = some f → r.fragmentedFrames j = some f := by
    intro j f hf
    rw [hfr] at hf
    by_cases hj : r.nextFrameNo ≤ j ∧ j < k
    · rw [if_pos hj] at hf; exact nomatch hf
    · rwa [if_neg hj] at hf
  refine ⟨⟨fun j f hf => hr.frames j f (hsub j f hf), ?_⟩, hsub⟩
  intro x hx
  rw [hh] at hx
  obtain hx | hx := List.mem_append.mp hx
  · exact hr.handed x hx
  · obtain ⟨_, _, h1, f, hf, h2⟩ := hnew x hx
    obtain ⟨n, hn, he⟩ := (hr.frames _ f hf).partialFrame (hsent _ (hne _ f hf))
    exact ⟨h1, n, hn, h2.trans he⟩

theorem addPacket_genuine {sent : Nat → SentFrame} {r : Receiver D} {p : Packet} (hr : r.Genuine sent)
    (hs : (sent p.frameNo).As CONNECTION_ID p.frameNo) (hp : p ∈ (sent p.frameNo).packets) :
    ∃ g f, r.addPacket p = some { r with fragmentedFrames := g } ∧ g p.frameNo = some f ∧ (∀ k, k ≠ p.frameNo → g k = r.fragmentedFrames k) ∧
      ({ r with fragmentedFrames := g } : Receiver D).Genuine sent := by
  unfold Receiver.addPacket
  cases hf : r.fragmentedFrames p.frameNo with
  | some f =>
    obtain ⟨g, hg, hfs⟩ := (hr.frames _ f hf).add hs hp
    dsimp only
    rw [hg]
    refine ⟨_, g, rfl, if_pos rfl, fun k hk => if_neg hk, ⟨?_, hr.handed⟩⟩
    intro k x hx
    change (if k = p.frameNo then some g else r.fragmentedFrames k) = some x at hx
    by_cases hk : k = p.frameNo
    · rw [if_pos hk] at hx; rw [← Option.some.inj hx, hk]; exact hfs
    · rw [if_neg hk] at hx; exact hr.frames k x hx
  | none =>
    obtain ⟨g, hg, hfs⟩ := FromSent.incoming hs hp
    dsimp only
    rw [hg]
    refine ⟨_, g, rfl, ?_, fun k hk => if_neg hk, ⟨?_, hr.handed⟩⟩
    · show (if p.frameNo = p.frameNo then (r.fragmentedFrames p.frameNo).or (some g) else _) = _
      rw [if_pos rfl, hf]; rfl
    intro k x hx
    change (if k = p.frameNo then (r.fragmentedFrames p.frameNo).or (some g) else r.fragmentedFrames k) = some x at hx
    by_cases hk : k = p.frameNo
    · rw [if_pos hk, hf] at hx
      change some g = some x at hx
      rw [← Option.some.inj hx, hk]; exact hfs
    · rw [if_neg hk] at hx; exact hr.frames k x hx

theorem finishFrame_genuine {sent : Nat → SentFrame} (hsent : ∀ k, (sent k).packets ≠ [] → (sent k).As CONNECTION_ID k) {r r' : Receiver D}
    (hr : r.Genuine sent) (hne : ∀ k f, r.fragmentedFrames k = some f → (sent k).packets ≠ []) (h : r.finishFrame P = some r') :
    r'.Genuine sent ∧ (∀ j f, r'.fragmentedFrames j = some f → r.fragmentedFrames j = some f) := by
  obtain rfl | ⟨f, frame, r1, r2, hf, hc, hfr, h1, h2, rfl⟩ := finishFrame_spec P h
  · exact ⟨hr, fun j f hf => hf⟩
  have hsub : ∀ j g, r.fragmentedFrames.erase r.nextFrameNo j = some g → r.fragmentedFrames j = some g := by
    intro j g hg
    change (if j = r.nextFrameNo then none else r.fragmentedFrames j) = some g at hg
    by_cases hj : j = r.nextFrameNo
    · rw [if_pos hj] at hg; exact nomatch hg
    · rwa [if_neg hj] at hg
  refine ⟨⟨fun j g hg => hr.frames j g (hsub j g hg), ?_⟩, hsub⟩
  show ∀ h ∈ (r2.saveState P f.targetState).handed, _
  rw [(saveState_handed P r2 f.targetState).1]
  obtain ⟨d, c, e1, _⟩ := loadSource_spec r f.sourceState
  obtain ⟨cs, ds, e2, _⟩ := prune_spec h1
  have hr1 : r1.handed = r.handed := by rw [e2, e1]
  have hs := hsent _ (hne _ f hf)
  have hw := (hr.frames _ f hf).frame hs hc
  rw [hfr] at hw
  have hw := Except.ok.inj hw
  obtain ⟨_, rfl⟩ | ⟨hb, d, _, rfl⟩ := enqueueFrame_eq P h2
  · rw [hr1]; exact hr.handed
  · show ∀ h ∈ r1.handed ++ [(r.nextFrameNo, r1.player, frame)], _
    rw [hr1]
    intro x hx
    obtain hx | hx := List.mem_append.mp hx
    · exact hr.handed x hx
    · rw [List.mem_singleton.mp hx]
      refine ⟨hb, (sent r.nextFrameNo).packets.length, Nat.le_refl _, ?_⟩
      show frame = _
      rw [← hs.cut.prefix _ (Nat.le_refl _), List.take_length, hs.cut.payloads, hw]

theorem mem_ne_nil {α : Type} {a : α} {l : List α} (h : a ∈ l) : l ≠ [] := by
  intro he; rw [he] at h; exact List.not_mem_nil h

theorem receive_genuine {sent : Nat → SentFrame} (hsent : ∀ k, (sent k).packets ≠ [] → (sent k).As CONNECTION_ID k) {r r' : Receiver D}
    {wire : List UInt8} {avg : Nat} {ack : Option AckPacket} (hw : GenuineWire sent wire) (hg : r.Genuine sent)
    (hne : ∀ k f, r.fragmentedFrames k = some f → (sent k).packets ≠ []) (h : r.receive P wire avg = some (r', ack)) :
    r'.Genuine sent ∧ (∀ k f, r'.fragmentedFrames k = some f → (sent k).packets ≠ []) := by
  obtain ⟨p, hp, ⟨_, rfl, _⟩ | ⟨hle, ra, rb, ha, hb, hc, _⟩⟩ := receive_spec P h
  · exact ⟨hg, hne⟩
  · have hpin := hw p hp
    obtain ⟨ga, sa⟩ := skipTo_genuine P hsent hg hne hle ha
    obtain ⟨g, f, e, hgf, hgo, gb⟩ := addPacket_genuine ga (hsent _ (mem_ne_nil hpin)) hpin
    rw [e] at hb
    have hb := Option.some.inj hb
    subst hb
    have hneb : ∀ k x, g k = some x → (sent k).packets ≠ [] := by
      intro k x hx
      by_cases hk : k = p.frameNo
      · rw [hk]; exact mem_ne_nil hpin
      · rw [hgo k hk] at hx; exact hne k x (sa k x hx)
    obtain ⟨gc, sc⟩ := finishFrame_genuine P hsent gb hneb hc
    exact ⟨gc, fun k x hx => hneb k x (sc k x hx)⟩

theorem start_genuine (sent : Nat → SentFrame) (d : D) : (Receiver.start P d).Genuine sent :=
  ⟨fun k f h => (nomatch h), fun x hx => absurd hx List.not_mem_nil⟩

theorem reachesFresh_genuine {sent : Nat → SentFrame} (hsent : ∀ k, (sent k).packets ≠ [] → (sent k).As CONNECTION_ID k) {d : D} {r : Receiver D}
    (h : Receiver.ReachesFresh P (GenuineWire sent) d r) : r.Genuine sent ∧ (∀ k f, r.fragmentedFrames k = some f → (sent k).packets ≠ []) := by
  induction h with
  | start => exact ⟨start_genuine P sent d, fun k f h => (nomatch h)⟩
  | step h hw hs hn ih => exact receive_genuine P hsent hw ih.1 ih.2 hs

theorem run_genuine {sent : Nat → SentFrame} (hsent : ∀ k, (sent k).packets ≠ [] → (sent k).As CONNECTION_ID k) (ws : List (List UInt8 × Nat)) :
    ∀ {r r' : Receiver D}, (∀ w ∈ ws, GenuineWire sent w.1) → r.Genuine sent → (∀ k f, r.fragmentedFrames k = some f → (sent k).packets ≠ []) →
      r.run P ws = some r' → r'.Genuine sent ∧ (∀ k f, r'.fragmentedFrames k = some f → (sent k).packets ≠ []) := by
  induction ws with
  | nil => intro r r' _ h1 h2 h; rw [← Option.some.inj h]; exact ⟨h1, h2⟩
  | cons w ws ih =>
    intro r r' hw hg hne h
    obtain ⟨⟨r1, ack⟩, h1, h⟩ := Option.bind_eq_some_iff.mp h
    obtain ⟨ga, na⟩ := receive_genuine P hsent (hw w (List.mem_cons_self ..)) hg hne h1
    exact ih (fun v hv => hw v (List.mem_cons_of_mem _ hv)) ga na h

/-- **C27, what is decoded.** If no packets of this connection are forged, what the receiver hands to its decoder as frame `k` is the frame that was
sent as `k`, or the part of it before a missing packet; never bytes of two frames, never bytes out of order. -/
theorem C27_handed_bytes (d : D) (sent : Nat → SentFrame) (hsent : ∀ k, (sent k).packets ≠ [] → (sent k).As 1337 k)
    (ws : List (List UInt8 × Nat)) (hw : ∀ w ∈ ws, GenuineWire sent w.1) (r : Receiver D) (h : (Receiver.start P d).run P ws = some r) :
    ∀ x ∈ r.handed, x.2.2 ≠ [] ∧ ∃ n, n ≤ (sent x.1).packets.length ∧ x.2.2 = (sent x.1).whole.take (1400 * n) :=
  (run_genuine P hsent ws hw (start_genuine P sent d) (fun k f h => (nomatch h)) h).1.handed

/-! ### What ends the receiver -/

/-- **C59 does not hold.** A datagram that is not a packet ends the receiver, whatever its state. -/
theorem C59_malformed_datagram_ends_receiver (r : Receiver D) (wire : List UInt8) (avg : Nat) (e : NetError) (h : Packet.parse wire = .error e) :
    r.receive P wire avg = none := by
  unfold Receiver.receive
  rw [h]
  rfl

/-- Each assembly of a receiver belongs to its connection. -/
def Receiver.Own (r : Receiver D) : Prop := ∀ k f, r.fragmentedFrames k = some f → f.connectionId = 1337

theorem addPacket_own {r r' : Receiver D} {p : Packet} (hr : r.Own) (h : r.addPacket p = some r') : r'.Own ∧ p.connectionId = 1337 := by
  unfold Receiver.addPacket at h
  cases hf : r.fragmentedFrames p.frameNo with
  | some f =>
    rw [hf] at h
    dsimp only at h
    cases ha : f.addPacket p with
    | mk g e =>
      rw [ha] at h
      cases e with
      | some e => exact nomatch h
      | none =>
        have := Option.some.inj h
        subst this
        have hg := (addPacket_fields f p).1
        rw [ha] at hg
        refine ⟨?_, ?_⟩
        · intro k x hx
          change (if k = p.frameNo then some g else r.fragmentedFrames k) = some x at hx
          by_cases hk : k = p.frameNo
          · rw [if_pos hk] at hx; rw [← Option.some.inj hx]; exact hg.trans (hr _ f hf)
          · rw [if_neg hk] at hx; exact hr k x hx
        · rw [← hr _ f hf]
          by_contra hn
          rw [C26_foreign_packet_refused f p (Or.inl hn)] at ha
          exact nomatch (Prod.mk.inj ha).2
  | none =>
    rw [hf] at h
    dsimp only at h
    cases hi : FragmentedFrame.incoming CONNECTION_ID p with
    | error e => rw [hi] at h; exact nomatch h
    | ok g =>
      rw [hi] at h
      have := Option.some.inj h
      subst this
      have hg : g.connectionId = 1337 ∧ p.connectionId = 1337 := by
        unfold FragmentedFrame.incoming at hi
        dsimp only at hi
        generalize hf0 : FragmentedFrame.mk CONNECTION_ID p.sourceState p.targetState p.frameNo p.fragmentsInThisFrame
          (List.replicate p.fragmentsInThisFrame { valid := false }) p.fragmentsInThisFrame = f0 at hi
        have hc : f0.connectionId = 1337 := by rw [← hf0]
        by_cases hin : f0.insane p = true
        · rw [if_pos hin] at hi; exact nomatch hi
        · rw [if_neg hin] at hi
          have ha := (insane_iff f0 p).mp (by simpa using hin)
          cases hx : f0.addPacket p with
          | mk a b =>
            rw [hx] at hi
            cases b with
            | some e => exact nomatch hi
            | none =>
              have := Except.ok.inj hi
              subst this
              have := (addPacket_fields f0 p).1
              rw [hx] at this
              exact ⟨this.trans hc, ha.connectionId.trans hc⟩
      refine ⟨?_, hg.2⟩
      intro k x hx
      change (if k = p.frameNo then (r.fragmentedFrames p.frameNo).or (some g) else r.fragmentedFrames k) = some x at hx
      by_cases hk : k = p.frameNo
      · rw [if_pos hk, hf] at hx
        change some g = some x at hx
        rw [← Option.some.inj hx]; exact hg.1
      · rw [if_neg hk] at hx; exact hr k x hx

theorem skipTo_own {r r' : Receiver D} {k : Nat} (hr : r.Own) (hk : r.nextFrameNo ≤ k) (h : r.skipTo P k = some r') : r'.Own := by
  obtain ⟨_, _, _, _, _, hfr, _⟩ := skipTo_spec P hk h
  intro j f hf
  rw [hfr] at hf
  by_cases hj : r.nextFrameNo ≤ j ∧ j < k
  · rw [if_pos hj] at hf; exact nomatch hf
  · rw [if_neg hj] at hf; exact hr j f hf

theorem reaches_own {d : D} {r : Receiver D} (h : Receiver.Reaches P d r) : r.Own := by
  induction h with
  | start => intro k f h; exact nomatch h
  | step h hs ih =>
    obtain ⟨p, _, ⟨_, rfl, _⟩ | ⟨hle, r1, r2, h1, h2, h3, _⟩⟩ := receive_spec P hs
    · exact ih
    · have o2 := (addPacket_own (skipTo_own P ih hle h1) h2).1
      obtain rfl | ⟨f, frame, ra, rb, hf, hc, hfr, h1, h2, rfl⟩ := finishFrame_spec P h3
      · exact o2
      · intro j g hg
        change (if j = r2.nextFrameNo then none else r2.fragmentedFrames j) = some g at hg
        by_cases hj : j = r2.nextFrameNo
        · rw [if_pos hj] at hg; exact nomatch hg
        · rw [if_neg hj] at hg; exact o2 j g hg

/-- **C59 does not hold.** A well-formed packet with another connection's number ends the receiver too, unless it is of an old frame. -/
theorem C59_foreign_packet_ends_receiver (d : D) {r : Receiver D} (h : Receiver.Reaches P d r) (wire : List UInt8) (avg : Nat) (p : Packet)
    (hp : Packet.parse wire = .ok p) (hc : p.connectionId ≠ 1337) (hn : r.nextFrameNo ≤ p.frameNo) : r.receive P wire avg = none := by
  cases hr : r.receive P wire avg with
  | none => rfl
  | some x =>
    obtain ⟨r', ack⟩ := x
    obtain ⟨q, hq, ⟨hlt, _⟩ | ⟨hle, r1, r2, h1, h2, _⟩⟩ := receive_spec P hr
    · rw [hp] at hq
      rw [← Except.ok.inj hq] at hlt
      omega
    · rw [hp] at hq
      have hq := Except.ok.inj hq
      subst hq
      exact absurd (addPacket_own (skipTo_own P (reaches_own P h) hle h1) h2).2 hc

/-- A packet that was sent does not end the receiver, if decoding does not throw and the source, in case the receiver is then in that state, is a
complete state or the initial one. -/
theorem receive_survives {r : Receiver D} (sent : Nat → SentFrame) (hok : r.Ok P) (hg : r.Genuine sent)
    (hne : ∀ k f, r.fragmentedFrames k = some f → (sent k).packets ≠ [])
    (hsent : ∀ k, (sent k).packets ≠ [] → (sent k).As 1337 k)
    (wire : List UInt8) (avg : Nat) (p : Packet) (hp : Packet.parse wire = .ok p) (hin : p ∈ (sent p.frameNo).packets)
    {d : D} (hh : r.Held P d)
    (hdec : ∀ x n, P.Occurs d x → (sent p.frameNo).whole.take (1400 * n) ≠ [] → P.decode x ((sent p.frameNo).whole.take (1400 * n)) ≠ none)
    (hdec' : ∀ x n, P.Occurs d x → (sent r.nextFrameNo).whole.take (1400 * n) ≠ [] → P.decode x ((sent r.nextFrameNo).whole.take (1400 * n)) ≠ none)
    (hsrc : ∀ r1, r.skipTo P p.frameNo = some r1 →
      r1.currentState = (sent p.frameNo).source ∨ (∃ x, r.decoders (sent p.frameNo).source = some x) →
      (sent p.frameNo).source ≠ r.initialState → (sent p.frameNo).source ∈ r.completeStates) :
    ∃ r' ack, r.receive P wire avg = some (r', ack) ∧ (ack = none ↔ p.frameNo < r.nextFrameNo) := by
  by_cases hlt : p.frameNo < r.nextFrameNo
  · exact ⟨r, none, C27_old_packet P r p wire avg hp hlt, by simp [hlt]⟩
  have hle : r.nextFrameNo ≤ p.frameNo := by omega
  -- showing what is unfinished
  have hskip : ∀ n (q : Receiver D) (i : Nat), q.Held P d → (∀ k f, q.fragmentedFrames k = some f → k = r.nextFrameNo ∧ r.fragmentedFrames k = some f) →
      ∃ q', q.showPartial P i n = some q' := by
    intro n
    induction n with
    | zero => intro q i _ _; exact ⟨q, rfl⟩
    | succ n ih =>
      intro q i hqh hq
      rw [Receiver.showPartial]
      cases hf : q.fragmentedFrames i with
      | none => exact ih q (i + 1) hqh hq
      | some f =>
        obtain ⟨e1, e2⟩ := hq i f hf
        have hen : ∃ q1, q.enqueueFrame P i f.partialFrame = some q1 := by
          unfold Receiver.enqueueFrame
          by_cases hl : f.partialFrame.length = 0
          · rw [if_pos hl]; exact ⟨_, rfl⟩
          · rw [if_neg hl]
            obtain ⟨m, _, hm⟩ := (hg.frames i f e2).partialFrame (hsent i (hne i f e2))
            have hd := hdec' q.player m hqh.player.2
            rw [← e1, ← hm] at hd
            replace hd := hd (fun h => hl (by rw [h]; rfl))
            obtain ⟨y, hy⟩ := Option.ne_none_iff_exists'.mp hd
            rw [hy]; exact ⟨_, rfl⟩
        obtain ⟨q1, h1⟩ := hen
        have hq1 : q1.fragmentedFrames = q.fragmentedFrames := by
          obtain ⟨_, rfl⟩ | ⟨_, y, _, rfl⟩ := enqueueFrame_eq P h1 <;> rfl
        dsimp only
        rw [h1]
        refine ih _ (i + 1) ?_ ?_
        · obtain ⟨a, b, c⟩ := enqueueFrame_held P hqh h1
          exact ⟨a, b, c⟩
        intro k g hk
        change (if k = i then none else q1.fragmentedFrames k) = some g at hk
        by_cases hki : k = i
        · rw [if_pos hki] at hk; exact nomatch hk
        · rw [if_neg hki, hq1] at hk; exact hq k g hk
  have hs1 : ∃ r1, r.skipTo P p.frameNo = some r1 := by
    unfold Receiver.skipTo
    by_cases h : r.nextFrameNo < p.frameNo
    · rw [if_pos h]
      obtain ⟨q, hq⟩ := hskip (p.frameNo - r.nextFrameNo) r r.nextFrameNo hh (fun k f hk => ⟨hok.one k f hk, hk⟩)
      rw [hq]; exact ⟨_, rfl⟩
    · rw [if_neg h]; exact ⟨_, rfl⟩
  obtain ⟨r1, h1⟩ := hs1
  obtain ⟨a1, a2, a3, a4, a5, a6, _⟩ := skipTo_spec P hle h1
  obtain ⟨g1, s1⟩ := skipTo_genuine P hsent hg hne hle h1
  obtain ⟨g, f, h2, hgf, hgo, g2⟩ := addPacket_genuine g1 (hsent _ (mem_ne_nil hin)) hin
  generalize hr2 : ({ r1 with fragmentedFrames := g } : Receiver D) = r2 at h2 g2
  have hneb : ∀ k x, r2.fragmentedFrames k = some x → (sent k).packets ≠ [] := by
    intro k x hx
    rw [← hr2] at hx
    change g k = some x at hx
    by_cases hk : k = p.frameNo
    · rw [hk]; exact mem_ne_nil hin
    · rw [hgo k hk] at hx; exact hne k x (s1 k x hx)
  have h3 : ∃ r3, r2.finishFrame P = some r3 := by
    have hf2 : r2.fragmentedFrames r2.nextFrameNo = some f := by rw [← hr2]; show g r1.nextFrameNo = _; rw [a1, hgf]
    have hn2 : r2.nextFrameNo = p.frameNo := by rw [← hr2]; exact a1
    unfold Receiver.finishFrame
    rw [hf2]
    dsimp only
    by_cases hc : f.complete = true
    swap
    · rw [if_neg hc]; exact ⟨_, rfl⟩
    rw [if_pos hc]
    have hfs := g2.frames _ f hf2
    rw [hn2] at hfs
    have hs := hsent _ (mem_ne_nil hin)
    have hfr := hfs.frame hs hc
    obtain ⟨x, c, hl, hlc⟩ := loadSource_spec r2 f.sourceState
    have hpr : ∃ cs ds, (r2.loadSource f.sourceState).prune f.sourceState =
        some { r2 with player := x, currentState := c, completeStates := cs, decoders := ds } := by
      rw [hl]
      unfold Receiver.prune
      dsimp only
      by_cases hcond : c = f.sourceState ∧ f.sourceState ≠ r2.initialState
      · rw [if_pos hcond]
        have hmem : f.sourceState ∈ r2.completeStates := by
          rw [hfs.source, ← hr2]
          show _ ∈ r1.completeStates
          rw [a3]
          refine hsrc r1 h1 ?_ ?_
          · rw [← hfs.source, ← a4, ← show r2.decoders = r1.decoders by rw [← hr2], ← show r2.currentState = r1.currentState by rw [← hr2]]
            obtain ⟨e, _⟩ | ⟨_, e⟩ := hlc
            · exact Or.inl (e ▸ hcond.1)
            · exact Or.inr ⟨x, e⟩
          · intro he
            apply hcond.2
            rw [hfs.source, he, ← hr2]; exact a2.symm
        obtain ⟨⟨cs, ds⟩, hps⟩ := pruneStates_mem f.sourceState r2.completeStates r2.decoders hmem
        rw [hps]; exact ⟨cs, ds, rfl⟩
      · rw [if_neg hcond]; exact ⟨_, _, rfl⟩
    obtain ⟨cs, ds, hpr⟩ := hpr
    rw [hpr, hfr]
    show ∃ r3, (Receiver.enqueueFrame P _ _ _ >>= _) = some r3
    have hheld : Receiver.Held P d { r2 with player := x, currentState := c, completeStates := cs, decoders := ds } := by
      refine prune_held P (loadSource_held P _ ?_) hpr
      obtain ⟨a, b, c⟩ := skipTo_held P hh h1
      rw [← hr2]
      exact ⟨a, b, c⟩
    have hen : ∀ q : Receiver D, q.Held P d → ∀ n, ∃ q1, q.enqueueFrame P n (sent p.frameNo).whole = some q1 := by
      intro q hq n
      unfold Receiver.enqueueFrame
      by_cases hl : (sent p.frameNo).whole.length = 0
      · rw [if_pos hl]; exact ⟨_, rfl⟩
      · rw [if_neg hl]
        have hd := hdec q.player (sent p.frameNo).whole.length hq.player.2
        rw [List.take_of_length_le (by omega)] at hd
        replace hd := hd (fun h => hl (by rw [h]; rfl))
        obtain ⟨y, hy⟩ := Option.ne_none_iff_exists'.mp hd
        rw [hy]; exact ⟨_, rfl⟩
    obtain ⟨q1, hq1⟩ := hen _ hheld _
    rw [hq1]
    exact ⟨_, rfl⟩
  obtain ⟨r3, h3⟩ := h3
  refine ⟨r3, some { connectionId := 1337, frameNo := p.frameNo, fragmentNo := p.fragmentNo, avgDelay := avg, currentState := r3.currentState
                     completeStates := r3.completeStates }, ?_, by simp [hlt]⟩
  · unfold Receiver.receive
    rw [hp]
    show (if p.frameNo < r.nextFrameNo then _ else (r.skipTo P p.frameNo >>= _)) = _
    rw [if_neg hlt, h1]
    show (r1.addPacket p >>= _) = _
    rw [h2]
    show (r2.finishFrame P >>= _) = _
    rw [h3]
    rfl

/-- **C59 (partial).** Packets that were sent do not end the receiver: if no decoder that can come about throws on a beginning of a frame (a whole
number of packets, at least one) and the frame's source is the initial state or one that the receiver advertises at that moment, the callback returns.  Missing: arbitrary datagrams (they do end it, see above), and
sources that are no longer advertised. -/
theorem C59_survives_genuine_partial (d : D) {r : Receiver D} (sent : Nat → SentFrame) (hr : Receiver.ReachesFresh P (GenuineWire sent) d r)
    (hsent : ∀ k, (sent k).packets ≠ [] → (sent k).As 1337 k)
    (wire : List UInt8) (avg : Nat) (p : Packet) (hp : Packet.parse wire = .ok p) (hin : p ∈ (sent p.frameNo).packets)
    (hdec : ∀ x n, P.Occurs d x → (sent p.frameNo).whole.take (1400 * n) ≠ [] → P.decode x ((sent p.frameNo).whole.take (1400 * n)) ≠ none)
    (hdec' : ∀ x n, P.Occurs d x → (sent r.nextFrameNo).whole.take (1400 * n) ≠ [] → P.decode x ((sent r.nextFrameNo).whole.take (1400 * n)) ≠ none)
    (hsrc : (sent p.frameNo).source ∈ r.completeStates ∨ (sent p.frameNo).source = P.minihash d) :
    ∃ r' ack, r.receive P wire avg = some (r', ack) ∧ (ack = none ↔ p.frameNo < r.nextFrameNo) := by
  obtain ⟨hok, hinit⟩ := reaches_ok P (ReachesFresh.reaches P hr)
  obtain ⟨hg, hne⟩ := reachesFresh_genuine P hsent hr
  refine receive_survives P sent hok hg hne hsent wire avg p hp hin (reaches_held P (ReachesFresh.reaches P hr)) hdec hdec' fun r1 _ _ h0 => ?_
  obtain h | h := hsrc
  · exact h
  · exact absurd (h.trans hinit.symm) h0

end Alfalfa
