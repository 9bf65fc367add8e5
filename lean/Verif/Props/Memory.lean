import Verif.Model.Memory
import Verif.Model.Sender
import Verif.Model.Address
import Verif.Props.Packet
import Verif.Props.Sender
import Verif.Props.ReceiverStates

/-! C98: how much the sender and the receiver keep. -/

namespace Alfalfa

variable {D : Type} (P : Playing D)

/-! ### What the receiver keeps -/

/-- What holds of what is kept. -/
structure Receiver.Lean (r : Receiver D) : Prop where
  frames : ∀ k f, r.fragmentedFrames k = some f → f.fragments.length < 2 ^ 16
  states : ∀ s d, r.decoders s = some d → s = r.initialState ∨ s ∈ r.completeStates

theorem addPacket_length (f : FragmentedFrame) (p : Packet) : (f.addPacket p).1.fragments.length = f.fragments.length := by
  unfold FragmentedFrame.addPacket
  split
  · rfl
  · split
    · rfl
    · split
      · rfl
      · simp

theorem incoming_length {c : Nat} {p : Packet} {f : FragmentedFrame} (h : FragmentedFrame.incoming c p = .ok f) : f.fragments.length = p.fragmentsInThisFrame := by
  unfold FragmentedFrame.incoming at h
  dsimp only at h
  split at h
  · cases h
  · split at h
    · cases h
    · rename_i g hg
      have := Except.ok.inj h
      subst this
      have e := congrArg (fun x => x.1.fragments.length) hg
      simp only [addPacket_length, List.length_replicate] at e
      exact e.symm

/-- What finishing a frame does to what is kept. -/
theorem finishFrame_kept {r r' : Receiver D} (hr : r.Lean) (h : r.finishFrame P = some r') : r'.Lean ∧ r'.initialState = r.initialState ∧ r'.completeStates.length ≤ r.completeStates.length + 1 := by
  obtain rfl | ⟨f, frame, r1, r2, _, _, _, h1, h2, rfl⟩ := finishFrame_spec P h
  · exact ⟨hr, rfl, by omega⟩
  obtain ⟨d, c, e1, h3⟩ := loadSource_spec r f.sourceState
  rw [e1] at h1
  obtain ⟨cs, ds, e2, h4⟩ := prune_spec h1
  dsimp only at e2 h4
  have hst : (∀ s d, ds s = some d → s = r.initialState ∨ s ∈ cs) ∧ cs.length ≤ r.completeStates.length := by
    obtain ⟨rfl, rfl, _⟩ | ⟨_, _, hp⟩ := h4
    · exact ⟨hr.states, le_rfl⟩
    · obtain ⟨pre, rest, _, hcs, _, hm⟩ := pruneStates_spec _ _ _ _ _ hp
      refine ⟨?_, by rw [hcs, List.length_append]; omega⟩
      intro s d hs
      rw [hm] at hs
      split at hs
      · cases hs
      · rename_i hj
        rcases hr.states s d hs with h | h
        · exact .inl h
        · rw [hcs] at h
          exact .inr ((List.mem_append.mp h).resolve_left hj)
  have hr2 : r2.decoders = ds ∧ r2.completeStates = cs ∧ r2.initialState = r.initialState := by
    obtain ⟨_, rfl⟩ | ⟨_, x, _, rfl⟩ := enqueueFrame_eq P h2 <;> rw [e2] <;> exact ⟨rfl, rfl, rfl⟩
  obtain ⟨g1, g2, g3⟩ := hr2
  have hfr : ∀ k g, r.fragmentedFrames.erase r.nextFrameNo k = some g → g.fragments.length < 2 ^ 16 := by
    intro k g hk
    unfold NatMap.erase at hk
    split at hk
    · cases hk
    · exact hr.frames k g hk
  unfold Receiver.saveState
  dsimp only
  split
  · refine ⟨⟨hfr, ?_⟩, g3, ?_⟩
    · intro s x hs
      dsimp only at hs ⊢
      unfold NatMap.insertNew at hs
      by_cases hsp : s = P.minihash r2.player
      · exact .inr (by rw [hsp]; simp)
      · rw [if_neg hsp, g1] at hs
        rcases hst.1 s x hs with h | h
        · exact .inl (by rw [g3]; exact h)
        · exact .inr (List.mem_append_left _ (by rw [g2]; exact h))
    · dsimp only
      rw [List.length_append, g2]
      simp only [List.length_singleton]
      omega
  · refine ⟨⟨hfr, ?_⟩, g3, ?_⟩
    · intro s x hs
      dsimp only at hs ⊢
      rw [g1] at hs
      rw [g2, g3]
      exact hst.1 s x hs
    · dsimp only; rw [g2]; omega

theorem receive_keeps {r r' : Receiver D} {wire : List UInt8} {avg : Nat} {ack : Option AckPacket} (hr : r.Lean) (h : r.receive P wire avg = some (r', ack)) :
    r'.Lean ∧ r'.initialState = r.initialState ∧ r'.completeStates.length ≤ r.completeStates.length + 1 := by
  obtain ⟨p, hp, ⟨_, rfl, _⟩ | ⟨hle, r1, r2, h1, h2, h3, _⟩⟩ := receive_spec P h
  · exact ⟨hr, rfl, by omega⟩
  · obtain ⟨_, a2, a3, a4, _, a6, _⟩ := skipTo_spec P hle h1
    have hsafe := C22_packet_parser_safe wire
    rw [hp] at hsafe
    have hl : ∀ k f, r1.fragmentedFrames k = some f → f.fragments.length < 2 ^ 16 := by
      intro k f hk
      rw [a6] at hk
      split at hk
      · cases hk
      · exact hr.frames k f hk
    obtain ⟨g, rfl, g1, g2⟩ := addPacket_spec h2
    have hk : ({ r1 with fragmentedFrames := g } : Receiver D).Lean := by
      refine ⟨?_, ?_⟩
      · intro k f hk
        dsimp only at hk
        by_cases hkp : k = p.frameNo
        · subst hkp
          obtain ⟨f0, f', e1, e2, e3⟩ | ⟨_, f', e1, e2⟩ := g2
          · rw [e3] at hk
            have := addPacket_length f0 p
            rw [e2] at this
            rw [← Option.some.inj hk]
            exact this ▸ hl _ _ e1
          · rw [e2] at hk
            rw [← Option.some.inj hk, incoming_length e1]
            exact hsafe.1.fragmentsInThisFrame
        · rw [g1 k hkp] at hk
          exact hl k f hk
      · intro s d hs
        dsimp only at hs ⊢
        rw [a4] at hs
        rw [a2, a3]
        exact hr.states s d hs
    obtain ⟨b1, b2, b3⟩ := finishFrame_kept P hk h3
    refine ⟨b1, b2.trans a2, ?_⟩
    dsimp only at b3
    rw [a3] at b3
    exact b3

theorem start_lean (d : D) : (Receiver.start P d).Lean := by
  refine ⟨fun k f h => (nomatch h), ?_⟩
  intro s x h
  change (if s = P.minihash d then some d else none) = some x at h
  split at h
  · rename_i hs; exact .inl hs
  · cases h

theorem reaches_lean {d : D} {r : Receiver D} (h : Receiver.Reaches P d r) : r.Lean := by
  induction h with
  | start => exact start_lean P d
  | step h hs ih => exact (receive_keeps P ih hs).1

/-- **C98.**  After any datagrams the receiver assembles at most one frame, and has room for fewer than 65536 packets of it. -/
theorem C98_one_frame (d : D) {r : Receiver D} (h : Receiver.Reaches P d r) (k : Nat) (f : FragmentedFrame) (hf : r.fragmentedFrames k = some f) :
    k = r.nextFrameNo ∧ f.fragments.length < 65536 :=
  ⟨(reaches_ok P h).1.one k f hf, (reaches_lean P h).frames k f hf⟩

/-- **C98.**  After any datagrams the receiver keeps no decoders but the first one and one for each state that it advertises. -/
theorem C98_decoders (d : D) {r : Receiver D} (h : Receiver.Reaches P d r) (s : Nat) (x : D) (hs : r.decoders s = some x) :
    s = P.minihash d ∨ s ∈ r.completeStates := by
  rw [← (reaches_ok P h).2]
  exact (reaches_lean P h).states s x hs

/-- **C98.**  A datagram adds at most one state, so that there are never more states than datagrams. -/
theorem C98_growth (d : D) (ws : List (List UInt8 × Nat)) (r : Receiver D) (h : (Receiver.start P d).run P ws = some r) : r.completeStates.length ≤ ws.length := by
  have key : ∀ (ws : List (List UInt8 × Nat)) (r r' : Receiver D), r.Lean → r.run P ws = some r' → r'.completeStates.length ≤ r.completeStates.length + ws.length := by
    intro ws
    induction ws with
    | nil => intro r r' _ h; rw [← Option.some.inj h]; simp
    | cons w ws ih =>
      intro r r' hr h
      obtain ⟨wire, avg⟩ := w
      unfold Receiver.run at h
      obtain ⟨⟨r1, ack⟩, h1, h⟩ := Option.bind_eq_some_iff.mp h
      obtain ⟨k1, _, k2⟩ := receive_keeps P hr h1
      have := ih r1 r' k1 h
      simp only [List.length_cons]
      omega
  have := key ws _ _ (start_lean P d) h
  simpa [Receiver.start] using this

/-! ### What it forgets -/

/-- **C98.**  When a frame that was coded from an advertised state is decoded, all states that were advertised before this state are forgotten, and their decoders with them, unless the
state of the new frame is the same. -/
theorem C98_forgets (r r' : Receiver D) (f : FragmentedFrame) (hf : r.fragmentedFrames r.nextFrameNo = some f) (hc : f.complete = true) (pre rest : List Nat)
    (hi : f.sourceState ≠ r.initialState) (hcs : r.completeStates = pre ++ f.sourceState :: rest) (hpre : f.sourceState ∉ pre)
    (hd : r.currentState = f.sourceState ∨ ∃ x, r.decoders f.sourceState = some x) (h : r.finishFrame P = some r') :
    (r'.completeStates = f.sourceState :: rest ∨ r'.completeStates = f.sourceState :: rest ++ [f.targetState]) ∧
    ∀ s ∈ pre, s ≠ f.targetState → r'.decoders s = none := by
  obtain rfl | ⟨f', frame, r1, r2, hf', _, _, h1, h2, rfl⟩ := finishFrame_spec P h
  · -- the frame number would not have changed
    exfalso
    unfold Receiver.finishFrame at h
    rw [hf] at h
    dsimp only at h
    rw [if_pos hc] at h
    obtain ⟨r1, h1, h⟩ := Option.bind_eq_some_iff.mp h
    obtain ⟨frame, h2, h⟩ := Option.bind_eq_some_iff.mp h
    obtain ⟨r2, h3, h⟩ := Option.bind_eq_some_iff.mp h
    obtain ⟨d, c, e1, _⟩ := loadSource_spec r' f.sourceState
    obtain ⟨cs, ds, e2, _⟩ := prune_spec h1
    have e1n : r1.nextFrameNo = r'.nextFrameNo := by rw [e2, e1]
    have e2n : r2.nextFrameNo = r1.nextFrameNo := by
      obtain ⟨_, rfl⟩ | ⟨_, d, _, rfl⟩ := enqueueFrame_eq P h3 <;> rfl
    have hsave : (r2.saveState P f.targetState).nextFrameNo = r2.nextFrameNo := by
      unfold Receiver.saveState
      dsimp only
      split <;> rfl
    have := congrArg Receiver.nextFrameNo (Option.some.inj h)
    dsimp only at this
    omega
  · rw [hf] at hf'
    have := Option.some.inj hf'
    subst this
    obtain ⟨d, c, e1, h3⟩ := loadSource_spec r f.sourceState
    have hcs' : c = f.sourceState := by
      obtain ⟨hc', _, h | h⟩ | ⟨h, _⟩ := h3
      · exact h
      · rcases hd with hd | ⟨x, hx⟩
        · rw [hc', hd]
        · rw [h] at hx; cases hx
      · exact h
    rw [e1] at h1
    obtain ⟨cs, ds, e2, h4⟩ := prune_spec h1
    dsimp only at e2 h4
    obtain ⟨_, _, h5 | h5⟩ | ⟨_, _, hp⟩ := h4
    · exact absurd hcs' h5
    · exact absurd h5 hi
    obtain ⟨pre', rest', q1, q2, q3, q4⟩ := pruneStates_spec _ _ _ _ _ hp
    have hsplit : pre' = pre ∧ rest' = rest := by
      rw [hcs, q1] at q2
      have h6 := congrArg (List.takeWhile (· ≠ f.sourceState)) q2
      rw [List.takeWhile_append_of_pos (fun a ha => decide_eq_true (show a ≠ f.sourceState from fun h => hpre (h ▸ ha))), List.takeWhile_append_of_pos (fun a ha => decide_eq_true (show a ≠ f.sourceState from fun h => q3 (h ▸ ha)))] at h6
      simp only [ne_eq, not_true_eq_false, decide_false, Bool.false_eq_true, not_false_eq_true, List.takeWhile_cons_of_neg, List.append_nil] at h6
      subst h6
      have := List.append_cancel_left q2
      exact ⟨rfl, (List.cons.inj this).2.symm⟩
    obtain ⟨rfl, rfl⟩ := hsplit
    have hr2 : r2.decoders = ds ∧ r2.completeStates = cs := by
      obtain ⟨_, rfl⟩ | ⟨_, x, _, rfl⟩ := enqueueFrame_eq P h2 <;> rw [e2] <;> exact ⟨rfl, rfl⟩
    unfold Receiver.saveState
    dsimp only
    split
    · rename_i ht
      dsimp only at ht ⊢
      refine ⟨.inr ?_, ?_⟩
      · rw [hr2.2, q1, ht.1]
      · intro s hs hst
        unfold NatMap.insertNew
        rw [if_neg (by rw [ht.1]; exact hst), hr2.1, q4, if_pos hs]
    · dsimp only
      refine ⟨.inl (by rw [hr2.2, q1]), ?_⟩
      intro s hs _
      rw [hr2.1, q4, if_pos hs]

/-! ### What it does not forget -/

/-- A frame in one packet. -/
def onePacket (source target number : Nat) (bytes : List UInt8) : Packet :=
  { connectionId := 1337, sourceState := source, targetState := target, frameNo := number, fragmentNo := 0, fragmentsInThisFrame := 1, payload := bytes }

/-- Frames in one packet each, numbered from `k` on, all coded from the state `source`. -/
def sameSource (source : Nat) : Nat → List (List UInt8 × Nat) → List (List UInt8 × Nat)
  | _, [] => []
  | k, (bytes, target) :: rest => ((onePacket source target k bytes).toBytes.getD [], 0) :: sameSource source (k + 1) rest

/-- The frame when its packet has come. -/
def oneFrame (source target number : Nat) (bytes : List UInt8) : FragmentedFrame :=
  { connectionId := 1337, sourceState := source, targetState := target, frameNo := number, fragmentsInThisFrame := 1,
    fragments := [onePacket source target number bytes], remainingFragments := 0 }

theorem onePacket_fragment {s t k : Nat} {bytes : List UInt8} (h0 : bytes ≠ []) (hs : s < 2 ^ 32) (ht : t < 2 ^ 32) (hk : k < 2 ^ 32) : (onePacket s t k bytes).Fragment :=
  { connectionId := show 1337 < 2 ^ 16 by decide, sourceState := hs, targetState := ht, frameNo := hk, fragmentsInThisFrame := show 1 < 2 ^ 16 by decide,
    timeSinceLast := show 0 < 2 ^ 32 by decide, valid := rfl, number := Nat.one_pos, payload := h0 }

theorem finish_one {r : Receiver D} {d x : D} {k : Nat} {bytes : List UInt8} (hk : r.nextFrameNo = k) (hf : r.fragmentedFrames k = some (oneFrame (P.minihash d) (P.minihash x) k bytes))
    (hi : r.initialState = P.minihash d) (hd : r.decoders r.initialState = some d) (hp : r.currentState = r.initialState → r.player = d) (h0 : bytes ≠ [])
    (hx : P.decode d bytes = some x) (hne : P.minihash x ≠ P.minihash d) :
    r.finishFrame P = some { r with
      fragmentedFrames := r.fragmentedFrames.erase k, nextFrameNo := k + 1, player := x, currentState := P.minihash x, handed := r.handed ++ [(k, d, bytes)],
      decoders := r.decoders.insertNew (P.minihash x) x, completeStates := r.completeStates ++ [P.minihash x] } := by
  have hload : r.loadSource (P.minihash d) = { r with player := d, currentState := P.minihash d } := by
    unfold Receiver.loadSource
    by_cases hc : r.currentState = P.minihash d
    · rw [if_neg (not_not.mpr hc), ← hc, ← hp (hc.trans hi.symm)]
    · rw [if_pos hc, ← hi, hd]
  have hlen : bytes.length ≠ 0 := fun h => h0 (List.length_eq_zero_iff.mp h)
  unfold Receiver.finishFrame
  rw [hk, hf]
  dsimp only
  have hcomp : (oneFrame (P.minihash d) (P.minihash x) k bytes).complete = true := rfl
  rw [if_pos hcomp]
  have hs : (oneFrame (P.minihash d) (P.minihash x) k bytes).sourceState = P.minihash d := rfl
  have ht : (oneFrame (P.minihash d) (P.minihash x) k bytes).targetState = P.minihash x := rfl
  have hfr : (oneFrame (P.minihash d) (P.minihash x) k bytes).frame.toOption = some bytes := by
    simp [oneFrame, FragmentedFrame.frame, FragmentedFrame.complete, onePacket, Except.toOption]
  rw [hs, ht, hload, hfr]
  simp only [Receiver.prune, hi, ne_eq, not_true_eq_false, and_false, if_false, Option.bind_eq_bind, Option.bind_some, Receiver.enqueueFrame, hlen, hx,
      Option.pure_def, Receiver.saveState, hne, not_false_eq_true, and_self, if_true, hk]

theorem receive_fresh {r r1 r2 r3 : Receiver D} {b : List UInt8} {p : Packet} {avg : Nat} (hp : Packet.parse b = .ok p) (hn : ¬ p.frameNo < r.nextFrameNo) (h1 : r.skipTo P p.frameNo = some r1)
    (h2 : r1.addPacket p = some r2) (h3 : r2.finishFrame P = some r3) :
    r.receive P b avg = some (r3, some { connectionId := CONNECTION_ID, frameNo := p.frameNo, fragmentNo := p.fragmentNo, avgDelay := avg, currentState := r3.currentState, completeStates := r3.completeStates }) := by
  unfold Receiver.receive
  simp only [hp, Except.toOption, Option.bind_eq_bind, Option.bind_some, hn, if_false, h1, h2, h3, Option.pure_def]

theorem receive_one {r : Receiver D} {d x : D} {k : Nat} {bytes : List UInt8} (hk : r.nextFrameNo = k) (hf : r.fragmentedFrames = fun _ => none) (hi : r.initialState = P.minihash d)
    (hd : r.decoders r.initialState = some d) (hp : r.currentState = r.initialState → r.player = d) (h0 : bytes ≠ []) (hx : P.decode d bytes = some x)
    (hxs : P.minihash x < 2 ^ 32) (hds : P.minihash d < 2 ^ 32) (hne : P.minihash x ≠ P.minihash d) (hk2 : k < 2 ^ 32) :
    ∃ r' ack, r.receive P ((onePacket (P.minihash d) (P.minihash x) k bytes).toBytes.getD []) 0 = some (r', some ack) ∧ r'.nextFrameNo = k + 1 ∧ r'.fragmentedFrames = (fun _ => none) ∧
      r'.initialState = P.minihash d ∧ r'.decoders = r.decoders.insertNew (P.minihash x) x ∧ r'.currentState ≠ r'.initialState ∧ r'.completeStates = r.completeStates ++ [P.minihash x] ∧
      ack.completeStates = r'.completeStates := by
  obtain ⟨b, hb, hparse⟩ := C20_packet_round_trip _ (onePacket_fragment h0 hds hxs hk2)
  rw [hb, Option.getD_some]
  have hinc : FragmentedFrame.incoming CONNECTION_ID (onePacket (P.minihash d) (P.minihash x) k bytes) = .ok (oneFrame (P.minihash d) (P.minihash x) k bytes) := by
    simp [FragmentedFrame.incoming, FragmentedFrame.insane, FragmentedFrame.addPacket, onePacket, oneFrame]
  have hskip : r.skipTo P k = some r := by
    unfold Receiver.skipTo; rw [if_neg (by omega)]
  have hadd : r.addPacket (onePacket (P.minihash d) (P.minihash x) k bytes) =
      some { r with fragmentedFrames := r.fragmentedFrames.insertNew k (oneFrame (P.minihash d) (P.minihash x) k bytes) } := by
    unfold Receiver.addPacket
    have : r.fragmentedFrames (onePacket (P.minihash d) (P.minihash x) k bytes).frameNo = none := by rw [hf]
    rw [this, hinc]
    rfl
  have hfin := finish_one P (r := { r with fragmentedFrames := r.fragmentedFrames.insertNew k (oneFrame (P.minihash d) (P.minihash x) k bytes) }) (d := d) (x := x) (k := k)
    (bytes := bytes) hk (by dsimp only [NatMap.insertNew]; rw [if_pos rfl, hf]; rfl) hi hd hp h0 hx hne
  have hno : (onePacket (P.minihash d) (P.minihash x) k bytes).frameNo = k := rfl
  have hall := receive_fresh P hparse (avg := 0) (by rw [hno]; omega) (hno ▸ hskip) hadd hfin
  refine ⟨_, _, hall, ?_, ?_, ?_, ?_, ?_, ?_, ?_⟩
  · rfl
  · funext j
    dsimp only [NatMap.erase, NatMap.insertNew]
    split
    · rfl
    · rw [hf]
  · exact hi
  · rfl
  · dsimp only; rw [hi]; exact hne
  · rfl
  · rfl

/-- **The code violates the full statement.**  If frames keep coming that are coded from the first state, as those of a sender in the conservative mode whose last acknowledgement lists no states, the
receiver keeps a decoder for every one of them, and advertises all their states: whatever the decoder is and however many frames there are. -/
theorem C98_receiver_keeps_all (d : D) (frames : List (List UInt8 × D)) (hl : frames.length ≤ 2 ^ 32) (hds : P.minihash d < 2 ^ 32)
    (h : ∀ x ∈ frames, x.1 ≠ [] ∧ P.decode d x.1 = some x.2 ∧ P.minihash x.2 < 2 ^ 32 ∧ P.minihash x.2 ≠ P.minihash d) :
    ∃ r, (Receiver.start P d).run P (sameSource (P.minihash d) 0 (frames.map fun x => (x.1, P.minihash x.2))) = some r ∧
      r.completeStates = frames.map (fun x => P.minihash x.2) ∧ ∀ x ∈ frames, ∃ y, r.decoders (P.minihash x.2) = some y := by
  have key : ∀ (frames : List (List UInt8 × D)) (k : Nat) (r : Receiver D), k + frames.length ≤ 2 ^ 32 →
      (∀ x ∈ frames, x.1 ≠ [] ∧ P.decode d x.1 = some x.2 ∧ P.minihash x.2 < 2 ^ 32 ∧ P.minihash x.2 ≠ P.minihash d) →
      r.nextFrameNo = k → r.fragmentedFrames = (fun _ => none) → r.initialState = P.minihash d → r.decoders r.initialState = some d → (r.currentState = r.initialState → r.player = d) →
      ∃ r', r.run P (sameSource (P.minihash d) k (frames.map fun x => (x.1, P.minihash x.2))) = some r' ∧ r'.completeStates = r.completeStates ++ frames.map (fun x => P.minihash x.2) ∧
        (∀ s y, r.decoders s = some y → ∃ y, r'.decoders s = some y) ∧ ∀ x ∈ frames, ∃ y, r'.decoders (P.minihash x.2) = some y := by
    intro frames
    induction frames with
    | nil => intro k r _ _ _ _ _ _ _; exact ⟨r, rfl, by simp, fun s y h => ⟨y, h⟩, fun x hx => nomatch hx⟩
    | cons x frames ih =>
      intro k r hlen hx hk hf hi hd hp
      obtain ⟨x1, x2, x3, x4⟩ := hx x (by simp)
      simp only [List.length_cons] at hlen
      obtain ⟨r1, ack, e1, e2, e3, e4, e5, e6, e7, _⟩ := receive_one P hk hf hi hd hp x1 x2 x3 hds x4 (by omega)
      have hd1 : r1.decoders r1.initialState = some d := by
        rw [e5, e4]
        unfold NatMap.insertNew
        rw [if_neg (Ne.symm x4), ← hi, hd]
      obtain ⟨r', f1, f2, f3, f4⟩ := ih (k + 1) r1 (by omega) (fun y hy => hx y (by simp [hy])) e2 e3 e4 hd1 (fun h => absurd h e6)
      refine ⟨r', ?_, ?_, ?_, ?_⟩
      · simp only [List.map_cons, sameSource, Receiver.run, Option.bind_eq_bind, e1, Option.bind_some]
        exact f1
      · rw [f2, e7]; simp
      · intro s y hs
        have : ∃ z, r1.decoders s = some z := by
          rw [e5]
          unfold NatMap.insertNew
          by_cases hsx : s = P.minihash x.2
          · rw [if_pos hsx, ← hsx, hs]; exact ⟨y, rfl⟩
          · rw [if_neg hsx]; exact ⟨y, hs⟩
        obtain ⟨z, hz⟩ := this
        exact f3 s z hz
      · intro y hy
        rcases List.mem_cons.mp hy with rfl | hy
        · have : ∃ z, r1.decoders (P.minihash y.2) = some z := by
            rw [e5]
            unfold NatMap.insertNew
            rw [if_pos rfl]
            cases r.decoders (P.minihash y.2) with
            | some z => exact ⟨z, rfl⟩
            | none => exact ⟨y.2, rfl⟩
          obtain ⟨z, hz⟩ := this
          exact f3 _ z hz
        · exact f4 y hy
  obtain ⟨r, h1, h2, _, h4⟩ := key frames 0 (Receiver.start P d) (by omega) h rfl rfl rfl (if_pos rfl) (fun _ => rfl)
  exact ⟨r, h1, by simpa [Receiver.start] using h2, h4⟩

/-- A decoder whose state is the number that the bytes of a frame make, in the base 256. -/
def countingPlaying : Playing Nat := { decode := fun _ b => some (b.foldl (fun n x => 256 * n + x.toNat) 0 % 2 ^ 32), minihash := id }

/-- Frames with any number of different states. -/
example (n : Nat) (hn : n < 2 ^ 32) : ∃ bytes : List UInt8, bytes ≠ [] ∧ countingPlaying.decode 0 bytes = some n := by
  refine ⟨[UInt8.ofNat (n / 256 ^ 3), UInt8.ofNat (n / 256 ^ 2), UInt8.ofNat (n / 256), UInt8.ofNat n], by simp, ?_⟩
  simp only [countingPlaying, List.foldl_cons, List.foldl_nil, UInt8.toNat_ofNat', Option.some.injEq]
  omega

/-- A receiver that advertises three states and has got a frame that is coded from the second. -/
def threeKept : Receiver Nat :=
  { player := 7, fragmentedFrames := fun k => if k = 3 then some (oneFrame 6 8 3 [8]) else none, nextFrameNo := 3, currentState := 7, initialState := 0, completeStates := [5, 6, 7]
    decoders := fun j => if j = 0 ∨ 5 ≤ j ∧ j ≤ 7 then some j else none, handed := [] }

/-- It forgets the first. -/
example : (threeKept.finishFrame countingPlaying).map (fun r => (r.completeStates, [0, 5, 6, 7, 8].map r.decoders)) =
    some ([6, 7, 8], [some 0, none, some 6, some 7, some 8]) := by decide

/-! ### The size of an acknowledgement -/

theorem flatten_put_length (l : List Nat) : (l.map (putField 4)).flatten.length = 4 * l.length := by
  induction l with
  | nil => rfl
  | cons x l ih => simp only [List.map_cons, List.flatten_cons, List.length_append, putField_length, ih, List.length_cons]; omega

/-- **C98.**  An acknowledgement takes 20 bytes and 4 for each state that the receiver advertises. -/
theorem C98_ack_size (a : AckPacket) : a.toBytes.length = 20 + 4 * a.completeStates.length := by
  unfold AckPacket.toBytes
  simp only [List.length_append, putField_length, flatten_put_length]
  omega

/-- **C98.**  The parser sets aside no more memory for a genuine acknowledgement than the acknowledgement is long. -/
theorem C98_ack_memory_partial (a : AckPacket) (h : a.Fits) : ackAllocation a.toBytes + 20 = a.toBytes.length := by
  have hc : a.completeStates.length % 2 ^ 32 = a.completeStates.length := Nat.mod_eq_of_lt h.count
  have h6 : getField a.toBytes 16 4 = .ok a.completeStates.length :=
    getField_at (a := putField 2 a.connectionId ++ putField 4 a.frameNo ++ putField 2 a.fragmentNo ++ putField 4 a.avgDelay ++
      putField 4 a.currentState) (by unfold AckPacket.toBytes; rw [hc]; simp only [List.append_assoc] <;> rfl) (by simp [putField_length]) h.count
  unfold ackAllocation
  rw [h6, C98_ack_size]
  dsimp only
  omega

example : ackAllocation ({ connectionId := 1337, frameNo := 2, fragmentNo := 0, avgDelay := 5, currentState := 7, completeStates := [7, 8, 9] } : AckPacket).toBytes = 12 := by decide

/-- **The code violates the full statement.**  For 20 bytes from anyone the sender sets aside almost 16 GiB, before it finds that there are no states in them. -/
theorem C98_ack_memory : ∃ b : List UInt8, b.length = 20 ∧ ackAllocation b = 17179869180 ∧ (AckPacket.parse b).toOption = none := by
  refine ⟨List.replicate 20 255, by simp, by decide, ?_⟩
  have h0 : ∀ n, readStates (List.replicate 20 (255 : UInt8)) 0 (n + 1) = .error .outOfRange := by intro n; rfl
  have h6 : getField (List.replicate 20 (255 : UInt8)) 16 4 = .ok (4294967294 + 1) := by decide
  unfold AckPacket.parse
  have h1 : getField (List.replicate 20 (255 : UInt8)) 0 2 = .ok 65535 := by decide
  have h2 : getField (List.replicate 20 (255 : UInt8)) 2 4 = .ok 4294967295 := by decide
  have h3 : getField (List.replicate 20 (255 : UInt8)) 6 2 = .ok 65535 := by decide
  have h4 : getField (List.replicate 20 (255 : UInt8)) 8 4 = .ok 4294967295 := by decide
  have h5 : getField (List.replicate 20 (255 : UInt8)) 12 4 = .ok 4294967295 := by decide
  rw [h1, h2, h3, h4, h5, h6]
  simp only [bind, Except.bind, h0, Except.toOption]

/-- **The code violates the full statement.**  From 16372 frames on the acknowledgement is larger than any datagram over IPv4 can be, which is 65507 bytes. -/
theorem C98_ack_too_large (d : D) (frames : List (List UInt8 × D)) (hl : frames.length ≤ 2 ^ 32) (hmany : 16372 ≤ frames.length) (hds : P.minihash d < 2 ^ 32)
    (h : ∀ x ∈ frames, x.1 ≠ [] ∧ P.decode d x.1 = some x.2 ∧ P.minihash x.2 < 2 ^ 32 ∧ P.minihash x.2 ≠ P.minihash d) :
    ∃ r, (Receiver.start P d).run P (sameSource (P.minihash d) 0 (frames.map fun x => (x.1, P.minihash x.2))) = some r ∧
      ∀ a : AckPacket, a.completeStates = r.completeStates → 65507 < a.toBytes.length := by
  obtain ⟨r, h1, h2, _⟩ := C98_receiver_keeps_all P d frames hl hds h
  refine ⟨r, h1, ?_⟩
  intro a ha
  rw [C98_ack_size, ha, h2, List.length_map]
  omega

/-- There are such frames, as many as that. -/
example : ∃ frames : List (List UInt8 × Nat), 16372 ≤ frames.length ∧ frames.length ≤ 2 ^ 32 ∧
    ∀ x ∈ frames, x.1 ≠ [] ∧ countingPlaying.decode 0 x.1 = some x.2 ∧ countingPlaying.minihash x.2 < 2 ^ 32 ∧ countingPlaying.minihash x.2 ≠ countingPlaying.minihash 0 :=
  ⟨List.replicate 16372 ([5], 5), by rw [List.length_replicate], by rw [List.length_replicate]; decide, fun x hx => by rw [List.eq_of_mem_replicate hx]; decide⟩

/-! ### What the sender keeps -/

section sender

variable {E : Type} (minihash : E → Nat)

theorem outgoing_target {n c source target k time : Nat} {bytes : List UInt8} {f : FragmentedFrame} (h : FragmentedFrame.outgoing n c source target k time bytes = some f) : f.targetState = target := by
  unfold FragmentedFrame.outgoing at h
  obtain ⟨fragments, _, h⟩ := Option.bind_eq_some_iff.mp h
  cases fragments with
  | nil => cases h
  | cons first rest =>
    obtain ⟨fs, _, h⟩ := Option.bind_eq_some_iff.mp h
    rw [← Option.some.inj h]

theorem cleanUp_kept (acked : Nat) (assumed : Option Nat) : ∀ (l : List Nat) (m : NatMap E) (states : List Nat) (m' : NatMap E), cleanUp acked assumed l m = some (states, m') →
    ∃ pre, l = pre ++ states ∧ (∀ s ∈ pre, s ≠ acked ∧ some s ≠ assumed) ∧ (∀ s, states.head? = some s → s = acked ∨ some s = assumed) ∧
      ∀ j, m' j = if j ∈ pre ∧ j ∉ states then none else m j := by
  intro l
  induction l with
  | nil =>
    intro m states m' h
    obtain ⟨rfl, rfl⟩ := Prod.mk.inj (Option.some.inj h)
    exact ⟨[], rfl, (fun s hs => by simp at hs), (fun s hs => by simp at hs), fun j => by simp⟩
  | cons x l ih =>
    intro m states m' h
    unfold cleanUp at h
    split at h
    · rename_i hx
      cases assumed with
      | none => cases h
      | some v =>
        dsimp only at h
        split at h
        · rename_i hv
          obtain ⟨pre, h1, h2, h3, h4⟩ := ih _ _ _ h
          refine ⟨x :: pre, by rw [h1]; rfl, ?_, h3, ?_⟩
          · intro s hs
            rcases List.mem_cons.mp hs with rfl | hs
            · exact ⟨hx, fun h => hv (Option.some.inj h)⟩
            · exact h2 s hs
          · intro j
            rw [h4]
            by_cases hj : j ∈ pre ∧ j ∉ states
            · rw [if_pos hj, if_pos ⟨List.mem_cons_of_mem _ hj.1, hj.2⟩]
            · rw [if_neg hj]
              by_cases hjx : j = x
              · subst hjx
                by_cases hm : j ∈ l
                · rw [if_pos hm]
                  have hjs : j ∈ states := by
                    rw [h1] at hm
                    rcases List.mem_append.mp hm with h | h
                    · exact not_not.mp fun hn => hj ⟨h, hn⟩
                    · exact h
                  rw [if_neg (fun h => h.2 hjs)]
                · rw [if_neg hm, if_pos ⟨List.mem_cons_self .., fun hs => hm (by rw [h1]; exact List.mem_append_right _ hs)⟩]
                  unfold NatMap.erase
                  rw [if_pos rfl]
              · have hnj : ¬ (j ∈ x :: pre ∧ j ∉ states) := fun h => hj ⟨(List.mem_cons.mp h.1).resolve_left hjx, h.2⟩
                rw [if_neg hnj]
                split
                · rfl
                · unfold NatMap.erase
                  rw [if_neg hjx]
        · rename_i hv
          obtain ⟨rfl, rfl⟩ := Prod.mk.inj (Option.some.inj h)
          exact ⟨[], rfl, (fun s hs => by simp at hs), fun s hs => .inr (by rw [← Option.some.inj hs, not_not.mp hv]), fun j => by simp⟩
    · rename_i hx
      obtain ⟨rfl, rfl⟩ := Prod.mk.inj (Option.some.inj h)
      exact ⟨[], rfl, (fun s hs => by simp at hs), fun s hs => .inl (by rw [← Option.some.inj hs, not_not.mp hx]), fun j => by simp⟩

/-- What one event does to what the sender keeps. -/
theorem sender_step_kept {s s' : Sender E} {e : SenderEvent E} {ff : Option FragmentedFrame} (hs : ∀ j x, s.encoders j = some x → j = s.initialState ∨ j ∈ s.encoderStates)
    (h : s.step minihash e = some (s', ff)) :
    s'.initialState = s.initialState ∧ (∀ j x, s'.encoders j = some x → j = s'.initialState ∨ j ∈ s'.encoderStates) ∧
      s'.encoderStates.length ≤ s.encoderStates.length + ff.toList.length := by
  cases e with
  | startEncode now cc due =>
    obtain ⟨s2, hs2, e2⟩ := Option.map_eq_some_iff.mp h
    obtain ⟨rfl, rfl⟩ := Prod.mk.inj e2
    obtain ⟨_, rfl⟩ | ⟨_, s3, source, u, enc, hc, _, _, rfl⟩ := startEncode_spec hs2
    · exact ⟨rfl, hs, by simp⟩
    · obtain ⟨st, en, rfl, ⟨rfl, rfl⟩ | ⟨acked, _, _, _, hcl⟩⟩ := cleanUp_eq hc
      · exact ⟨rfl, hs, by simp⟩
      · obtain ⟨pre, h1, _, _, h4⟩ := cleanUp_kept _ _ _ _ _ _ hcl
        refine ⟨rfl, ?_, ?_⟩
        · intro j x hj
          dsimp only at hj ⊢
          rw [h4] at hj
          split at hj
          · cases hj
          · rename_i hn
            rcases hs j x hj with h | h
            · exact .inl h
            · rw [h1] at h
              rcases List.mem_append.mp h with h | h
              · exact .inr (not_not.mp fun hx => hn ⟨h, hx⟩)
              · exact .inr h
        · dsimp only
          rw [h1, List.length_append]
          simp
  | endEncode results time =>
    obtain ⟨size, choice, _, hch, ⟨hcn, rfl, rfl⟩ | ⟨_, o, f, count, _, _, hf, hcount, rfl, rfl⟩⟩ := endEncode_spec minihash h
    · exact ⟨rfl, hs, by simp⟩
    · refine ⟨rfl, ?_, by simp⟩
      intro j x hj
      dsimp only at hj ⊢
      unfold NatMap.insertNew at hj
      by_cases hjx : j = minihash o.encoder
      · exact .inr (by rw [hjx]; simp)
      · rw [if_neg hjx] at hj
        exact (hs j x hj).imp_right (List.mem_append_left _)
  | ack a =>
    obtain ⟨s2, hs2, e2⟩ := Option.map_eq_some_iff.mp h
    obtain ⟨rfl, rfl⟩ := Prod.mk.inj e2
    obtain ⟨_, rfl⟩ | ⟨_, seq, _, ⟨_, _, rfl⟩ | ⟨_, rfl⟩⟩ := acknowledge_spec hs2 <;> exact ⟨rfl, hs, by simp⟩

/-- **C98.**  Whatever happens, the sender keeps no encoders but the first one and one for each state of its list, and the list has no more states than frames were sent. -/
theorem C98_encoders (connectionId : Nat) (mode : OperationMode) (base : E) (now : Int) (events : List (SenderEvent E)) (s : Sender E) (sent : List FragmentedFrame)
    (h : (Sender.start minihash connectionId mode base now).run minihash events = some (s, sent)) :
    (∀ j x, s.encoders j = some x → j = minihash base ∨ j ∈ s.encoderStates) ∧ s.encoderStates.length ≤ sent.length := by
  have key : ∀ (events : List (SenderEvent E)) (s s' : Sender E) (sent : List FragmentedFrame), (∀ j x, s.encoders j = some x → j = s.initialState ∨ j ∈ s.encoderStates) →
      s.run minihash events = some (s', sent) → s'.initialState = s.initialState ∧ (∀ j x, s'.encoders j = some x → j = s'.initialState ∨ j ∈ s'.encoderStates) ∧
      s'.encoderStates.length ≤ s.encoderStates.length + sent.length := by
    intro events
    induction events with
    | nil =>
      intro s s' sent hs h
      obtain ⟨rfl, rfl⟩ := Prod.mk.inj (Option.some.inj h)
      exact ⟨rfl, hs, by simp⟩
    | cons e events ih =>
      intro s s' sent hs h
      unfold Sender.run at h
      obtain ⟨⟨s1, ff⟩, h1, h⟩ := Option.bind_eq_some_iff.mp h
      obtain ⟨⟨s2, more⟩, h2, h⟩ := Option.bind_eq_some_iff.mp h
      obtain ⟨rfl, rfl⟩ := Prod.mk.inj (Option.some.inj h)
      obtain ⟨k1, k2, k3⟩ := sender_step_kept minihash hs h1
      obtain ⟨m1, m2, m3⟩ := ih s1 _ _ k2 h2
      exact ⟨m1.trans k1, m2, by rw [List.length_append]; omega⟩
  obtain ⟨k1, k2, k3⟩ := key events _ _ _ (by
    intro j x hj
    change (if j = minihash base then some base else none) = some x at hj
    split at hj
    · rename_i hj'; exact .inl hj'
    · cases hj) h
  refine ⟨?_, by simpa [Sender.start] using k3⟩
  intro j x hj
  rw [k1] at k2
  exact k2 j x hj

/-- **C98.**  When an encode starts and the state that the receiver acknowledged last is not the first one and the sender still has it, the sender forgets all states from the front of its list up to
the acknowledged one or the one that it assumes the receiver to be in, and their encoders, unless a state is listed again later.  The other encoders stay. -/
theorem C98_sender_forgets (s s' : Sender E) (now : Int) (cc : Nat) (due : Bool) (acked : Nat) (hj : s.jobs = []) (ha : s.receiverLastAckedState = some acked) (hi : acked ≠ s.initialState)
    (he : (s.encoders acked).isSome = true) (h : s.startEncode now cc due = some s') :
    ∃ forgotten, s.encoderStates = forgotten ++ s'.encoderStates ∧ (∀ j ∈ forgotten, j ≠ acked ∧ some j ≠ s.receiverAssumedState) ∧
      (∀ j, s'.encoderStates.head? = some j → j = acked ∨ some j = s.receiverAssumedState) ∧
      (∀ j ∈ forgotten, j ∉ s'.encoderStates → s'.encoders j = none) ∧ ∀ j, j ∉ forgotten ∨ j ∈ s'.encoderStates → s'.encoders j = s.encoders j := by
  obtain ⟨hn, _⟩ | ⟨_, s3, source, u, enc, hc, _, _, rfl⟩ := startEncode_spec h
  · exact absurd hj hn
  unfold Sender.cleanUp at hc
  rw [ha] at hc
  dsimp only at hc
  rw [if_pos ⟨hi, he⟩] at hc
  obtain ⟨⟨st, en⟩, h1, hc⟩ := Option.bind_eq_some_iff.mp hc
  have := Option.some.inj hc
  subst this
  obtain ⟨pre, e1, e2, e3, e4⟩ := cleanUp_kept _ _ _ _ _ _ h1
  refine ⟨pre, e1, e2, e3, ?_, ?_⟩
  · intro j hj hn
    dsimp only at hn ⊢
    rw [e4, if_pos ⟨hj, hn⟩]
  · intro j hj
    dsimp only at hj ⊢
    rw [e4, if_neg]
    rintro ⟨a, b⟩
    rcases hj with hj | hj
    · exact hj a
    · exact b hj

/-- A sender that has sent three frames, the second of which is acknowledged. -/
def threeSent : Sender Nat :=
  { connectionId := 1, mode := .s1, initialState := 0, encoderStates := [1, 2, 3], encoders := fun j => if j ≤ 3 then some j else none
    receiverLastAckedState := some 2, receiverAssumedState := some 3, receiverCompleteStates := [2], conservativeUntil := 0 }

/-- It forgets the first. -/
example : (threeSent.startEncode 1 0 false).map (fun s => (s.encoderStates, [0, 1, 2, 3].map s.encoders)) = some ([2, 3], [some 0, none, some 2, some 3]) := by decide

/-- **The code violates the full statement.**  As long as no acknowledgement comes, the sender forgets nothing: it keeps an encoder for every frame that it has ever sent. -/
theorem C98_sender_keeps_all (connectionId : Nat) (mode : OperationMode) (base : E) (now : Int) (events : List (SenderEvent E)) (s : Sender E) (sent : List FragmentedFrame)
    (hno : ∀ e ∈ events, ∀ a, e ≠ .ack a) (h : (Sender.start minihash connectionId mode base now).run minihash events = some (s, sent)) :
    s.encoderStates = sent.map (·.targetState) ∧ ∀ f ∈ sent, (s.encoders f.targetState).isSome = true := by
  have key : ∀ (events : List (SenderEvent E)) (s s' : Sender E) (sent : List FragmentedFrame), (∀ e ∈ events, ∀ a, e ≠ .ack a) → s.receiverLastAckedState = none →
      s.run minihash events = some (s', sent) → s'.encoderStates = s.encoderStates ++ sent.map (·.targetState) ∧ (∀ j, (s.encoders j).isSome = true → (s'.encoders j).isSome = true) ∧
        ∀ f ∈ sent, (s'.encoders f.targetState).isSome = true := by
    intro events
    induction events with
    | nil =>
      intro s s' sent _ _ h
      obtain ⟨rfl, rfl⟩ := Prod.mk.inj (Option.some.inj h)
      exact ⟨by simp, fun _ h => h, (fun f hf => by simp at hf)⟩
    | cons e events ih =>
      intro s s' sent hno hla h
      unfold Sender.run at h
      obtain ⟨⟨s1, ff⟩, h1, h⟩ := Option.bind_eq_some_iff.mp h
      obtain ⟨⟨s2, more⟩, h2, h⟩ := Option.bind_eq_some_iff.mp h
      obtain ⟨rfl, rfl⟩ := Prod.mk.inj (Option.some.inj h)
      have hstep : s1.receiverLastAckedState = none ∧ s1.encoderStates = s.encoderStates ++ ff.toList.map (·.targetState) ∧
          (∀ j, (s.encoders j).isSome = true → (s1.encoders j).isSome = true) ∧ ∀ f ∈ ff.toList, (s1.encoders f.targetState).isSome = true := by
        cases e with
        | startEncode now cc due =>
          obtain ⟨s2, hs2, e2⟩ := Option.map_eq_some_iff.mp h1
          obtain ⟨rfl, rfl⟩ := Prod.mk.inj e2
          obtain ⟨_, rfl⟩ | ⟨_, s3, source, u, enc, hc, _, _, rfl⟩ := startEncode_spec hs2
          · exact ⟨hla, by simp, fun _ h => h, (fun f hf => by simp at hf)⟩
          · obtain ⟨st, en, rfl, ⟨rfl, rfl⟩ | ⟨acked, ha, _, _, hcl⟩⟩ := cleanUp_eq hc
            · exact ⟨hla, by simp, fun _ h => h, (fun f hf => by simp at hf)⟩
            · rw [hla] at ha; cases ha
        | endEncode results time =>
          obtain ⟨size, choice, _, hch, ⟨hcn, rfl, rfl⟩ | ⟨_, o, f, count, _, _, hf, hcount, rfl, rfl⟩⟩ := endEncode_spec minihash h1
          · exact ⟨hla, by simp, fun _ h => h, (fun f hf => by simp at hf)⟩
          · have htarget : f.targetState = minihash o.encoder := outgoing_target hf
            have hins : ∀ j, (s.encoders.insertNew (minihash o.encoder) o.encoder j).isSome = true ↔ (j = minihash o.encoder ∨ (s.encoders j).isSome = true) := by
              intro j
              unfold NatMap.insertNew
              by_cases hj : j = minihash o.encoder
              · rw [if_pos hj]
                cases s.encoders (minihash o.encoder) <;> simp [hj]
              · rw [if_neg hj]; simp [hj]
            refine ⟨hla, by simp [htarget], fun j hj => (hins j).mpr (.inr hj), ?_⟩
            intro g hg
            simp only [Option.toList_some, List.mem_singleton] at hg
            subst hg
            exact (hins _).mpr (.inl htarget)
        | ack a => exact absurd rfl (hno (.ack a) (by simp) a)
      obtain ⟨k1, k2, k3, k4⟩ := hstep
      obtain ⟨m1, m2, m3⟩ := ih s1 _ _ (fun e he => hno e (by simp [he])) k1 h2
      refine ⟨by rw [m1, k2]; simp, fun j hj => m2 j (k3 j hj), ?_⟩
      intro f hf
      rcases List.mem_append.mp hf with hf | hf
      · exact m2 _ (k4 f hf)
      · exact m3 f hf
  obtain ⟨k1, _, k3⟩ := key events _ _ _ hno rfl h
  exact ⟨by simpa [Sender.start] using k1, k3⟩

/-- Two frames without an acknowledgement. -/
example : (((Sender.start (fun e : Nat => e) 1 .s1 100 0).run (fun e => e) [.startEncode 1 0 false, .endEncode [(101, [1]), (102, [2, 3])] 0, .startEncode 2 0 false,
    .endEncode [(103, [1]), (104, [2, 3])] 0]).map fun x => (x.1.encoderStates, x.2.map (·.targetState))) = some ([102, 104], [102, 104]) := by decide

end sender

end Alfalfa
