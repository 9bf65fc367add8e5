import Verif.Props.ReceiverFrames

/-! Receivers at work: cases that meet the hypotheses of C27, C28 and C59, and cases in which C28 fails. -/

namespace Alfalfa

/-- A decoder with few states: a frame sets the state to its first byte. -/
def toyPlaying : Playing Nat := { decode := fun _ b => b.head?.map UInt8.toNat, minihash := id }

/-- The datagram of fragment `k` of `n` of frame `no`. -/
def toyWire (source target no k n : Nat) (payload : List UInt8) : List UInt8 :=
  ({ valid := true, connectionId := 1337, sourceState := source, targetState := target, frameNo := no, fragmentNo := k, fragmentsInThisFrame := n,
     timeSinceLast := 0, payload } : Packet).toBytes.getD []

/-- Two frames arrive, the second one twice and before the first one, then a third one of two fragments of which one is lost, then a fourth. -/
def toyRun : List (List UInt8 × Nat) :=
  [(toyWire 0 1 0 0 1 [1], 5), (toyWire 1 2 1 0 1 [2], 5), (toyWire 1 2 1 0 1 [2], 5), (toyWire 0 1 0 0 1 [1], 5), (toyWire 2 3 2 0 2 [3], 5),
   (toyWire 2 4 3 0 1 [4], 5)]

example : ((Receiver.start toyPlaying 0).run toyPlaying toyRun).map (fun r => (r.nextFrameNo, r.completeStates, r.currentState)) =
    some (4, [2, 4], 4) := by decide +kernel

example : ((Receiver.start toyPlaying 0).run toyPlaying toyRun).map (·.handed) = some [(0, 0, [1]), (1, 1, [2]), (2, 2, [3]), (3, 2, [4])] := by
  decide +kernel

/-- The state the receiver is in before the last packet meets the hypotheses of the theorems about it. -/
example : ∃ r, (Receiver.start toyPlaying 0).run toyPlaying (toyRun.take 5) = some r ∧
    (∃ r' ack, r.receive toyPlaying (toyWire 2 4 3 0 1 [4]) 5 = some (r', some ack) ∧ ack.completeStates = [2, 4] ∧ ack.currentState = 4) := by
  have h : ((Receiver.start toyPlaying 0).run toyPlaying (toyRun.take 5)).isSome = true := by decide +kernel
  obtain ⟨r, hr⟩ := Option.isSome_iff_exists.mp h
  refine ⟨r, hr, ?_⟩
  have h2 : (((Receiver.start toyPlaying 0).run toyPlaying (toyRun.take 5)).bind fun r => (r.receive toyPlaying (toyWire 2 4 3 0 1 [4]) 5).map
      fun x => x.2.map fun a => (a.completeStates, a.currentState)) = some (some ([2, 4], 4)) := by decide +kernel
  rw [hr] at h2
  change (r.receive toyPlaying (toyWire 2 4 3 0 1 [4]) 5).map _ = _ at h2
  obtain ⟨⟨r', ack⟩, h3, h4⟩ := Option.map_eq_some_iff.mp h2
  obtain ⟨a, h5, h6⟩ := Option.map_eq_some_iff.mp h4
  obtain ⟨e1, e2⟩ := Prod.mk.inj h6
  change ack = some a at h5
  subst h5
  exact ⟨r', a, h3, e1, e2⟩

/-- A run in which no state is advertised twice. -/
def runFresh {D : Type} (P : Playing D) (r : Receiver D) : List (List UInt8 × Nat) → Bool
  | [] => true
  | (wire, avg) :: rest =>
    match r.receive P wire avg with
    | none => false
    | some (r, _) => decide r.completeStates.Nodup && runFresh P r rest

theorem runFresh_reaches {D : Type} (P : Playing D) (W : List UInt8 → Prop) (d : D) (ws : List (List UInt8 × Nat)) : ∀ (r : Receiver D),
    Receiver.ReachesFresh P W d r → (∀ w ∈ ws, W w.1) → runFresh P r ws = true → ∃ r', r.run P ws = some r' ∧ Receiver.ReachesFresh P W d r' := by
  induction ws with
  | nil => intro r h _ _; exact ⟨r, rfl, h⟩
  | cons w ws ih =>
    intro r h hw hf
    obtain ⟨wire, avg⟩ := w
    rw [runFresh] at hf
    cases hr : r.receive P wire avg with
    | none => rw [hr] at hf; exact nomatch hf
    | some x =>
      obtain ⟨r1, ack⟩ := x
      rw [hr] at hf
      dsimp only at hf
      rw [Bool.and_eq_true, decide_eq_true_iff] at hf
      obtain ⟨r', h1, h2⟩ := ih r1 (.step h (hw _ (List.mem_cons_self ..)) hr hf.1) (fun v hv => hw v (List.mem_cons_of_mem _ hv)) hf.2
      refine ⟨r', ?_, h2⟩
      rw [Receiver.run, hr]
      exact h1

/-- The hypotheses of C28 are met with two advertised states. -/
example : ∃ r, Receiver.ReachesFresh toyPlaying (fun _ => True) 0 r ∧ r.completeStates = [2, 4] := by
  obtain ⟨r, h1, h2⟩ := runFresh_reaches toyPlaying (fun _ => True) 0 toyRun _ .start (fun _ _ => trivial) (by decide +kernel)
  refine ⟨r, h2, ?_⟩
  have : ((Receiver.start toyPlaying 0).run toyPlaying toyRun).map (·.completeStates) = some [2, 4] := by decide +kernel
  rw [h1] at this
  exact Option.some.inj this

/-- What was sent in that run. -/
def toySent : Nat → SentFrame
  | 0 => toyFrame 0 1 0 [[1]]
  | 1 => toyFrame 1 2 1 [[2]]
  | 3 => toyFrame 2 4 3 [[4]]
  | _ => { source := 0, target := 0, time := 0, whole := [], packets := [] }
where
  toyFrame (s t no : Nat) (cut : List (List UInt8)) : SentFrame :=
    { source := s, target := t, time := 0, whole := cut.flatten
      packets := cut.mapIdx fun k payload =>
        { valid := true, connectionId := 1337, sourceState := s, targetState := t, frameNo := no, fragmentNo := k
          fragmentsInThisFrame := cut.length, timeSinceLast := 0, payload } }

theorem toyFrame_as (s t no : Nat) (b : UInt8) (hs : s < 2 ^ 32) (ht : t < 2 ^ 32) (hn : no < 2 ^ 32) :
    (toySent.toyFrame s t no [[b]]).As 1337 no := by
  refine ⟨⟨rfl, by simp [toySent.toyFrame], ?_, ?_, ?_, ?_, ?_, ?_⟩, by decide, hs, ht, hn, by simp [toySent.toyFrame], by simp [toySent.toyFrame]⟩
  · intro k p hp
    rcases k with _ | k
    · have := Option.some.inj hp; rw [← this]; rfl
    · exact nomatch hp
  · intro p hp; rw [List.mem_singleton.mp hp]; rfl
  · intro p hp; rw [List.mem_singleton.mp hp]; exact ⟨Nat.one_pos, show (1 : Nat) ≤ 1400 by decide⟩
  · intro p hp; exact absurd hp List.not_mem_nil
  · intro p hp; rw [List.mem_singleton.mp hp]; exact ⟨rfl, rfl, rfl, rfl, rfl⟩
  · intro k p hp
    rcases k with _ | k
    · have := Option.some.inj hp; rw [← this]; rfl
    · exact nomatch hp

theorem toySent_as (k : Nat) (h : (toySent k).packets ≠ []) : (toySent k).As 1337 k := by
  match k, h with
  | 0, _ => exact toyFrame_as 0 1 0 1 (by decide) (by decide) (by decide)
  | 1, _ => exact toyFrame_as 1 2 1 2 (by decide) (by decide) (by decide)
  | 3, _ => exact toyFrame_as 2 4 3 4 (by decide) (by decide) (by decide)
  | 2, h => exact absurd rfl h
  | k + 4, h => exact absurd rfl h

/-- The hypotheses of the theorems about genuine packets are met: frame 2 is lost altogether, frame 1 comes twice. -/
example : let ws := [(toyWire 0 1 0 0 1 [1], 5), (toyWire 1 2 1 0 1 [2], 5), (toyWire 1 2 1 0 1 [2], 5), (toyWire 2 4 3 0 1 [4], 5)]
    (∀ w ∈ ws, GenuineWire toySent w.1) ∧ (∀ k, (toySent k).packets ≠ [] → (toySent k).As 1337 k) ∧
      ∃ r, (Receiver.start toyPlaying 0).run toyPlaying ws = some r ∧ Receiver.ReachesFresh toyPlaying (GenuineWire toySent) 0 r ∧
        r.handed = [(0, 0, [1]), (1, 1, [2]), (3, 2, [4])] := by
  have hg : ∀ w ∈ [(toyWire 0 1 0 0 1 [1], 5), (toyWire 1 2 1 0 1 [2], 5), (toyWire 1 2 1 0 1 [2], 5), (toyWire 2 4 3 0 1 [4], 5)],
      GenuineWire toySent w.1 := by
    intro w hw p hp
    have key : ∀ wire q, Packet.parse wire = .ok p → Packet.parse wire = .ok q → q ∈ (toySent q.frameNo).packets → p ∈ (toySent p.frameNo).packets := by
      intro wire q h1 h2 h3
      rw [h1] at h2
      rw [Except.ok.inj h2]; exact h3
    simp only [List.mem_cons, List.not_mem_nil, or_false] at hw
    rcases hw with rfl | rfl | rfl | rfl
    · exact key _ _ hp (by rfl) (by decide +kernel)
    · exact key _ _ hp (by rfl) (by decide +kernel)
    · exact key _ _ hp (by rfl) (by decide +kernel)
    · exact key _ _ hp (by rfl) (by decide +kernel)
  refine ⟨hg, toySent_as, ?_⟩
  obtain ⟨r, h1, h2⟩ := runFresh_reaches toyPlaying (GenuineWire toySent) 0 _ _ .start hg (by decide +kernel)
  refine ⟨r, h1, h2, ?_⟩
  have : ((Receiver.start toyPlaying 0).run toyPlaying [(toyWire 0 1 0 0 1 [1], 5), (toyWire 1 2 1 0 1 [2], 5), (toyWire 1 2 1 0 1 [2], 5),
      (toyWire 2 4 3 0 1 [4], 5)]).map (·.handed) = some [(0, 0, [1]), (1, 1, [2]), (3, 2, [4])] := by decide +kernel
  rw [h1] at this
  exact Option.some.inj this

/-! ### C28 does not hold in general -/

/-- **C28 does not hold.** A frame that leaves the decoder in the state it was in (state 1 here) puts that state into the list a second time; a later
frame coded against a state between the two erases the decoder while the state is still advertised.  All frames are what their headers say. -/
theorem C28_readvertised_state_lost : ∃ r : Receiver Nat,
    (Receiver.start toyPlaying 0).run toyPlaying
      [(toyWire 0 1 0 0 1 [1], 0), (toyWire 1 2 1 0 1 [2], 0), (toyWire 1 1 2 0 1 [1], 0), (toyWire 2 3 3 0 1 [3], 0)] = some r ∧
    r.completeStates = [2, 1, 3] ∧ r.decoders 1 = none := by
  have h : (((Receiver.start toyPlaying 0).run toyPlaying
      [(toyWire 0 1 0 0 1 [1], 0), (toyWire 1 2 1 0 1 [2], 0), (toyWire 1 1 2 0 1 [1], 0), (toyWire 2 3 3 0 1 [3], 0)]).map
      fun r => (r.completeStates, r.decoders 1)) = some ([2, 1, 3], none) := by decide +kernel
  obtain ⟨r, h1, h2⟩ := Option.map_eq_some_iff.mp h
  exact ⟨r, h1, (Prod.mk.inj h2).1, (Prod.mk.inj h2).2⟩

/-- The next frame coded against that state is then decoded by a decoder in another state (3). -/
theorem C28_wrong_decoder_used : ∃ r : Receiver Nat,
    (Receiver.start toyPlaying 0).run toyPlaying
      [(toyWire 0 1 0 0 1 [1], 0), (toyWire 1 2 1 0 1 [2], 0), (toyWire 1 1 2 0 1 [1], 0), (toyWire 2 3 3 0 1 [3], 0), (toyWire 1 5 4 0 1 [5], 0)] = some r ∧
    r.handed.getLast? = some (4, 3, [5]) := by
  have h : (((Receiver.start toyPlaying 0).run toyPlaying
      [(toyWire 0 1 0 0 1 [1], 0), (toyWire 1 2 1 0 1 [2], 0), (toyWire 1 1 2 0 1 [1], 0), (toyWire 2 3 3 0 1 [3], 0), (toyWire 1 5 4 0 1 [5], 0)]).map
      fun r => r.handed.getLast?) = some (some (4, 3, [5])) := by decide +kernel
  exact Option.map_eq_some_iff.mp h

/-- **C28, an assertion that can fail.** The second fragment of frame 0 is lost, and what arrived of the frame brings the decoder into the state that
the whole frame would have (state 5).  The state is not saved, since the frame was not complete; the next frame, coded against it, makes the assertion
that the source is among the complete states fail. -/
theorem C28_assertion_reachable :
    ((Receiver.start toyPlaying 0).run toyPlaying [(toyWire 0 5 0 0 2 [5], 0)]).isSome = true ∧
    (Receiver.start toyPlaying 0).run toyPlaying [(toyWire 0 5 0 0 2 [5], 0), (toyWire 5 6 1 0 1 [6], 0)] = none := by
  constructor
  · decide +kernel
  · have h : ((Receiver.start toyPlaying 0).run toyPlaying [(toyWire 0 5 0 0 2 [5], 0), (toyWire 5 6 1 0 1 [6], 0)]).isNone = true := by decide +kernel
    exact Option.isNone_iff_eq_none.mp h

/-- An empty datagram is not a packet. -/
example : Packet.parse [] = .error .outOfRange := by decide +kernel

/-- A packet of another connection, at the start. -/
example : ∃ wire p, Packet.parse wire = .ok p ∧ p.connectionId ≠ 1337 ∧ (Receiver.start toyPlaying 0).nextFrameNo ≤ p.frameNo :=
  ⟨({ examplePacket with connectionId := 7 }.toBytes).getD [], { examplePacket with connectionId := 7 }, by decide +kernel, by decide, Nat.zero_le _⟩

end Alfalfa
