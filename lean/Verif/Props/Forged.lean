import Verif.Props.Memory
import Verif.Props.Receiver

/-! C100: datagrams from outside of the connection. -/

namespace Alfalfa

variable {D : Type} (P : Playing D)

/-- A packet that anybody can make: the first of two of the last frame that has a number, with one byte. -/
def lastFramePacket : Packet :=
  { valid := true, connectionId := 1337, sourceState := 0, targetState := 0, frameNo := 2 ^ 32 - 1, fragmentNo := 0, fragmentsInThisFrame := 2, timeSinceLast := 0, payload := [0] }

/-- Its bytes: 23 of them. -/
def lastFrameDatagram : List UInt8 := lastFramePacket.toBytes.getD []

theorem lastFrameDatagram_parse : lastFrameDatagram.length = 23 ∧ Packet.parse lastFrameDatagram = .ok lastFramePacket := by
  have hf : lastFramePacket.Fragment :=
    { connectionId := by decide, sourceState := by decide, targetState := by decide, frameNo := by decide, fragmentsInThisFrame := by decide, timeSinceLast := by decide, valid := rfl
      number := by decide, payload := by decide }
  obtain ⟨b, hb, hp⟩ := C20_packet_round_trip _ hf
  have hlen : (lastFramePacket.toBytes.getD []).length = 23 := by decide +kernel
  refine ⟨hlen, ?_⟩
  unfold lastFrameDatagram
  rw [hb]
  exact hp

/-- **C100.**  A packet of an earlier frame than the one that the receiver waits for changes nothing, whoever made it. -/
theorem C100_old (r : Receiver D) (p : Packet) (wire : List UInt8) (avg : Nat) (hp : Packet.parse wire = .ok p) (h : p.frameNo < r.nextFrameNo) : r.receive P wire avg = some (r, none) :=
  C27_old_packet P r p wire avg hp h

/-- **The code violates the full statement.**  One datagram of 23 bytes from anybody ends the receiver or makes it deaf: all packets of the frames that the sender sends afterwards are ignored, without an
acknowledgement, whatever they carry. -/
theorem C100_deaf (r : Receiver D) (hr : r.nextFrameNo < 2 ^ 32) (avg : Nat) :
    r.receive P lastFrameDatagram avg = none ∨
    ∃ r' ack, r.receive P lastFrameDatagram avg = some (r', ack) ∧
      ∀ (wire : List UInt8) (p : Packet) (avg : Nat), Packet.parse wire = .ok p → p.frameNo < 2 ^ 32 - 1 → r'.receive P wire avg = some (r', none) := by
  cases h : r.receive P lastFrameDatagram avg with
  | none => exact .inl rfl
  | some x =>
    obtain ⟨r', ack⟩ := x
    refine .inr ⟨r', ack, rfl, ?_⟩
    intro wire p avg' hp hlt
    refine C27_old_packet P r' p wire avg' hp (lt_of_lt_of_le hlt ?_)
    obtain ⟨q, hq, ⟨hlt', _⟩ | ⟨hle, r1, r2, h1, h2, h3, _⟩⟩ := receive_spec P h
    · rw [lastFrameDatagram_parse.2] at hq
      cases hq
      have : lastFramePacket.frameNo = 2 ^ 32 - 1 := rfl
      omega
    · rw [lastFrameDatagram_parse.2] at hq
      cases hq
      obtain ⟨a1, _⟩ := skipTo_spec P hle h1
      obtain ⟨g, rfl, _⟩ := addPacket_spec h2
      have hfin : r1.nextFrameNo ≤ r'.nextFrameNo := by
        obtain rfl | ⟨f, frame, r3, r4, _, _, _, _, _, rfl⟩ := finishFrame_spec P h3
        · exact le_rfl
        · exact Nat.le_succ _
      have : lastFramePacket.frameNo = 2 ^ 32 - 1 := rfl
      omega

theorem showPartial_empty (n : Nat) (r : Receiver D) (i : Nat) (h : r.fragmentedFrames = fun _ => none) : r.showPartial P i n = some r := by
  induction n generalizing i with
  | zero => rfl
  | succ n ih =>
    unfold Receiver.showPartial
    rw [h]
    exact ih (i + 1)

/-- **The code violates the full statement.**  A receiver that is between two frames is made deaf: it takes the datagram, and acknowledges it. -/
theorem C100_deaf_between (r : Receiver D) (hr : r.nextFrameNo < 2 ^ 32 - 1) (hf : r.fragmentedFrames = fun _ => none) (avg : Nat) :
    ∃ r' ack, r.receive P lastFrameDatagram avg = some (r', some ack) ∧
      ∀ (wire : List UInt8) (p : Packet) (avg : Nat), Packet.parse wire = .ok p → p.frameNo < 2 ^ 32 - 1 → r'.receive P wire avg = some (r', none) := by
  have hno : lastFramePacket.frameNo = 2 ^ 32 - 1 := rfl
  have hskip : r.skipTo P lastFramePacket.frameNo = some { r with nextFrameNo := 2 ^ 32 - 1, currentState := P.minihash r.player } := by
    unfold Receiver.skipTo
    rw [if_pos (by rw [hno]; exact hr), showPartial_empty P _ r _ hf, hno]
    rfl
  let f : FragmentedFrame :=
    { connectionId := 1337, sourceState := 0, targetState := 0, frameNo := 2 ^ 32 - 1, fragmentsInThisFrame := 2, fragments := [lastFramePacket, { valid := false }], remainingFragments := 1 }
  have hinc : FragmentedFrame.incoming CONNECTION_ID lastFramePacket = .ok f := by decide
  have hadd : ({ r with nextFrameNo := 2 ^ 32 - 1, currentState := P.minihash r.player } : Receiver D).addPacket lastFramePacket =
      some { r with nextFrameNo := 2 ^ 32 - 1, currentState := P.minihash r.player, fragmentedFrames := r.fragmentedFrames.insertNew lastFramePacket.frameNo f } := by
    unfold Receiver.addPacket
    dsimp only
    rw [hf, hinc]
  have hfin : ({ r with nextFrameNo := 2 ^ 32 - 1, currentState := P.minihash r.player, fragmentedFrames := r.fragmentedFrames.insertNew lastFramePacket.frameNo f } : Receiver D).finishFrame P =
      some { r with nextFrameNo := 2 ^ 32 - 1, currentState := P.minihash r.player, fragmentedFrames := r.fragmentedFrames.insertNew lastFramePacket.frameNo f } := by
    unfold Receiver.finishFrame
    dsimp only
    have : r.fragmentedFrames.insertNew lastFramePacket.frameNo f (2 ^ 32 - 1) = some f := by
      unfold NatMap.insertNew
      rw [hno, if_pos rfl, hf]
      rfl
    rw [this]
    dsimp only
    rw [if_neg (by decide)]
  refine ⟨_, _, receive_fresh P lastFrameDatagram_parse.2 (by rw [hno]; omega) hskip hadd hfin, ?_⟩
  intro wire p avg' hp hlt
  exact C27_old_packet P _ p wire avg' hp hlt

/-! ### Acknowledgements -/

variable {E : Type}

/-- **C100.**  An acknowledgement of another connection changes nothing. -/
theorem C100_foreign_acknowledgement (s : Sender E) (a : AckPacket) (h : a.connectionId ≠ s.connectionId) : s.acknowledge a = some s := by
  unfold Sender.acknowledge
  rw [if_pos h]

example : (7 : Nat) ≠ 1337 := by decide

/-- **The code violates the full statement.**  One acknowledgement from anybody makes the sender deaf for all acknowledgements of its first 65535 packets, and sets the delay, the state and the list of
states that the sender takes for those of the receiver. -/
theorem C100_sender_deaf (s : Sender E) (h : s.lastAcked = MAX64 ∨ s.lastAcked ≤ 65535) (delay state : Nat) (states : List Nat) :
    ∃ s', s.acknowledge { connectionId := s.connectionId, frameNo := 0, fragmentNo := 65535, avgDelay := delay, currentState := state, completeStates := states } = some s' ∧
      s'.avgDelay = delay ∧ s'.receiverLastAckedState = some state ∧ s'.receiverCompleteStates = states ∧
      ∀ a seq, ackSeqNo a.frameNo a.fragmentNo s.cumulativeFpf = some seq → seq < 65535 → s'.acknowledge a = some s' := by
  refine ⟨{ s with lastAcked := 65535, avgDelay := delay, receiverLastAckedState := some state, receiverCompleteStates := states }, ?_, rfl, rfl, rfl, ?_⟩
  · unfold Sender.acknowledge
    rw [if_neg (not_not.mpr rfl)]
    have hseq : ackSeqNo 0 65535 s.cumulativeFpf = some 65535 := by
      unfold ackSeqNo
      rw [if_neg (by omega)]
    dsimp only
    rw [hseq]
    simp only [Option.bind_eq_bind, Option.bind_some]
    rw [if_neg (by rintro ⟨h1, h2⟩; rcases h with h | h <;> omega)]
  · intro a seq hs hlt
    unfold Sender.acknowledge
    dsimp only
    split
    · rfl
    · rw [hs]
      simp only [Option.bind_eq_bind, Option.bind_some]
      rw [if_pos ⟨by decide, hlt⟩]

theorem frameSize_zero (s : Sender E) (last : Nat) (hl : s.cumulativeFpf.getLast? = some last) (hlast : s.lastAcked ≤ last) (h63 : last < 2 ^ 63) (hd : 100000 < s.avgDelay)
    (hd2 : s.avgDelay < 2 ^ 32 - 1) : s.frameSize = some 0 := by
  unfold Sender.frameSize
  rw [if_pos (by omega), hl]
  simp only [Option.bind_eq_bind, Option.bind_some, Option.pure_def, Option.some.injEq]
  unfold targetSize
  dsimp only
  rw [if_neg (by omega), Nat.div_eq_of_lt hd]
  have e : (last + 2 ^ 64 - s.lastAcked) % 2 ^ 64 = last - s.lastAcked := by omega
  rw [e]
  have : (max 0 (toInt64 (0 + 2 ^ 64 - (last - s.lastAcked)))).toNat = 0 := by
    unfold toInt64
    by_cases h0 : last = s.lastAcked
    · rw [h0, Nat.sub_self]; decide
    · rw [if_neg (by omega)]; omega
  rw [this]


/-- **The code violates the full statement.**  One acknowledgement from anybody, of a packet that was sent and not yet acknowledged, with a delay of more than a tenth of a second in it, makes zero bytes the size
that the sender allows the next frame. -/
theorem C100_sender_starved (s : Sender E) (a : AckPacket) (seq last : Nat) (hc : a.connectionId = s.connectionId) (hseq : ackSeqNo a.frameNo a.fragmentNo s.cumulativeFpf = some seq)
    (hnew : s.lastAcked = MAX64 ∨ s.lastAcked ≤ seq) (hl : s.cumulativeFpf.getLast? = some last) (hlast : seq ≤ last) (h63 : last < 2 ^ 63) (hd : 100000 < a.avgDelay) (hd2 : a.avgDelay < 2 ^ 32 - 1) :
    ∃ s', s.acknowledge a = some s' ∧ s'.frameSize = some 0 := by
  refine ⟨{ s with lastAcked := seq, avgDelay := a.avgDelay, receiverLastAckedState := some a.currentState, receiverCompleteStates := a.completeStates }, ?_, ?_⟩
  · unfold Sender.acknowledge
    rw [if_neg (not_not.mpr hc)]
    rw [hseq]
    simp only [Option.bind_eq_bind, Option.bind_some]
    rw [if_neg (by rintro ⟨h1, h2⟩; rcases hnew with h | h <;> omega)]
  · exact frameSize_zero _ last hl hlast h63 hd hd2

/-- The receiver at its start is between two frames. -/
example : (Receiver.start countingPlaying 0).nextFrameNo < 2 ^ 32 - 1 ∧ (Receiver.start countingPlaying 0).fragmentedFrames = fun _ => none := ⟨by decide, rfl⟩

/-- A sender that has sent five packets in two frames. -/
def fiveSent : Sender Nat := { connectionId := 7, mode := .s2, initialState := 0, cumulativeFpf := [2, 5], frameNo := 2, encoders := fun _ => none, conservativeUntil := 0 }

example : fiveSent.lastAcked = MAX64 ∧ ackSeqNo 1 0 fiveSent.cumulativeFpf = some 2 ∧ fiveSent.cumulativeFpf.getLast? = some 5 := by decide

/-- The genuine acknowledgement of a short delay allows bytes; the forged one none. -/
example : ((fiveSent.acknowledge { connectionId := 7, frameNo := 1, fragmentNo := 1, avgDelay := 1000, currentState := 3, completeStates := [] }).bind Sender.frameSize) = some (1400 * 98) ∧
    (fiveSent.acknowledge { connectionId := 7, frameNo := 1, fragmentNo := 1, avgDelay := 100001, currentState := 3, completeStates := [] }).bind Sender.frameSize = some 0 := by decide

/-- **The code violates the full statement.**  One acknowledgement from anybody ends the sender: with a state in it that the sender has no encoder for, the next encode finds none to start from.  It does not
matter whether the sender has been told to be conservative. -/
theorem C100_sender_ended (s : Sender E) (a : AckPacket) (seq unknown : Nat) (hc : a.connectionId = s.connectionId) (hseq : ackSeqNo a.frameNo a.fragmentNo s.cumulativeFpf = some seq)
    (hnew : s.lastAcked = MAX64 ∨ s.lastAcked ≤ seq) (hu : s.encoders unknown = none) (hcur : a.currentState = unknown) (hst : a.completeStates = [unknown]) (hj : s.jobs = []) :
    ∃ s', s.acknowledge a = some s' ∧ ∀ now q due, s'.startEncode now q due = none := by
  refine ⟨{ s with lastAcked := seq, avgDelay := a.avgDelay, receiverLastAckedState := some a.currentState, receiverCompleteStates := a.completeStates }, ?_, ?_⟩
  · unfold Sender.acknowledge
    rw [if_neg (not_not.mpr hc)]
    rw [hseq]
    simp only [Option.bind_eq_bind, Option.bind_some]
    rw [if_neg (by rintro ⟨h1, h2⟩; rcases hnew with h | h <;> omega)]
  · intro now q due
    unfold Sender.startEncode Sender.cleanUp Sender.select Sender.knownState
    simp only [hj, hcur, hst, hu, List.isEmpty_nil, not_true_eq_false, if_false, Option.isSome_none, Bool.false_eq_true, and_false, Option.bind_eq_bind, Option.bind_some, Option.isNone_none, if_true,
      List.getLast?_singleton, Option.getD_some]
    split <;> simp [hu]

/-- The sender has no encoder for the state 9, and without the forged acknowledgement it starts from its first one. -/
example : ((Sender.start (fun e : Nat => e) 7 .s2 100 0).encoders 9 = none) ∧ ((Sender.start (fun e : Nat => e) 7 .s2 100 0).startEncode 0 0 false).isSome = true := by decide

end Alfalfa
