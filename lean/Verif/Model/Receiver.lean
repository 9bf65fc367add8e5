import Verif.Model.Packet

/-! The receiver's reaction to datagrams (src/salsify/salsify-receiver.cc).

The decoder is a parameter: decoding is a function from decoder and bytes to the next decoder, or an exception.  Not modelled: the socket, the
display thread and its queue, the memory report, and the average of packet delays (a `double`), whose value in each acknowledgement is an input here.
An exception in the callback is not caught by the program and ends it, as does a failed assertion: both are `none`. -/

namespace Alfalfa

/-- What the receiver needs to know about decoders: `FramePlayer::decode` (src/decoder/player.cc:60-63; `none`: it throws) and
`Decoder::minihash` (src/decoder/decoder.cc:516-519). -/
structure Playing (D : Type) where
  decode : D → List UInt8 → Option D
  minihash : D → Nat

/-- `std::unordered_map` with numbers as keys. -/
abbrev NatMap (α : Type) := Nat → Option α

/-- `insert` leaves an entry that exists alone. -/
def NatMap.insertNew {α : Type} (m : NatMap α) (k : Nat) (v : α) : NatMap α := fun j => if j = k then (m k).or (some v) else m j

def NatMap.erase {α : Type} (m : NatMap α) (k : Nat) : NatMap α := fun j => if j = k then none else m j

/-- Replaces the value at a key that exists (a modification through `at`). -/
def NatMap.modify {α : Type} (m : NatMap α) (k : Nat) (v : α) : NatMap α := fun j => if j = k then some v else m j

/-- The variables of `main` that outlive a callback (src/salsify/salsify-receiver.cc:181-208).  `handed` is a history variable: the frame number, the
decoder and the bytes of each call of `FramePlayer::decode`. -/
structure Receiver (D : Type) where
  player : D
  fragmentedFrames : NatMap FragmentedFrame
  nextFrameNo : Nat
  currentState : Nat
  initialState : Nat
  completeStates : List Nat
  decoders : NatMap D
  handed : List (Nat × D × List UInt8) := []

/-- The start of `main` (src/salsify/salsify-receiver.cc:181-208). -/
def Receiver.start {D : Type} (P : Playing D) (d : D) : Receiver D :=
  { player := d, fragmentedFrames := fun _ => none, nextFrameNo := 0, currentState := P.minihash d, initialState := P.minihash d
    completeStates := [], decoders := fun j => if j = P.minihash d then some d else none }

/-- `connection_id` (src/salsify/salsify-receiver.cc:182). -/
abbrev CONNECTION_ID : Nat := 1337

variable {D : Type} (P : Playing D)

/-- `enqueue_frame` (src/salsify/salsify-receiver.cc:117-135), without the display. -/
def Receiver.enqueueFrame (r : Receiver D) (frameNo : Nat) (frame : List UInt8) : Option (Receiver D) :=
  if frame.length = 0 then some r
  else do
    let d ← P.decode r.player frame
    pure { r with player := d, handed := r.handed ++ [(frameNo, r.player, frame)] }

/-- The loop over unfinished frames (src/salsify/salsify-receiver.cc:234-239), for `n` frames from number `i` on. -/
def Receiver.showPartial (r : Receiver D) (i : Nat) : Nat → Option (Receiver D)
  | 0 => some r
  | n + 1 =>
    match r.fragmentedFrames i with
    | none => showPartial r (i + 1) n
    | some f => do
      let r ← r.enqueueFrame P i f.partialFrame
      showPartial { r with fragmentedFrames := r.fragmentedFrames.erase i } (i + 1) n

/-- A packet of a later frame (src/salsify/salsify-receiver.cc:227-243). -/
def Receiver.skipTo (r : Receiver D) (frameNo : Nat) : Option (Receiver D) :=
  if r.nextFrameNo < frameNo then do
    let r ← r.showPartial P r.nextFrameNo (frameNo - r.nextFrameNo)
    pure { r with nextFrameNo := frameNo, currentState := P.minihash r.player }
  else some r

/-- The packet is added to its frame (src/salsify/salsify-receiver.cc:245-259). -/
def Receiver.addPacket (r : Receiver D) (p : Packet) : Option (Receiver D) :=
  match r.fragmentedFrames p.frameNo with
  | some f =>
    match f.addPacket p with
    | (_, some _) => none
    | (f, none) => some { r with fragmentedFrames := r.fragmentedFrames.modify p.frameNo f }
  | none =>
    match FragmentedFrame.incoming CONNECTION_ID p with
    | .error _ => none
    | .ok f => some { r with fragmentedFrames := r.fragmentedFrames.insertNew p.frameNo f }

/-- The source state is loaded if the receiver has it and is not in it (src/salsify/salsify-receiver.cc:265-273). -/
def Receiver.loadSource (r : Receiver D) (source : Nat) : Receiver D :=
  if r.currentState ≠ source then
    match r.decoders source with
    | some d => { r with player := d, currentState := source }
    | none => r
  else r

/-- The loop that forgets older states (src/salsify/salsify-receiver.cc:280-292); `none`: the failed assertion. -/
def pruneStates (source : Nat) : List Nat → NatMap D → Option (List Nat × NatMap D)
  | [], _ => none
  | s :: rest, m => if s ≠ source then pruneStates source rest (m.erase s) else some (s :: rest, m)

/-- The sender will not refer to anything older than the source (src/salsify/salsify-receiver.cc:275-293). -/
def Receiver.prune (r : Receiver D) (source : Nat) : Option (Receiver D) :=
  if r.currentState = source ∧ source ≠ r.initialState then do
    let (states, decoders) ← pruneStates source r.completeStates r.decoders
    pure { r with completeStates := states, decoders }
  else some r

/-- The state after the frame is saved if it is the one the sender announced (src/salsify/salsify-receiver.cc:298-306). -/
def Receiver.saveState (r : Receiver D) (target : Nat) : Receiver D :=
  let r := { r with currentState := P.minihash r.player }
  if r.currentState = target ∧ r.currentState ≠ r.initialState then
    { r with decoders := r.decoders.insertNew r.currentState r.player, completeStates := r.completeStates ++ [r.currentState] }
  else r

/-- The next frame is decoded if it is complete (src/salsify/salsify-receiver.cc:261-310). -/
def Receiver.finishFrame (r : Receiver D) : Option (Receiver D) :=
  match r.fragmentedFrames r.nextFrameNo with
  | none => some r
  | some f =>
    if f.complete then do
      let r := r.loadSource f.sourceState
      let r ← r.prune f.sourceState
      let frame ← f.frame.toOption
      let r ← r.enqueueFrame P r.nextFrameNo frame
      let r := r.saveState P f.targetState
      pure { r with fragmentedFrames := r.fragmentedFrames.erase r.nextFrameNo, nextFrameNo := r.nextFrameNo + 1 }
    else some r

/-- The callback for a datagram (src/salsify/salsify-receiver.cc:214-331): the variables afterwards and the acknowledgement, if one is sent. -/
def Receiver.receive (r : Receiver D) (wire : List UInt8) (avgDelay : Nat) : Option (Receiver D × Option AckPacket) := do
  let p ← (Packet.parse wire).toOption
  if p.frameNo < r.nextFrameNo then some (r, none)
  else do
    let r ← r.skipTo P p.frameNo
    let r ← r.addPacket p
    let r ← r.finishFrame P
    pure (r, some { connectionId := CONNECTION_ID, frameNo := p.frameNo, fragmentNo := p.fragmentNo, avgDelay
                    currentState := r.currentState, completeStates := r.completeStates })

/-- The receiver given a sequence of datagrams. -/
def Receiver.run (r : Receiver D) : List (List UInt8 × Nat) → Option (Receiver D)
  | [] => some r
  | (wire, avgDelay) :: rest => do
    let (r, _) ← r.receive P wire avgDelay
    run r rest

end Alfalfa
