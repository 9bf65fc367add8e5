import Verif.Model.Receiver

/-! The sender's reactions (src/salsify/salsify-sender.cc): the start of an encode, its end, and an acknowledgement.

The encoder is a parameter: what it produces for a picture is an input of the end of an encode.  Not modelled: the camera, the threads that run the
encodes, the pacer's queue (see Model/Pacer), the memory report, and the rate estimate of the mode `conventional` (doubles), whose quantizer is an input, with whether an update of it is due.
The clock is an input.  An exception in a callback is not caught and ends the program, as does a failed assertion: both are `none`, as is undefined
behaviour. -/

namespace Alfalfa

/-- The names of encode jobs (src/salsify/salsify-sender.cc:487-496). -/
inductive JobName | frame | improve | failSmall
deriving Repr, DecidableEq

/-- `struct EncodeJob` (src/salsify/salsify-sender.cc:91-108), without the picture; the mode is always `CONSTANT_QUANTIZER`. -/
structure EncodeJob (E : Type) where
  name : JobName
  encoder : E
  yAcQi : Nat

/-- `struct EncodeOutput` (src/salsify/salsify-sender.cc:110-126), without the time. -/
structure EncodeOutput (E : Type) where
  encoder : E
  frame : List UInt8
  sourceMinihash : Nat
  jobName : JobName
  yAcQi : Nat

/-- `enum class OperationMode` (src/salsify/salsify-sender.cc:189-192). -/
inductive OperationMode | s1 | s2 | conventional
deriving Repr, DecidableEq

/-- `numeric_limits<uint64_t>::max()`, also of `size_t`. -/
abbrev MAX64 : Nat := 2 ^ 64 - 1

/-- The variables of `main` that outlive a callback (src/salsify/salsify-sender.cc:266-320). -/
structure Sender (E : Type) where
  connectionId : Nat
  mode : OperationMode
  initialState : Nat
  avgDelay : Nat := 2 ^ 32 - 1
  cumulativeFpf : List Nat := []
  lastAcked : Nat := MAX64
  skippedCount : Nat := 0
  frameNo : Nat := 0
  jobs : List (EncodeJob E) := []
  lastQuantizer : Nat := 64
  encoderStates : List Nat := []
  encoders : NatMap E
  receiverLastAckedState : Option Nat := none
  receiverAssumedState : Option Nat := none
  receiverCompleteStates : List Nat := []
  conservativeUntil : Int

/-- The start of `main` (src/salsify/salsify-sender.cc:266-320). -/
def Sender.start {E : Type} (minihash : E → Nat) (connectionId : Nat) (mode : OperationMode) (base : E) (now : Int) : Sender E :=
  { connectionId, mode, initialState := minihash base, encoders := fun j => if j = minihash base then some base else none, conservativeUntil := now }

variable {E : Type}

/-- `do_encode_job` (src/salsify/salsify-sender.cc:128-158), given what the encoder produced. -/
def EncodeJob.output (minihash : E → Nat) (job : EncodeJob E) (result : E × List UInt8) : EncodeOutput E :=
  { encoder := result.1, frame := result.2, sourceMinihash := minihash job.encoder, jobName := job.name, yAcQi := job.yAcQi }

/-- A `uint64_t` cast to `int64_t`. -/
def toInt64 (n : Nat) : Int := if n % 2 ^ 64 < 2 ^ 63 then ((n % 2 ^ 64 : Nat) : Int) else ((n % 2 ^ 64 : Nat) : Int) - 2 ^ 64

/-- `target_size` (src/salsify/salsify-sender.cc:160-171) with its default `max_delay`.  The subtraction is of `uint64_t`. -/
def targetSize (avgDelay lastAcked lastSent : Nat) : Nat :=
  let avgDelay := if avgDelay = 0 then 1 else avgDelay
  let inFlight := (lastSent + 2 ^ 64 - lastAcked) % 2 ^ 64
  1400 * (max 0 (toInt64 (100000 / avgDelay + 2 ^ 64 - inFlight))).toNat % 2 ^ 64

/-- `ack_seq_no` (src/salsify/salsify-sender.cc:181-187); `none`: an index past the end of the vector. -/
def ackSeqNo (frameNo fragmentNo : Nat) (cumulativeFpf : List Nat) : Option Nat :=
  if 0 < frameNo then do
    let before ← cumulativeFpf[frameNo - 1]?
    pure ((before + fragmentNo) % 2 ^ 64)
  else some fragmentNo

/-- The cleanup loop (src/salsify/salsify-sender.cc:362-378): which states stay and which encoders.  `none`: `get()` of an `Optional` that is not
initialized, which is reached only if the first comparison is true. -/
def cleanUp (acked : Nat) (assumed : Option Nat) : List Nat → NatMap E → Option (List Nat × NatMap E)
  | [], m => some ([], m)
  | s :: rest, m =>
    if s ≠ acked then
      match assumed with
      | none => none
      | some assumed =>
        if s ≠ assumed then cleanUp acked (some assumed) rest (if s ∈ rest then m else m.erase s)
        else some (s :: rest, m)
    else some (s :: rest, m)

/-- The cleanup at the start of an encode (src/salsify/salsify-sender.cc:357-379). -/
def Sender.cleanUp (s : Sender E) : Option (Sender E) :=
  match s.receiverLastAckedState with
  | none => some s
  | some acked =>
    if acked ≠ s.initialState ∧ (s.encoders acked).isSome then do
      let (states, encoders) ← Alfalfa.cleanUp acked s.receiverAssumedState s.encoderStates s.encoders
      pure { s with encoderStates := states, encoders }
    else some s

/-- The state that a known-good encode starts from (src/salsify/salsify-sender.cc:393-401 and 426-434). -/
def Sender.knownState (s : Sender E) : Nat := (s.receiverCompleteStates.getLast?).getD s.initialState

/-- The choice of the source (src/salsify/salsify-sender.cc:383-440) at the time `now`: the source and `conservative_until`.  `none`: `get()` of an
`Optional` that is not initialized. -/
def Sender.select (s : Sender E) (now : Int) : Option (Nat × Int) :=
  if now < s.conservativeUntil then some (s.knownState, s.conservativeUntil)
  else
    match s.receiverLastAckedState with
    | none => some (s.receiverAssumedState.getD s.initialState, s.conservativeUntil)
    | some acked =>
      if (s.encoders acked).isNone then some (s.knownState, now + 5000000000)
      else s.receiverAssumedState.map fun assumed => (assumed, s.conservativeUntil)

/-- `increment_quantizer` (src/salsify/salsify-sender.cc:444-451). -/
def incrementQuantizer (q : Nat) (inc : Int) : Nat := (min 127 (max 3 ((q : Int) + inc))).toNat

/-- The jobs of the three modes (src/salsify/salsify-sender.cc:453-495): one at the quantizer of the congestion control, or one that
improves the quality and one that makes the frame small. -/
def encodeJobs (mode : OperationMode) (lastQuantizer : Nat) (encoder : E) (ccQuantizer : Nat) : List (EncodeJob E) :=
  match mode with
  | .conventional => [⟨.frame, encoder, ccQuantizer⟩]
  | _ => [⟨.improve, encoder, incrementQuantizer lastQuantizer (-17)⟩, ⟨.failSmall, encoder, incrementQuantizer lastQuantizer 23⟩]

/-- The callback that starts an encode (src/salsify/salsify-sender.cc:342-521), at the time `now`.  In the mode `conventional` an update
of the quantizer divides by the average delay (src/salsify/salsify-sender.cc:455-457). -/
def Sender.startEncode (s : Sender E) (now : Int) (ccQuantizer : Nat) (ccDue : Bool) : Option (Sender E) :=
  if ¬ s.jobs.isEmpty then some s
  else do
    let s ← s.cleanUp
    let (source, conservativeUntil) ← s.select now
    let encoder ← s.encoders source
    if s.mode = .conventional ∧ ccDue = true ∧ s.avgDelay = 0 then none
    else pure { s with
      conservativeUntil
      jobs := encodeJobs s.mode s.lastQuantizer encoder ccQuantizer }

/-- The loop that looks for the best output (src/salsify/salsify-sender.cc:572-579), from index `i` on: the index and the difference in size. -/
def bestOutput (frameSize : Nat) : List (EncodeOutput E) → (i best diff : Nat) → Nat
  | [], _, best, _ => best
  | o :: rest, i, best, diff =>
    if o.frame.length ≤ frameSize ∧ frameSize - o.frame.length < diff then bestOutput frameSize rest (i + 1) i (frameSize - o.frame.length)
    else bestOutput frameSize rest (i + 1) best diff

/-- Which output is sent (src/salsify/salsify-sender.cc:567-596); `some none`: the frame is skipped; `none`: `back()` of an empty vector. -/
def chooseOutput (mode : OperationMode) (frameSize skippedCount : Nat) (outputs : List (EncodeOutput E)) : Option (Option Nat) :=
  match mode with
  | .conventional => some (some 0)
  | _ =>
    let best := bestOutput frameSize outputs 0 MAX64 MAX64
    if best = MAX64 then do
      let last ← outputs.getLast?
      if skippedCount < 3 ∨ last.jobName ≠ .failSmall then some none
      else some (some (outputs.length - 1))
    else some (some best)

/-- The size budget (src/salsify/salsify-sender.cc:550-554); `none`: `back()` of an empty vector. -/
def Sender.frameSize (s : Sender E) : Option Nat :=
  if s.avgDelay ≠ 2 ^ 32 - 1 then do
    let last ← s.cumulativeFpf.getLast?
    pure (targetSize s.avgDelay s.lastAcked last)
  else some MAX64

/-- The count of fragments so far, with this frame (src/salsify/salsify-sender.cc:641-643). -/
def Sender.newCount (s : Sender E) (fragments : Nat) : Option Nat :=
  if 0 < s.frameNo then (s.cumulativeFpf[s.frameNo - 1]?).map fun before => (before + fragments) % 2 ^ 64 else some fragments

/-- The callback at the end of an encode (src/salsify/salsify-sender.cc:525-656): what the encoders produced, one result per job, and the microseconds
since the last frame.  The result is the variables afterwards and the frame that was sent, if it was not skipped. -/
def Sender.endEncode (minihash : E → Nat) (s : Sender E) (results : List (E × List UInt8)) (timeSinceLast : Nat) :
    Option (Sender E × Option FragmentedFrame) := do
  let outputs := List.zipWith (EncodeJob.output minihash) s.jobs results
  let frameSize ← s.frameSize
  match ← chooseOutput s.mode frameSize s.skippedCount outputs with
  | none => some ({ s with skippedCount := s.skippedCount + 1, jobs := [] }, none)
  | some best => do
    let output ← outputs[best]?
    let target := minihash output.encoder
    let ff ← FragmentedFrame.outgoing output.frame.length s.connectionId output.sourceMinihash target s.frameNo timeSinceLast output.frame
    let count ← s.newCount ff.fragmentsInThisFrame
    pure ({ s with
      lastQuantizer := output.yAcQi
      cumulativeFpf := s.cumulativeFpf ++ [count]
      receiverAssumedState := some target
      encoders := s.encoders.insertNew target output.encoder
      encoderStates := s.encoderStates ++ [target]
      skippedCount := 0
      frameNo := s.frameNo + 1
      jobs := [] }, some ff)

/-- The callback for an acknowledgement (src/salsify/salsify-sender.cc:659-685), after parsing. -/
def Sender.acknowledge (s : Sender E) (ack : AckPacket) : Option (Sender E) :=
  if ack.connectionId ≠ s.connectionId then some s
  else do
    let seq ← ackSeqNo ack.frameNo ack.fragmentNo s.cumulativeFpf
    if s.lastAcked ≠ MAX64 ∧ seq < s.lastAcked then some s
    else some { s with lastAcked := seq, avgDelay := ack.avgDelay, receiverLastAckedState := some ack.currentState
                       receiverCompleteStates := ack.completeStates }

/-- What can happen to a sender. -/
inductive SenderEvent (E : Type)
  | startEncode (now : Int) (ccQuantizer : Nat) (ccDue : Bool)
  | endEncode (results : List (E × List UInt8)) (timeSinceLast : Nat)
  | ack (ack : AckPacket)

/-- One event: the variables afterwards and the frame that was sent, if one was. -/
def Sender.step (minihash : E → Nat) (s : Sender E) : SenderEvent E → Option (Sender E × Option FragmentedFrame)
  | .startEncode now cc due => (s.startEncode now cc due).map fun s => (s, none)
  | .endEncode results time => s.endEncode minihash results time
  | .ack a => (s.acknowledge a).map fun s => (s, none)

/-- A sequence of events, with all frames that were sent. -/
def Sender.run (minihash : E → Nat) (s : Sender E) : List (SenderEvent E) → Option (Sender E × List FragmentedFrame)
  | [] => some (s, [])
  | e :: rest => do
    let (s, sent) ← s.step minihash e
    let (s, more) ← run minihash s rest
    pure (s, sent.toList ++ more)

end Alfalfa
