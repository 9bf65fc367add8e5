import Verif.Model.Container

/-! Packets, acknowledgements, fragmentation and reassembly (src/net/packet.{hh,cc}).

Sockets are not modelled: a packet that is sent is its byte string. -/

namespace Alfalfa

/-- The exceptions of this layer: `std::out_of_range` (src/util/chunk.hh:54-59) and `std::runtime_error`; `internal` stands for a
failed assertion or an access outside a vector. -/
inductive NetError | outOfRange | invalidPacket | internal
deriving Repr, DecidableEq

/-- `Packet::put_header_field` for a `uint16_t` or `uint32_t` (src/net/packet.cc:37-49), on a little-endian or big-endian host alike:
the `n` low bytes, lowest first. -/
def putField : Nat → Nat → List UInt8
  | 0, _ => []
  | n + 1, v => UInt8.ofNat (v % 256) :: putField n (v / 256)

/-- `Packet::put_header_field( uint64_t )` (src/net/packet.cc:51-56): the value is stored in a `uint32_t` first. -/
def putField64 (v : Nat) : List UInt8 := putField 4 (v % 2 ^ 32)

/-- `class Packet` (src/net/packet.hh:41-54). -/
@[ext] structure Packet where
  valid : Bool := true
  connectionId : Nat := 0
  sourceState : Nat := 0
  targetState : Nat := 0
  frameNo : Nat := 0
  fragmentNo : Nat := 0
  fragmentsInThisFrame : Nat := 0
  timeSinceLast : Nat := 0
  payload : List UInt8 := []
deriving Repr, DecidableEq

/-- `MAXIMUM_PAYLOAD` (src/net/packet.hh:57). -/
abbrev MAXIMUM_PAYLOAD : Nat := 1400

/-- The outgoing `Packet` constructor (src/net/packet.cc:58-87): the packet and `next_fragment_start`.  `none`: a failed assertion. -/
def Packet.outgoing (wholeFrame : List UInt8) (connectionId sourceState targetState frameNo fragmentNo timeSinceLast : Nat) :
    Option (Packet × Nat) :=
  if wholeFrame.isEmpty then none
  else
    let firstByte := MAXIMUM_PAYLOAD * fragmentNo
    if wholeFrame.length ≤ firstByte then none
    else
      let length := min (wholeFrame.length - firstByte) MAXIMUM_PAYLOAD
      some ({ connectionId, sourceState, targetState, frameNo, fragmentNo, fragmentsInThisFrame := 0, timeSinceLast
              payload := (wholeFrame.drop firstByte).take length }, firstByte + length)

/-- One field of a received byte string: `str( offset, width ).le16()` or `.le32()` (src/util/chunk.hh:93-98,111-119). -/
def getField (str : List UInt8) (offset width : Nat) : Except NetError Nat :=
  match subChunk str offset width with
  | .ok c => .ok (leValue c)
  | .error _ => .error .outOfRange

/-- The bytes from an offset on: `str( offset )` (src/util/chunk.hh:88-91). -/
def getRest (str : List UInt8) (offset : Nat) : Except NetError (List UInt8) :=
  match restOfChunk str offset with
  | .ok c => .ok c
  | .error _ => .error .outOfRange

/-- The incoming `Packet` constructor (src/net/packet.cc:90-108). -/
def Packet.parse (str : List UInt8) : Except NetError Packet := do
  let connectionId ← getField str 0 2
  let sourceState ← getField str 2 4
  let targetState ← getField str 6 4
  let frameNo ← getField str 10 4
  let fragmentNo ← getField str 14 2
  let fragmentsInThisFrame ← getField str 16 2
  let timeSinceLast ← getField str 18 4
  let payload ← getRest str 22
  if fragmentsInThisFrame ≤ fragmentNo then .error .invalidPacket
  else if payload.isEmpty then .error .invalidPacket
  else .ok { connectionId, sourceState, targetState, frameNo, fragmentNo, fragmentsInThisFrame, timeSinceLast, payload }

/-- `Packet::to_string` (src/net/packet.cc:124-136); `none`: the failed assertion. -/
def Packet.toBytes (p : Packet) : Option (List UInt8) :=
  if p.fragmentsInThisFrame = 0 then none
  else some (putField 2 p.connectionId ++ (putField 4 p.sourceState ++ (putField 4 p.targetState ++ (putField 4 p.frameNo ++
    (putField 2 p.fragmentNo ++ (putField 2 p.fragmentsInThisFrame ++ (putField 4 p.timeSinceLast ++ p.payload)))))))

/-- `Packet::set_fragments_in_this_frame` (src/net/packet.cc:138-142). -/
def Packet.setFragmentsInThisFrame (p : Packet) (x : Nat) : Option Packet :=
  if p.fragmentNo < x then some { p with fragmentsInThisFrame := x } else none

/-- `class FragmentedFrame` (src/net/packet.hh:97-108). -/
@[ext] structure FragmentedFrame where
  connectionId : Nat
  sourceState : Nat
  targetState : Nat
  frameNo : Nat
  fragmentsInThisFrame : Nat
  fragments : List Packet
  remainingFragments : Nat
deriving Repr, DecidableEq

/-- The loop that makes the packets (src/net/packet.cc:159-165).  `fragmentNo` is a `uint16_t`.  `none`: a failed assertion, or
more than `fuel` rounds. -/
def makeFragments (wholeFrame : List UInt8) (connectionId sourceState targetState frameNo : Nat) :
    (fuel fragmentNo nextFragmentStart : Nat) → Option (List Packet)
  | 0, _, next => if wholeFrame.length ≤ next then some [] else none
  | fuel + 1, fragmentNo, next =>
    if wholeFrame.length ≤ next then some []
    else do
      let (p, next) ← Packet.outgoing wholeFrame connectionId sourceState targetState frameNo fragmentNo 0
      let rest ← makeFragments wholeFrame connectionId sourceState targetState frameNo fuel ((fragmentNo + 1) % 2 ^ 16) next
      pure (p :: rest)

/-- The outgoing `FragmentedFrame` constructor (src/net/packet.cc:145-175), given at most `fuel` rounds of its loop.  `none`: a failed
assertion, `front()` of an empty vector, or more rounds. -/
def FragmentedFrame.outgoing (fuel : Nat) (connectionId sourceState targetState frameNo timeSinceLast : Nat) (wholeFrame : List UInt8) :
    Option FragmentedFrame := do
  let fragments ← makeFragments wholeFrame connectionId sourceState targetState frameNo fuel 0 0
  match fragments with
  | [] => none
  | first :: rest =>
    let fragmentsInThisFrame := (rest.length + 1) % 2 ^ 16
    let fragments ← ({ first with timeSinceLast } :: rest).mapM (·.setFragmentsInThisFrame fragmentsInThisFrame)
    pure { connectionId, sourceState, targetState, frameNo, fragmentsInThisFrame, fragments, remainingFragments := 0 }

/-- `FragmentedFrame::sanity_check` (src/net/packet.cc:193-218): whether it throws. -/
def FragmentedFrame.insane (f : FragmentedFrame) (p : Packet) : Bool :=
  if p.connectionId ≠ f.connectionId then true
  else if p.sourceState ≠ f.sourceState then true
  else if p.targetState ≠ f.targetState then true
  else if p.fragmentsInThisFrame ≠ f.fragmentsInThisFrame then true
  else if p.frameNo ≠ f.frameNo then true
  else if f.fragmentsInThisFrame ≤ p.fragmentNo then true
  else false

/-- `FragmentedFrame::add_packet` (src/net/packet.cc:221-229): the assembly afterwards and what was thrown, if anything. -/
def FragmentedFrame.addPacket (f : FragmentedFrame) (p : Packet) : FragmentedFrame × Option NetError :=
  if f.insane p then (f, some .invalidPacket)
  else match f.fragments[p.fragmentNo]? with
    | none => (f, some .internal)
    | some old =>
      if old.valid then (f, none)
      else ({ f with remainingFragments := (f.remainingFragments + 2 ^ 32 - 1) % 2 ^ 32, fragments := f.fragments.set p.fragmentNo p }, none)

/-- The incoming `FragmentedFrame` constructor (src/net/packet.cc:178-191). -/
def FragmentedFrame.incoming (connectionId : Nat) (p : Packet) : Except NetError FragmentedFrame :=
  let f : FragmentedFrame :=
    { connectionId, sourceState := p.sourceState, targetState := p.targetState, frameNo := p.frameNo
      fragmentsInThisFrame := p.fragmentsInThisFrame, fragments := List.replicate p.fragmentsInThisFrame { valid := false }
      remainingFragments := p.fragmentsInThisFrame }
  if f.insane p then .error .invalidPacket
  else match f.addPacket p with
    | (_, some e) => .error e
    | (f, none) => .ok f

/-- `FragmentedFrame::complete` (src/net/packet.cc:245-248). -/
def FragmentedFrame.complete (f : FragmentedFrame) : Bool := f.remainingFragments == 0

/-- `FragmentedFrame::packets` (src/net/packet.cc:250-257). -/
def FragmentedFrame.packets (f : FragmentedFrame) : Except NetError (List Packet) :=
  if ¬ f.complete ∨ f.fragments.length ≠ f.fragmentsInThisFrame then .error .invalidPacket else .ok f.fragments

/-- `FragmentedFrame::frame` (src/net/packet.cc:259-272). -/
def FragmentedFrame.frame (f : FragmentedFrame) : Except NetError (List UInt8) :=
  if ¬ f.complete then .error .invalidPacket else .ok (f.fragments.map (·.payload)).flatten

/-- `FragmentedFrame::partial_frame` (src/net/packet.cc:274-287). -/
def FragmentedFrame.partialFrame (f : FragmentedFrame) : List UInt8 := ((f.fragments.takeWhile (·.valid)).map (·.payload)).flatten

/-- `class AckPacket` (src/net/packet.hh:159-168). -/
@[ext] structure AckPacket where
  connectionId : Nat
  frameNo : Nat
  fragmentNo : Nat
  avgDelay : Nat
  currentState : Nat
  completeStates : List Nat
deriving Repr, DecidableEq

/-- The loop of the incoming `AckPacket` constructor (src/net/packet.cc:307-309), for the states from index `i` on. -/
def readStates (str : List UInt8) (i : Nat) : Nat → Except NetError (List Nat)
  | 0 => .ok []
  | n + 1 => do
    let s ← getField str (20 + i * 4) 4
    let rest ← readStates str (i + 1) n
    pure (s :: rest)

/-- The incoming `AckPacket` constructor (src/net/packet.cc:299-310).  The deque is allocated in full size first; running out of
memory there is not modelled. -/
def AckPacket.parse (str : List UInt8) : Except NetError AckPacket := do
  let connectionId ← getField str 0 2
  let frameNo ← getField str 2 4
  let fragmentNo ← getField str 6 2
  let avgDelay ← getField str 8 4
  let currentState ← getField str 12 4
  let count ← getField str 16 4
  let completeStates ← readStates str 0 count
  pure { connectionId, frameNo, fragmentNo, avgDelay, currentState, completeStates }

/-- `AckPacket::to_string` (src/net/packet.cc:312-327). -/
def AckPacket.toBytes (a : AckPacket) : List UInt8 :=
  putField 2 a.connectionId ++ (putField 4 a.frameNo ++ (putField 2 a.fragmentNo ++ (putField 4 a.avgDelay ++ (putField 4 a.currentState ++
    (putField 4 (a.completeStates.length % 2 ^ 32) ++ (a.completeStates.map (putField 4)).flatten)))))

end Alfalfa
