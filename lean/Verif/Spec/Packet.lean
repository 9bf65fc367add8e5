import Verif.Model.Packet

/-! Packets whose fields fit their places on the wire, and how a frame is cut. -/

namespace Alfalfa

/-- The fields fit the wire format: 16 bits for the connection, the fragment number and the fragment count, 32 bits for the rest. -/
structure Packet.Fits (p : Packet) : Prop where
  connectionId : p.connectionId < 2 ^ 16
  sourceState : p.sourceState < 2 ^ 32
  targetState : p.targetState < 2 ^ 32
  frameNo : p.frameNo < 2 ^ 32
  fragmentsInThisFrame : p.fragmentsInThisFrame < 2 ^ 16
  timeSinceLast : p.timeSinceLast < 2 ^ 32

/-- A packet that is a fragment of a frame. -/
structure Packet.Fragment (p : Packet) : Prop extends Packet.Fits p where
  valid : p.valid = true
  number : p.fragmentNo < p.fragmentsInThisFrame
  payload : p.payload ≠ []

/-- The same for acknowledgements. -/
structure AckPacket.Fits (a : AckPacket) : Prop where
  connectionId : a.connectionId < 2 ^ 16
  frameNo : a.frameNo < 2 ^ 32
  fragmentNo : a.fragmentNo < 2 ^ 16
  avgDelay : a.avgDelay < 2 ^ 32
  currentState : a.currentState < 2 ^ 32
  completeStates : ∀ s ∈ a.completeStates, s < 2 ^ 32
  count : a.completeStates.length < 2 ^ 32

/-- The packets `ps` are the frame `whole` cut into pieces of at most 1400 bytes. -/
structure CutOf (connectionId sourceState targetState frameNo timeSinceLast : Nat) (whole : List UInt8) (ps : List Packet) : Prop where
  payloads : (ps.map (·.payload)).flatten = whole
  count : ps.length = (whole.length + 1399) / 1400
  number : ∀ k (p : Packet), ps[k]? = some p → p.fragmentNo = k
  announced : ∀ p ∈ ps, p.fragmentsInThisFrame = ps.length
  size : ∀ p ∈ ps, 0 < p.payload.length ∧ p.payload.length ≤ 1400
  full : ∀ p ∈ ps.dropLast, p.payload.length = 1400
  same : ∀ p ∈ ps, p.valid = true ∧ p.connectionId = connectionId ∧ p.sourceState = sourceState ∧ p.targetState = targetState ∧ p.frameNo = frameNo
  time : ∀ k (p : Packet), ps[k]? = some p → p.timeSinceLast = if k = 0 then timeSinceLast else 0

/-- A receiver that is given packets one after the other: the first one starts the assembly, the others are added; a packet that is refused is
dropped (src/salsify/salsify-receiver.cc:236-257). -/
def assemble (connectionId : Nat) : List Packet → Option FragmentedFrame
  | [] => none
  | p :: rest =>
    match FragmentedFrame.incoming connectionId p with
    | .error _ => none
    | .ok f => some (rest.foldl (fun f p => (f.addPacket p).1) f)

/-- The packet in a byte string that arrives, if there is one. -/
def parsedPacket (wire : List UInt8) : Option Packet :=
  match Packet.parse wire with
  | .ok p => some p
  | .error _ => none

/-- The same from the byte strings that arrive; what does not parse is dropped. -/
def receive (connectionId : Nat) (wires : List (List UInt8)) : Option FragmentedFrame :=
  assemble connectionId (wires.filterMap parsedPacket)

/-- The packet claims to belong to the frame whose fragments are `ps`. -/
def Packet.Claims (p : Packet) (ps : List Packet) : Prop :=
  ∃ q ∈ ps, p.connectionId = q.connectionId ∧ p.sourceState = q.sourceState ∧ p.targetState = q.targetState ∧ p.frameNo = q.frameNo ∧
    p.fragmentsInThisFrame = q.fragmentsInThisFrame

/-- The packet agrees with the frame being assembled in connection, states, frame number and fragment count, and is one of its fragments. -/
structure FragmentedFrame.Accepts (f : FragmentedFrame) (p : Packet) : Prop where
  connectionId : p.connectionId = f.connectionId
  sourceState : p.sourceState = f.sourceState
  targetState : p.targetState = f.targetState
  frameNo : p.frameNo = f.frameNo
  fragments : p.fragmentsInThisFrame = f.fragmentsInThisFrame
  number : p.fragmentNo < f.fragmentsInThisFrame

/-- What an assembly that was given the packets `ds` should hold: one slot per fragment, each still empty or filled with a packet that was given,
that belongs to the frame and has the number of the slot; no slot is empty if a packet for it was given; and a correct count. -/
structure FragmentedFrame.Holds (f : FragmentedFrame) (ds : List Packet) : Prop where
  length : f.fragments.length = f.fragmentsInThisFrame
  remaining : f.remainingFragments = f.fragments.countP (fun q => !q.valid)
  slots : ∀ k q, f.fragments[k]? = some q → q.valid = false ∨ (q ∈ ds ∧ q.fragmentNo = k ∧ f.Accepts q)
  filled : ∀ p ∈ ds, f.Accepts p → ∃ q, f.fragments[p.fragmentNo]? = some q ∧ q.valid = true

end Alfalfa
