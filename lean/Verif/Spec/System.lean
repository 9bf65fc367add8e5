import Verif.Model.Sender
import Verif.Spec.Receiver

/-! A sender and a receiver with a network between them. -/

namespace Alfalfa

/-- The two programs, the frames sent so far and the acknowledgements on their way, oldest first. -/
structure System (E D : Type) where
  sender : Sender E
  receiver : Receiver D
  sent : List FragmentedFrame
  acks : List AckPacket

variable {E D : Type}

/-- The two programs as they start; both from the same state. -/
def System.start (minihash : E → Nat) (P : Playing D) (mode : OperationMode) (base : E) (d : D) (now : Int) : System E D :=
  { sender := Sender.start minihash 1337 mode base now, receiver := Receiver.start P d, sent := [], acks := [] }

/-- The states the frames sent so far lead to. -/
def System.targets (sys : System E D) : List Nat := sys.sent.map (·.targetState)

/-- What happens in the system.  Any packet of any frame that was sent may arrive at any time and any number of times, or never; acknowledgements may be
lost, but those that arrive do so in the order they were sent, and once. -/
inductive System.Step (minihash : E → Nat) (P : Playing D) (sys : System E D) : System E D → Prop
  | startEncode (now : Int) (cc : Nat) (due : Bool) (s : Sender E) (h : sys.sender.startEncode now cc due = some s) : Step minihash P sys { sys with sender := s }
  | endEncode (results : List (E × List UInt8)) (time : Nat) (ht : time < 2 ^ 32) (s : Sender E) (ff : Option FragmentedFrame)
      (h : sys.sender.endEncode minihash results time = some (s, ff)) : Step minihash P sys { sys with sender := s, sent := sys.sent ++ ff.toList }
  | data (f : FragmentedFrame) (hf : f ∈ sys.sent) (p : Packet) (hp : p ∈ f.fragments) (wire : List UInt8) (hw : p.toBytes = some wire) (avg : Nat)
      (r : Receiver D) (ack : Option AckPacket) (h : sys.receiver.receive P wire avg = some (r, ack)) :
      Step minihash P sys { sys with receiver := r, acks := sys.acks ++ ack.toList }
  | ack (lost rest : List AckPacket) (a : AckPacket) (ha : sys.acks = lost ++ a :: rest) (s : Sender E) (h : sys.sender.acknowledge a = some s) :
      Step minihash P sys { sys with sender := s, acks := rest }

/-- No two states that should be told apart have the same 32-bit hash: the frames lead to new states, and what a decoder ends in has the hash of one of
them only if it was given the whole of that frame.  Here `handed` are the frame number, the decoder and the bytes of each call of the decoder. -/
structure System.NoAccident (P : Playing D) (initial : Nat) (sent : List FragmentedFrame) (handed : List (Nat × D × List UInt8)) : Prop where
  fresh : (initial :: sent.map (·.targetState)).Nodup
  decoded : ∀ k d bytes d', (k, d, bytes) ∈ handed → P.decode d bytes = some d' → P.minihash d' ∈ sent.map (·.targetState) →
    ∃ f, sent[k]? = some f ∧ f.targetState = P.minihash d' ∧ (f.fragments.map (·.payload)).flatten = bytes

/-- The states of the system that are reached without such an accident, with fewer than 2^32 frames. -/
inductive System.Reaches (minihash : E → Nat) (P : Playing D) (mode : OperationMode) (base : E) (d : D) (now : Int) : System E D → Prop
  | start : Reaches minihash P mode base d now (System.start minihash P mode base d now)
  | step {sys sys' : System E D} (h : Reaches minihash P mode base d now sys) (hs : System.Step minihash P sys sys')
      (hn : System.NoAccident P (minihash base) sys'.sent sys'.receiver.handed) (hl : sys'.sent.length < 2 ^ 32) :
      Reaches minihash P mode base d now sys'

end Alfalfa
