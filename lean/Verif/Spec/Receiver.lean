import Verif.Spec.Packet
import Verif.Model.Receiver

/-! What a sender sent, for statements about the receiver. -/

namespace Alfalfa

/-- A frame as it was sent: the states it was coded from and to, the time field, the bytes, and the packets they were cut into. -/
structure SentFrame where
  source : Nat
  target : Nat
  time : Nat
  whole : List UInt8
  packets : List Packet

/-- It was sent as frame number `k` of the connection `c`, in a form that fits the wire. -/
structure SentFrame.As (s : SentFrame) (c k : Nat) : Prop where
  cut : CutOf c s.source s.target k s.time s.whole s.packets
  connection : c < 2 ^ 16
  source : s.source < 2 ^ 32
  target : s.target < 2 ^ 32
  number : k < 2 ^ 32
  time : s.time < 2 ^ 32
  count : s.packets.length < 2 ^ 16

/-- The datagram, if it is a packet at all, is one of those sent. -/
def GenuineWire (sent : Nat → SentFrame) (wire : List UInt8) : Prop :=
  ∀ p, Packet.parse wire = .ok p → p ∈ (sent p.frameNo).packets

/-- The decoders that can come about from `d` by decoding any bytes at all. -/
inductive Playing.Occurs {D : Type} (P : Playing D) (d : D) : D → Prop
  | first : Occurs P d d
  | next {x y : D} {bytes : List UInt8} (h : Occurs P d x) (hd : P.decode x bytes = some y) : Occurs P d y

/-- The decoders that the receiver has ever had, if `d` was the first: that one, and what its calls of the decoder made. -/
def Receiver.Had {D : Type} (P : Playing D) (d : D) (r : Receiver D) (x : D) : Prop :=
  x = d ∨ ∃ y ∈ r.handed, P.decode y.2.1 y.2.2 = some x

end Alfalfa
