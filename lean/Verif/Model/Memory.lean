import Verif.Model.Receiver

/-! How much memory input takes (src/net/packet.cc:299-310). -/

namespace Alfalfa

/-- The bytes of the deque that the incoming `AckPacket` constructor makes before it reads the states (src/net/packet.cc:305), without what the library adds. -/
def ackAllocation (str : List UInt8) : Nat :=
  match getField str 16 4 with
  | .ok count => 4 * count
  | .error _ => 0

end Alfalfa
