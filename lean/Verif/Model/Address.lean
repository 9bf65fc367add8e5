import Verif.Model.Averages
import Verif.Model.Packet

/-! Addresses and datagram sockets (src/net/address.cc, src/net/socket.cc).

The C library and the kernel are parameters: `getnameinfo` and `getaddrinfo` are the functions of a `Resolver`, and `recvmsg` and `sendto` answer what they are given to answer. -/

namespace Alfalfa

/-- `class Address` (src/net/address.hh:40-51): `size_` and the bytes of `addr_`.  The memory after the first `size_` bytes is zero (src/net/address.cc:41-60, `addr_()`; g++ clears the whole union). -/
structure Address where
  bytes : List UInt8 := []
deriving DecidableEq, Repr

/-- `sizeof( addr_ )`, the size of a `sockaddr_storage` (src/net/address.hh:43-46). -/
def storageSize : Nat := 128

/-- The memory of `addr_`. -/
def Address.memory (a : Address) : List UInt8 := a.bytes ++ List.replicate (storageSize - a.bytes.length) 0

/-- `Address::Address( const raw & addr, const size_t size )` (src/net/address.cc:46-60); `none`: the exception. -/
def Address.make (raw : List UInt8) (size : Nat) : Option Address :=
  if size > storageSize then none else some ⟨raw.take size⟩

/-- `Address::operator==` (src/net/address.cc:165-169): as many bytes as the left one has. -/
def Address.same (a b : Address) : Bool := a.memory.take a.bytes.length == b.memory.take a.bytes.length

/-- `getnameinfo` for numbers only, and `getaddrinfo` for numbers only, in the family of IPv6 (src/net/address.cc:112-123,131-138). -/
structure Resolver where
  name : List UInt8 → Option (List Char × Nat)
  host : List Char → Nat → Option (List UInt8)

/-- `Address::ip_port` (src/net/address.cc:127-152); `none`: an exception. -/
def Address.ipPort (R : Resolver) (a : Address) : Option (List Char × Nat) :=
  match R.name a.bytes with
  | none => none
  | some (ip, port) =>
    if ip.length > 7 ∧ ip.take 7 = "::ffff:".toList then
      match R.host (ip.drop 7) port with
      | none => none
      | some c => if Address.same ⟨c⟩ a then some (ip.drop 7, port) else some (ip, port)
    else some (ip, port)

/-- `Address::to_string` (src/net/address.cc:154-158). -/
def Address.text (R : Resolver) (a : Address) : Option (List Char) :=
  (a.ipPort R).map fun p => p.1 ++ ':' :: Nat.toDigits 10 p.2

/-- A control message that comes with a datagram: its level, its type, and the seconds and nanoseconds in it. -/
structure Control where
  level : Nat
  type : Nat
  seconds : Nat
  nanoseconds : Nat
deriving DecidableEq, Repr

/-- `SOL_SOCKET` and `SO_TIMESTAMPNS` of Linux. -/
def solSocket : Nat := 1
def soTimestampns : Nat := 35

/-- A datagram that is at the head of the queue of a socket. -/
structure Datagram where
  source : List UInt8
  payload : List UInt8
  control : List Control := []
  /-- The flags that the kernel sets, without `MSG_TRUNC`. -/
  otherFlags : Bool := false

/-- `RECEIVE_MTU` (src/net/socket.cc:122). -/
def receiveMtu : Nat := 65536

/-- `timestamp_us_raw` (src/net/socket.cc:104-117), in 64-bit arithmetic. -/
def timestampUs (c : Control) : Nat := (c.seconds * 1000000000 + c.nanoseconds) % 2 ^ 64 / 1000

/-- The loop over the control messages (src/net/socket.cc:159-168). -/
def findTimestamp : List Control → Nat → Nat
  | [], t => t
  | c :: cs, t => findTimestamp cs (if c.level = solSocket ∧ c.type = soTimestampns then timestampUs c else t)

/-- `received_datagram` (src/net/socket.hh:77-81). -/
structure Arrival where
  source : Address
  timestamp : Nat
  payload : List UInt8
deriving DecidableEq, Repr

/-- `UDPSocket::recv` (src/net/socket.cc:120-178); `recvmsg` copies as many bytes as there is room for and sets `MSG_TRUNC` if the datagram is longer; `none` in place of a datagram: `recvmsg` fails.  `none` as result: an exception. -/
def Datagram.receive : Option Datagram → Option Arrival
  | none => none
  | some d =>
    if d.payload.length > receiveMtu then none
    else if d.otherFlags then none
    else match Address.make d.source d.source.length with
      | none => none
      | some a => some { source := a, timestamp := findTimestamp d.control (2 ^ 64 - 1), payload := d.payload.take receiveMtu }

/-- `UDPSocket::send` and `UDPSocket::sendto` (src/net/socket.cc:180-212): the kernel refuses, or takes a number of bytes; whether the call returns. -/
def sendReturns (payload : List UInt8) : Option Nat → Bool
  | none => false
  | some n => n == payload.length

/-- A socket, and what has been sent on the network: `reads` and `writes` are the counts that the poller looks at (src/util/file_descriptor.hh:50-54). -/
structure Wire where
  sent : List (List UInt8 × List UInt8) := []
  got : List Arrival := []
  reads : Nat := 0
  writes : Nat := 0
  /-- An exception has ended the program. -/
  failed : Bool := false

/-- What happens: a program with the address `source` sends; or the network gives us one of the datagrams that were sent, any one, also again, with any control messages; or we send. -/
inductive WireEvent
  | other (source payload : List UInt8)
  | arrives (k : Nat) (control : List Control) (otherFlags : Bool)
  | receiveFails
  | send (payload : List UInt8) (answer : Option Nat)

/-- One step (src/net/socket.cc:120-212). -/
def Wire.step (w : Wire) : WireEvent → Wire
  | .other s p => { w with sent := w.sent ++ [(s, p)] }
  | .arrives k control otherFlags =>
    if w.failed then w
    else match w.sent[k]? with
      | none => w
      | some (s, p) =>
        match Datagram.receive (some { source := s, payload := p, control, otherFlags }) with
        | none => { w with failed := true }
        | some a => { w with got := w.got ++ [a], reads := w.reads + 1 }
  | .receiveFails => { w with failed := true }
  | .send payload answer => if w.failed then w else if sendReturns payload answer then { w with writes := w.writes + 1 } else { w with failed := true }

/-- Any number of steps. -/
def Wire.run (w : Wire) (es : List WireEvent) : Wire := es.foldl Wire.step w

end Alfalfa
