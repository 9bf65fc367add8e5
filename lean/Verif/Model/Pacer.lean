import Mathlib.Data.Int.Notation

/-! The pacer of outgoing packets (src/net/pacer.hh).  Times are nanoseconds, the unit of `std::chrono::system_clock` in libstdc++; the 64-bit
counters are taken not to overflow. -/

namespace Alfalfa

/-- `struct ScheduledPacket` (src/net/pacer.hh:40-43). -/
structure ScheduledPacket where
  when_ : Int
  what : List UInt8
deriving Repr, DecidableEq

/-- `class Pacer` (src/net/pacer.hh:37-45): the queue, front first. -/
abbrev Pacer := List ScheduledPacket

/-- A `long` assigned to an `int`. -/
def toInt32 (v : Int) : Int := (v + 2 ^ 31) % 2 ^ 32 - 2 ^ 31

/-- `Pacer::ms_until_due` (src/net/pacer.hh:48-60) at the time `now`; `duration_cast` truncates towards zero. -/
def Pacer.msUntilDue (p : Pacer) (now : Int) : Int :=
  match p with
  | [] => 1000
  | front :: _ =>
    let millis := toInt32 ((front.when_ - now).tdiv 1000000)
    if millis < 0 then 0 else millis

/-- `Pacer::push` (src/net/pacer.hh:63-71) at the time `now`. -/
def Pacer.push (p : Pacer) (now : Int) (payload : List UInt8) (delayMicroseconds : Int) : Pacer :=
  match p.getLast? with
  | none => p ++ [⟨now, payload⟩]
  | some back => p ++ [⟨back.when_ + delayMicroseconds * 1000, payload⟩]

/-- `Pacer::front` and `Pacer::pop` (src/net/pacer.hh:73-74); `none`: the deque is empty, which is undefined behaviour. -/
def Pacer.pop (p : Pacer) : Option (List UInt8 × Pacer) :=
  match p with
  | [] => none
  | front :: rest => some (front.what, rest)

/-- The loop that sends what is due (src/salsify/salsify-sender.cc:688-699), at the time `now`: what is sent and what stays.  The clock is read
again in each round there; a round sees the same `now` here.  The fuel bounds the rounds. -/
def Pacer.sendDue (now : Int) : Nat → Pacer → Option (List (List UInt8) × Pacer)
  | 0, p => some ([], p)
  | fuel + 1, p =>
    if p.msUntilDue now = 0 then do
      let (what, p) ← p.pop
      let (sent, p) ← sendDue now fuel p
      pure (what :: sent, p)
    else some ([], p)

end Alfalfa
