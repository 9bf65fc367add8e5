import Mathlib.Algebra.Order.Field.Rat
import Mathlib.Algebra.Order.Floor.Ring
import Mathlib.Data.Rat.Floor

/-! The moving averages of the sender and the receiver (src/salsify/salsify-receiver.cc:55-83, src/salsify/salsify-sender.cc:61-89).

A `double` is a rational number, and every operation is followed by a function `fl` that rounds.  Nothing is said about `fl` here.  Times are microseconds below 2^63, so that no difference
of them wraps. -/

namespace Alfalfa

/-- `value_` and `last_update_`; `none` is the value -1 that stands for no value. -/
structure Average where
  value : Option ℚ := none
  last : Nat := 0

/-- `ALPHA * new_value + ( 1 - ALPHA ) * value_` with `ALPHA = 0.1` (src/salsify/salsify-receiver.cc:75-77). -/
def ewma (fl : ℚ → ℚ) (new value : ℚ) : ℚ := fl (fl (fl (1 / 10) * fl new) + fl (fl (1 - fl (1 / 10)) * value))

/-- The conversion of `time_since_last()`, a `uint32_t`, to the parameter `grace`, an `int32_t` (src/salsify/salsify-receiver.cc:64,312). -/
def graceOf (timeSinceLast : Nat) : Int := if timeSinceLast < 2 ^ 31 then timeSinceLast else (timeSinceLast : Int) - 2 ^ 32

/-- `AverageInterPacketDelay::add` (src/salsify/salsify-receiver.cc:64-80); `none` if the assertion fails. -/
def Average.addPacket (fl : ℚ → ℚ) (a : Average) (time : Nat) (grace : Int) : Option Average :=
  if time < a.last then none
  else some { value := some (match a.value with
    | none => 0
    | some v => ewma fl ((max 0 ((time : Int) - a.last - grace) : Int) : ℚ) v), last := time }

/-- `AverageEncodingTime::add` (src/salsify/salsify-sender.cc:70-86); `none` if the assertion fails. -/
def Average.addEncoding (fl : ℚ → ℚ) (a : Average) (time : Nat) : Option Average :=
  if time < a.last then none
  else some { value := some (match a.value with
    | none => 0
    | some v => if time - a.last > 1000000 then 0 else ewma fl ((time - a.last : Nat) : ℚ) v), last := time }

/-- `int_value` (src/salsify/salsify-receiver.cc:82, src/salsify/salsify-sender.cc:88); `none`: the value does not fit into the type, which is undefined. -/
def Average.intValue (a : Average) : Option Nat :=
  match a.value with
  | none => none
  | some v => if 0 ≤ v ∧ v < 2 ^ 32 then some ⌊v⌋.toNat else none

/-- The averages after each of several packets, with their times and the field `time_since_last`; `none` if an assertion fails. -/
def Average.packets (fl : ℚ → ℚ) (a : Average) : List (Nat × Nat) → Option Average
  | [] => some a
  | p :: ps => (a.addPacket fl p.1 (graceOf p.2)).bind fun a => a.packets fl ps

/-- The same for pictures that were encoded. -/
def Average.encodings (fl : ℚ → ℚ) (a : Average) : List Nat → Option Average
  | [] => some a
  | t :: ts => (a.addEncoding fl t).bind fun a => a.encodings fl ts

end Alfalfa
