import Mathlib.Data.List.Basic
import Mathlib.Logic.Function.Basic

/-! Bytes in memory: `class Chunk` on 64-bit numbers (src/util/chunk.hh), `MMap_Region` and `File` (src/util/mmap_region.cc, src/util/file.cc).

Addresses are natural numbers, `uint64_t` is a number below `2 ^ 64` and `int` has 32 bits.  Pages have 4096 bytes. -/

namespace Alfalfa.Mapped

/-- What an operation comes to: a value, `std::out_of_range`, a `unix_error`, the signal for a page that the file no longer reaches (`SIGBUS`), or no defined behaviour (an address that is not
mapped, a shift or an overflow that the language does not define). -/
inductive Access (α : Type)
  | ok (a : α)
  | outOfRange
  | unixError
  | busError
  | undefined
deriving DecidableEq

def Access.bind {α β : Type} (a : Access α) (f : α → Access β) : Access β :=
  match a with
  | .ok a => f a
  | .outOfRange => .outOfRange
  | .unixError => .unixError
  | .busError => .busError
  | .undefined => .undefined

/-- `class Chunk` (src/util/chunk.hh:38-42): an address and a size. -/
structure View where
  buffer : Nat
  size : Nat
deriving DecidableEq

/-- `Chunk::operator()( offset, length )` (src/util/chunk.hh:93-98). -/
def View.sub (v : View) (offset length : Nat) : Access View :=
  if offset > v.size then .outOfRange
  else if (offset + length) % 2 ^ 64 > v.size then .outOfRange
  else .ok ⟨v.buffer + offset, length⟩

/-- `Chunk::operator()( offset )` (src/util/chunk.hh:88-91); the difference is unsigned. -/
def View.from (v : View) (offset : Nat) : Access View := v.sub offset ((v.size + 2 ^ 64 - offset) % 2 ^ 64)

/-- Some bytes from an address on; `load` is the memory. -/
def loads (load : Nat → Access Nat) (address : Nat) : Nat → Access (List Nat)
  | 0 => .ok []
  | n + 1 => (load address).bind fun b => (loads load (address + 1) n).bind fun l => .ok (b :: l)

/-- Bytes as a number, the least significant first (`le16toh` and so on). -/
def littleEndian : List Nat → Nat
  | [] => 0
  | b :: l => b + 256 * littleEndian l

/-- `octet`, `le16`, `le32`, `le64` for 1, 2, 4 and 8 bytes (src/util/chunk.hh:43-52,105-124). -/
def View.number (load : Nat → Access Nat) (v : View) (n : Nat) : Access Nat :=
  if n > v.size then .outOfRange else (loads load v.buffer n).bind fun l => .ok (littleEndian l)

/-- `Chunk::bit_mask` (src/util/chunk.hh:61-67): `( 1 << n ) - 1` in `int`. -/
def bitMask (n : Nat) : Access Nat := if n > 63 then .outOfRange else if n ≥ 31 then .undefined else .ok (1 <<< n - 1)

/-- `buffer_[ i ] << ( i * 8 )` (src/util/chunk.hh:136): an `int`, converted to `uint64_t`. -/
def shiftedByte (b i : Nat) : Access Nat :=
  if i ≥ 4 then .undefined else .ok (if i = 3 ∧ b ≥ 128 then b <<< 24 + (2 ^ 64 - 2 ^ 32) else b <<< (i * 8))

/-- The loop of `Chunk::bits` (src/util/chunk.hh:134-137) from byte `i` on. -/
def gather (load : Nat → Access Nat) (buffer : Nat) : Nat → Nat → Nat → Access Nat
  | 0, _, val => .ok val
  | n + 1, i, val => (load (buffer + i)).bind fun b => (shiftedByte b i).bind fun x => gather load buffer n (i + 1) (val ||| x)

/-- `Chunk::bits` (src/util/chunk.hh:126-140). -/
def View.bits (load : Nat → Access Nat) (v : View) (offset length : Nat) : Access Nat :=
  let byteLength := (1 + (offset + length + 2 ^ 64 - 1) % 2 ^ 64 / 8) % 2 ^ 64
  if byteLength > v.size then .outOfRange
  else if byteLength > 8 then .outOfRange
  else (gather load v.buffer byteLength 0 0).bind fun val => (bitMask length).bind fun m => .ok ((val >>> offset) &&& m)

/-! ### Mapped files -/

/-- A length in whole pages. -/
def pages (n : Nat) : Nat := (n + 4095) / 4096 * 4096

/-- A mapping that the kernel has made: where, how many bytes were asked for, of which file. -/
structure Region where
  base : Nat
  length : Nat
  file : Nat
deriving DecidableEq

/-- `class File` (src/util/file.hh:39-45) with its `MMap_Region` (src/util/mmap_region.hh:34-38); `address` is `none` for the null pointer of an object that was moved from.  `file` is which file was
opened; the program does not see it.  The descriptor is in Model/Descriptor. -/
structure Opened where
  size : Nat
  address : Option Nat
  view : View
  file : Nat

/-- The mappings, the objects of the program and the contents of the files. -/
structure World where
  regions : List Region := []
  objects : Nat → Option Opened := fun _ => none
  files : Nat → List Nat

/-- Whether two mappings share no page. -/
def Region.Apart (r s : Region) : Prop := r.base + pages r.length ≤ s.base ∨ s.base + pages s.length ≤ r.base

instance (r s : Region) : Decidable (r.Apart s) := inferInstanceAs (Decidable (_ ∨ _))

/-- A byte of memory: a byte of the file, zero between the end of the file and the end of the page, the signal after that; no defined behaviour where nothing is mapped. -/
def World.load (w : World) (address : Nat) : Access Nat :=
  match w.regions.find? fun r => decide (r.base ≤ address ∧ address < r.base + pages r.length) with
  | none => .undefined
  | some r => if address - r.base < pages (w.files r.file).length then .ok ((w.files r.file).getD (address - r.base) 0) else .busError

/-- What can happen: the program opens a file (the kernel chooses where to map it, or that it fails), moves an object to a new one and destroys one; anybody changes a file. -/
inductive Action
  | open (object file : Nat) (place : Option Nat)
  | move (source target : Nat)
  | destroy (object : Nat)
  | change (file : Nat) (contents : List Nat)

/-- `File::File` (src/util/file.cc:42-47) with `MMap_Region::MMap_Region` (src/util/mmap_region.cc:37-44), `File::File( File && )` (src/util/file.cc:49-54) with
`MMap_Region::MMap_Region( MMap_Region && )` (src/util/mmap_region.cc:53-58), the destructors (src/util/mmap_region.cc:46-51).  The kernel refuses to map nothing (`EINVAL`) and chooses a place apart
from the others; `none`: this cannot happen. -/
def World.step (w : World) : Action → Option (Access World)
  | .open o f place =>
    if (w.objects o).isSome then none
    else
      let size := (w.files f).length
      match place with
      | none => some .unixError
      | some base =>
        if size = 0 then some .unixError
        else if ∀ r ∈ w.regions, (⟨base, size, f⟩ : Region).Apart r then
          some (.ok { w with regions := ⟨base, size, f⟩ :: w.regions, objects := Function.update w.objects o (some ⟨size, some base, ⟨base, size⟩, f⟩) })
        else none
  | .move s t =>
    match w.objects s, w.objects t with
    | some x, none => some (.ok { w with objects := Function.update (Function.update w.objects t (some x)) s (some { x with address := none }) })
    | _, _ => none
  | .destroy o =>
    match w.objects o with
    | none => none
    | some x =>
      let regions := match x.address with
        | none => w.regions
        | some a => w.regions.filter fun r => r.base ≠ a
      some (.ok { w with regions, objects := Function.update w.objects o none })
  | .change f contents => some (.ok { w with files := Function.update w.files f contents })

/-- The worlds that can be reached from one without mappings.  An exception of `open` leaves the world as it was. -/
inductive World.Reachable : World → Prop
  | start (files : Nat → List Nat) : World.Reachable { files }
  | step {w w' : World} {a : Action} : w.Reachable → w.step a = some (.ok w') → World.Reachable w'

end Alfalfa.Mapped
