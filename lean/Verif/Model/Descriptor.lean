import Verif.Model.Y4m

/-! `FileDescriptor` (src/util/file_descriptor.hh): moving bytes through the system, and owning numbers of open files.

In the first half, the system decides at each call whether it fails and how many bytes it moves.  In the second half, the system gives out the least free number, and
objects pass numbers on and give them back. -/

namespace Alfalfa

/-! ### Bytes -/

/-- What the system makes of a call of `read` or `write`: it fails, or it moves some of the bytes, as many as the number says if there are that many. -/
inductive Answer
  | fails
  | moves (k : Nat)
deriving Repr, DecidableEq

/-- Exceptions: of `SystemCall` (src/util/exception.hh:108-115); "read() called after eof was set"; "reached EOF before reaching target"; "nothing to write"; "write
returned 0"; the assertion at src/util/file_descriptor.hh:188; `stuck` is no exception but an exhausted bound of a loop. -/
inductive TransferError
  | system
  | afterEnd
  | beforeTarget
  | nothingToWrite
  | returnedZero
  | assertion
  | stuck
deriving Repr, DecidableEq

/-- A `FileDescriptor` (src/util/file_descriptor.hh:44-57) and the file behind it: the bytes that are still to be read, the bytes that were written, how many system calls
there were. -/
structure Descriptor where
  rest : List UInt8 := []
  sent : List UInt8 := []
  ended : Bool := false
  readCount : Nat := 0
  writeCount : Nat := 0
  calls : Nat := 0
deriving Repr, DecidableEq

/-- src/util/file_descriptor.hh:42 -/
def bufferSize : Nat := 1048576

/-- `read` (src/util/file_descriptor.hh:158-176).  The system reads at least a byte if a byte is asked for and there is one. -/
def Descriptor.read (answers : Nat → Answer) (limit : Nat) (d : Descriptor) : Except TransferError (List UInt8) × Descriptor :=
  if d.ended then (.error .afterEnd, d)
  else match answers d.calls with
    | .fails => (.error .system, { d with calls := d.calls + 1 })
    | .moves k =>
      let n := min (max k 1) (min (min bufferSize limit) d.rest.length)
      (.ok (d.rest.take n),
        { d with rest := d.rest.drop n, ended := n == 0, readCount := (d.readCount + 1) % 2 ^ 32, calls := d.calls + 1 })

/-- The loop of `read_exactly` (src/util/file_descriptor.hh:180-189). -/
def exactlyMore (answers : Nat → Answer) (length : Nat) : Nat → List UInt8 → Descriptor → Except TransferError (List UInt8) × Descriptor
  | 0, _, d => (.error .stuck, d)
  | fuel + 1, ret, d =>
    if ret.length < length then
      match d.read answers (length - ret.length) with
      | (.error e, d) => (.error e, d)
      | (.ok b, d) => if d.ended then (.error .beforeTarget, d) else exactlyMore answers length fuel (ret ++ b) d
    else if ret.length = length then (.ok ret, d) else (.error .assertion, d)

/-- `read_exactly` (src/util/file_descriptor.hh:178-190). -/
def Descriptor.readExactly (answers : Nat → Answer) (length : Nat) (d : Descriptor) : Except TransferError (List UInt8) × Descriptor :=
  exactlyMore answers length (length + 1) [] d

/-- The loop of `getline` (src/util/file_descriptor.hh:143-155). -/
def lineMore (answers : Nat → Answer) : Nat → List UInt8 → Descriptor → Except TransferError (List UInt8) × Descriptor
  | 0, _, d => (.error .stuck, d)
  | fuel + 1, ret, d =>
    match d.read answers 1 with
    | (.error e, d) => (.error e, d)
    | (.ok b, d) => if d.ended ∨ b = [10] then (.ok ret, d) else lineMore answers fuel (ret ++ b) d

/-- `getline` (src/util/file_descriptor.hh:141-156). -/
def Descriptor.getline (answers : Nat → Answer) (d : Descriptor) : Except TransferError (List UInt8) × Descriptor :=
  lineMore answers (d.rest.length + 1) [] d

/-- The system call `write`: how many bytes it took. -/
def Descriptor.callWrite (answers : Nat → Answer) (b : List UInt8) (d : Descriptor) : Except TransferError Nat × Descriptor :=
  match answers d.calls with
  | .fails => (.error .system, { d with calls := d.calls + 1 })
  | .moves k => (.ok (min k b.length), { d with sent := d.sent ++ b.take k, calls := d.calls + 1 })

/-- `write` of what is between two iterators (src/util/file_descriptor.hh:97-113).  Gives what is left of it. -/
def Descriptor.writeSome (answers : Nat → Answer) (b : List UInt8) (d : Descriptor) : Except TransferError (List UInt8) × Descriptor :=
  if b = [] then (.error .nothingToWrite, d)
  else match d.callWrite answers b with
    | (.error e, d) => (.error e, d)
    | (.ok n, d) => if n = 0 then (.error .returnedZero, d) else (.ok (b.drop n), { d with writeCount := (d.writeCount + 1) % 2 ^ 32 })

/-- The loop of `write` of a string (src/util/file_descriptor.hh:119-121). -/
def writeTextMore (answers : Nat → Answer) (writeAll : Bool) : Nat → List UInt8 → Descriptor → Except TransferError (List UInt8) × Descriptor
  | 0, _, d => (.error .stuck, d)
  | fuel + 1, b, d =>
    match d.writeSome answers b with
    | (.error e, d) => (.error e, d)
    | (.ok left, d) => if writeAll ∧ left ≠ [] then writeTextMore answers writeAll fuel left d else (.ok left, d)

/-- `write` of a string (src/util/file_descriptor.hh:115-124).  Gives what is left of it. -/
def Descriptor.writeText (answers : Nat → Answer) (writeAll : Bool) (b : List UInt8) (d : Descriptor) : Except TransferError (List UInt8) × Descriptor :=
  writeTextMore answers writeAll (b.length + 1) b d

/-- The loop of `write` of a `Chunk` (src/util/file_descriptor.hh:128-136). -/
def writeChunkMore (answers : Nat → Answer) : Nat → List UInt8 → Descriptor → Except TransferError Unit × Descriptor
  | 0, _, d => (.error .stuck, d)
  | fuel + 1, b, d =>
    if b.length > 0 then
      match d.callWrite answers b with
      | (.error e, d) => (.error e, d)
      | (.ok n, d) => if n = 0 then (.error .returnedZero, d) else writeChunkMore answers fuel (b.drop n) d
    else (.ok (), d)

/-- `write` of a `Chunk` (src/util/file_descriptor.hh:126-139). -/
def Descriptor.writeChunk (answers : Nat → Answer) (b : List UInt8) (d : Descriptor) : Except TransferError Unit × Descriptor :=
  match writeChunkMore answers (b.length + 1) b d with
  | (.error e, d) => (.error e, d)
  | (.ok (), d) => (.ok (), { d with writeCount := (d.writeCount + 1) % 2 ^ 32 })

/-! ### Numbers -/

/-- The table of the process, from numbers to open files; the objects of type `FileDescriptor`, `none` once destroyed, with their `fd_`, `none` for -1; the files that
were closed; how many files there were. -/
structure Process where
  table : List (Option Nat) := []
  objects : List (Option (Option Nat)) := []
  closed : List Nat := []
  files : Nat := 0
deriving Repr, DecidableEq

/-- What a program does with objects of type `FileDescriptor`. -/
inductive DescriptorOp
  /-- `FileDescriptor( open( ... ) )` -/
  | create
  /-- `FileDescriptor( n )` with a number that was there before -/
  | adopt (n : Nat)
  /-- `FileDescriptor( FileDescriptor && )` -/
  | move (i : Nat)
  /-- a call of the system with `fd_` -/
  | use (i : Nat)
  | destroy (i : Nat)
deriving Repr, DecidableEq

/-- `terminated`: an exception leaves a destructor; `badNumber`: the system finds no file; `reached`: the file that a call reaches; `undefined`: there is no such object. -/
inductive DescriptorOutcome
  | done
  | reached (file : Nat)
  | badNumber
  | terminated
  | undefined
deriving Repr, DecidableEq

/-- A new file under the least free number. -/
def Process.openFile (p : Process) : Process × Nat :=
  let n := p.table.findIdx (· == none)
  ({ p with table := if n < p.table.length then p.table.set n (some p.files) else p.table ++ [some p.files], files := p.files + 1 }, n)

/-- The system call `close`. -/
def Process.close (p : Process) (n : Nat) : Option Process :=
  match p.table.getD n none with
  | none => none
  | some f => some { p with table := p.table.set n none, closed := p.closed ++ [f] }

/-- One operation: constructors (src/util/file_descriptor.hh:57-60), the destructor (src/util/file_descriptor.hh:62-67), which is `noexcept`, so that an error of `close` ends
the program, moving (src/util/file_descriptor.hh:88-95). -/
def Process.step (p : Process) : DescriptorOp → Process × DescriptorOutcome
  | .create => ({ p.openFile.1 with objects := p.objects ++ [some (some p.openFile.2)] }, .done)
  | .adopt n => ({ p with objects := p.objects ++ [some (some n)] }, .done)
  | .move i => match p.objects.getD i none with
    | none => (p, .undefined)
    | some n => ({ p with objects := p.objects.set i (some none) ++ [some n] }, .done)
  | .use i => match p.objects.getD i none with
    | none => (p, .undefined)
    | some none => (p, .badNumber)
    | some (some n) => match p.table.getD n none with
      | none => (p, .badNumber)
      | some f => (p, .reached f)
  | .destroy i => match p.objects.getD i none with
    | none => (p, .undefined)
    | some none => ({ p with objects := p.objects.set i none }, .done)
    | some (some n) => match p.close n with
      | none => (p, .terminated)
      | some p => ({ p with objects := p.objects.set i none }, .done)

/-- A program, until it is ended by a destructor. -/
def Process.run (p : Process) : List DescriptorOp → Process × List DescriptorOutcome
  | [] => (p, [])
  | op :: ops => match p.step op with
    | (p, .terminated) => (p, [.terminated])
    | (p, o) => ((p.run ops).1, o :: (p.run ops).2)

/-- A process at its start, with the files 0, 1, ..., k - 1 open under these numbers. -/
def Process.start (k : Nat) : Process := { table := (List.range k).map some, files := k }

end Alfalfa
