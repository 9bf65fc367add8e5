/-! The pool of pictures and its handles: `RasterPool`, `RasterDeleter`, `HashCachedRaster`, `VP8MutableRasterHandle`, `VP8RasterHandle`
(src/decoder/raster_handle.{hh,cc}).

Objects are numbered in the order of their allocation and a number is not used again.  Handles are numbered in the order in which they come into being.  Each
operation holds a lock or is of a `shared_ptr`, which is atomic, so what several threads do is one sequence of operations.  `α` is the content of a picture.
`FramePool` (src/decoder/frame_pool.cc:43-117) is the same without caches, frozen handles and resizing. -/

namespace Alfalfa

/-- A `HashCachedRaster` (src/decoder/raster_handle.hh:48-62). -/
structure PoolObject (α : Type) where
  width : Nat
  height : Nat
  content : α
  cache : Option Nat := none

/-- A handle that is not empty: `VP8RasterHandle` if frozen, else `VP8MutableRasterHandle` (src/decoder/raster_handle.hh:78-120). -/
structure PoolHandle where
  frozen : Bool
  address : Nat
deriving DecidableEq

/-- The memory, the queue of unused objects and all handles; an object that was deleted, and a handle that was destroyed or moved from, is `none`.
`allowResize` is the debugging switch (src/decoder/raster_handle.cc:49). -/
structure Pool (α : Type) where
  heap : Nat → Option (PoolObject α) := fun _ => none
  next : Nat := 0
  unused : List Nat := []
  handles : List (Option PoolHandle) := []
  allowResize : Bool := false

/-- `Unsupported`, a failed assertion, the use of an empty handle or of the wrong kind by the caller, the use of a deleted object. -/
inductive PoolError | unsupported | assertion | misuse | freed
deriving Repr, DecidableEq

inductive PoolOp (α : Type)
  /-- Constructor of a mutable handle. -/
  | acquire (width height : Nat)
  /-- Writing through a mutable handle. -/
  | write (handle : Nat) (content : α)
  | read (handle : Nat)
  /-- Constructor of a handle from a mutable one. -/
  | freeze (handle : Nat)
  /-- Copy constructor of a handle. -/
  | copy (handle : Nat)
  /-- `VP8RasterHandle::hash`. -/
  | hash (handle : Nat)
  /-- `handle.get().hash()` of a mutable handle. -/
  | hashMutable (handle : Nat)
  /-- Destructor of either kind. -/
  | release (handle : Nat)
  | setResize (allow : Bool)

/-- What an operation returns. -/
inductive PoolResult (α : Type)
  | nothing
  | handle (id : Nat)
  | picture (width height : Nat) (content : α)
  | hash (value : Nat)

variable {α : Type}

/-- `heap[ address ] = object`. -/
def Pool.store (p : Pool α) (address : Nat) (o : Option (PoolObject α)) : Pool α :=
  { p with heap := fun a => if a = address then o else p.heap a }

/-- `new RasterType( width, height )`; what is in it is an argument. -/
def Pool.allocate (p : Pool α) (fresh : α) (width height : Nat) : Pool α × Nat :=
  ({ p.store p.next (some { width := width, height := height, content := fresh }) with next := p.next + 1 }, p.next)

/-- The unused objects are deleted (src/decoder/raster_handle.cc:77-79): the holders in the queue were made from plain pointers
(src/decoder/raster_handle.cc:99), so their deleter has no pool and deletes them. -/
def Pool.deleteUnused (p : Pool α) : Pool α :=
  { p with heap := fun a => if a ∈ p.unused then none else p.heap a, unused := [] }

/-- `RasterPool::make_raster` (src/decoder/raster_handle.cc:63-91). -/
def Pool.makeRaster (p : Pool α) (fresh : α) (width height : Nat) : Except PoolError (Pool α × Nat) :=
  match p.unused with
  | [] => .ok (p.allocate fresh width height)
  | a :: rest =>
    match p.heap a with
    | none => .error .freed
    | some o =>
      if o.width ≠ width ∨ o.height ≠ height then
        if p.allowResize then .ok (p.deleteUnused.allocate fresh width height) else .error .unsupported
      else .ok ({ p with unused := rest }, a)

/-- `HashCachedRaster::hash` (src/decoder/raster_handle.cc:189-199). -/
def Pool.hashObject (H : α → Nat) (p : Pool α) (address : Nat) : Pool α × Except PoolError (PoolResult α) :=
  match p.heap address with
  | none => (p, .error .freed)
  | some o =>
    match o.cache with
    | some h => (p, .ok (.hash h))
    | none => (p.store address (some { o with cache := some (H o.content) }), .ok (.hash (H o.content)))

/-- `RasterDeleter<HashCachedRaster>::operator()` for an object that came from the pool (src/decoder/raster_handle.cc:113-122), with `free_raster`
(src/decoder/raster_handle.cc:93-100). -/
def Pool.discard (p : Pool α) (address : Nat) : Except PoolError (Pool α) :=
  match p.heap address with
  | none => .error .freed
  | some o => .ok { p.store address (some { o with cache := none }) with unused := p.unused ++ [address] }

/-- A new handle. -/
def Pool.addHandle (p : Pool α) (h : PoolHandle) : Pool α × Except PoolError (PoolResult α) :=
  ({ p with handles := p.handles ++ [some h] }, .ok (.handle p.handles.length))

/-- One operation.  `fresh` is what is in a new object. -/
def Pool.step (H : α → Nat) (fresh : α) (p : Pool α) (op : PoolOp α) : Pool α × Except PoolError (PoolResult α) :=
  let handle (id : Nat) (frozen : Bool) (f : Nat → Pool α × Except PoolError (PoolResult α)) : Pool α × Except PoolError (PoolResult α) :=
    match p.handles[id]? with
    | some (some h) => if h.frozen = frozen then f h.address else (p, .error .misuse)
    | _ => (p, .error .misuse)
  match op with
  | .acquire width height =>
    -- src/decoder/raster_handle.cc:152-166
    match p.makeRaster fresh width height with
    | .error e => (p, .error e)
    | .ok (p', a) =>
      match p'.heap a with
      | none => (p', .error .freed)
      | some o => if o.cache.isSome then (p', .error .assertion) else p'.addHandle { frozen := false, address := a }
  | .write id content => handle id false fun a =>
    match p.heap a with
    | none => (p, .error .freed)
    | some o => (p.store a (some { o with content := content }), .ok .nothing)
  | .read id =>
    match p.handles[id]? with
    | some (some h) =>
      match p.heap h.address with
      | none => (p, .error .freed)
      | some o => (p, .ok (.picture o.width o.height o.content))
    | _ => (p, .error .misuse)
  | .freeze id => handle id false fun a =>
    -- src/decoder/raster_handle.cc:168-178
    match p.heap a with
    | none => (p, .error .freed)
    | some o =>
      if o.cache.isSome then (p, .error .assertion)
      else { p with handles := p.handles.set id none }.addHandle { frozen := true, address := a }
  | .copy id => handle id true fun a => p.addHandle { frozen := true, address := a }
  | .hash id => handle id true fun a => p.hashObject H a
  | .hashMutable id => handle id false fun a => p.hashObject H a
  | .release id =>
    match p.handles[id]? with
    | some (some h) =>
      let p' := { p with handles := p.handles.set id none }
      -- the last handle calls the deleter
      if p'.handles.any fun other => other.any fun other => other.address = h.address then (p', .ok .nothing)
      else match p'.discard h.address with
        | .error e => (p', .error e)
        | .ok p'' => (p'', .ok .nothing)
    | _ => (p, .error .misuse)
  | .setResize allow => ({ p with allowResize := allow }, .ok .nothing)

/-- A history from a pool, each operation with what would be in a new object; the results. -/
def Pool.run (H : α → Nat) (p : Pool α) : List (α × PoolOp α) → Pool α × List (Except PoolError (PoolResult α))
  | [] => (p, [])
  | (fresh, op) :: ops =>
    let (p', r) := p.step H fresh op
    let (q, rs) := p'.run H ops
    (q, r :: rs)

end Alfalfa
