import Verif.Model.Pool

/-! What handles of pictures should be (C49): each its own picture, as if pictures were values. -/

namespace Alfalfa

/-- What a handle stands for. -/
structure Held (α : Type) where
  frozen : Bool
  width : Nat
  height : Nat
  content : α

variable {α : Type}

/-- What an operation may do to the handles (`none`: destroyed or moved from) and return.  Writing to a handle changes that one and no other; a
frozen one cannot be written to; a new handle has the size that was asked for and any content; the hash is that of the content.  Only the
acquisition of a picture can fail, except by misuse. -/
inductive Held.Step (H : α → Nat) : List (Option (Held α)) → PoolOp α → List (Option (Held α)) → Except PoolError (PoolResult α) → Prop
  | acquire (held width height content) :
    Held.Step H held (.acquire width height) (held ++ [some ⟨false, width, height, content⟩]) (.ok (.handle held.length))
  | refused (held width height) : Held.Step H held (.acquire width height) held (.error .unsupported)
  | write (held id width height old content) (h : held[id]? = some (some ⟨false, width, height, old⟩)) :
    Held.Step H held (.write id content) (held.set id (some ⟨false, width, height, content⟩)) (.ok .nothing)
  | read (held id frozen width height content) (h : held[id]? = some (some ⟨frozen, width, height, content⟩)) :
    Held.Step H held (.read id) held (.ok (.picture width height content))
  | freeze (held id width height content) (h : held[id]? = some (some ⟨false, width, height, content⟩)) :
    Held.Step H held (.freeze id) (held.set id none ++ [some ⟨true, width, height, content⟩]) (.ok (.handle held.length))
  | copy (held id width height content) (h : held[id]? = some (some ⟨true, width, height, content⟩)) :
    Held.Step H held (.copy id) (held ++ [some ⟨true, width, height, content⟩]) (.ok (.handle held.length))
  | hash (held id width height content) (h : held[id]? = some (some ⟨true, width, height, content⟩)) :
    Held.Step H held (.hash id) held (.ok (.hash (H content)))
  | release (held id frozen width height content) (h : held[id]? = some (some ⟨frozen, width, height, content⟩)) :
    Held.Step H held (.release id) (held.set id none) (.ok .nothing)
  | setResize (held allow) : Held.Step H held (.setResize allow) held (.ok .nothing)
  /-- Misuse: no such handle. -/
  | absent (held id op) (h : ∀ x, held[id]? ≠ some (some x))
    (hop : op = .read id ∨ op = .freeze id ∨ op = .copy id ∨ op = .hash id ∨ op = .release id ∨ ∃ c, op = .write id c) :
    Held.Step H held op held (.error .misuse)
  /-- Misuse: the type checker refuses writing to a frozen handle and freezing it. -/
  | wrongKind (held id op x) (h : held[id]? = some (some x))
    (hop : x.frozen = true ∧ (op = .freeze id ∨ ∃ c, op = .write id c) ∨ x.frozen = false ∧ (op = .copy id ∨ op = .hash id)) :
    Held.Step H held op held (.error .misuse)

/-- A history of such steps. -/
inductive Held.Steps (H : α → Nat) : List (Option (Held α)) → List (PoolOp α) → List (Option (Held α)) → List (Except PoolError (PoolResult α)) → Prop
  | nil (held) : Held.Steps H held [] held []
  | cons (held op held' r ops held'' rs) (h : Held.Step H held op held' r) (hs : Held.Steps H held' ops held'' rs) : Held.Steps H held (op :: ops) held'' (r :: rs)

end Alfalfa
