/-! `Optional` (src/util/optional.hh), with the lifetime of the object in its storage.

Variables are numbered in the order in which they come into being.  The flag `initialized_` and the object are separate: whether there is an object is a fact of the
execution, the flag is what the program goes by.  Ending the lifetime of an object that is not there, copying one that is not there, or making one where there is
one, is a distinct outcome.  A constructor of `T` may throw: an operation that makes an object says whether it does. -/

namespace Alfalfa

/-- An `Optional< T >` (src/util/optional.hh:39-41): the flag, and the object if there is one. -/
structure OptionalVar (α : Type) where
  flag : Bool
  object : Option α
deriving Repr, DecidableEq

/-- The variables, `none` once destroyed, and how many objects of type `T` were made and destroyed by them. -/
structure OptionalWorld (α : Type) where
  variables : List (Option (OptionalVar α)) := []
  made : Nat := 0
  destroyed : Nat := 0
deriving Repr, DecidableEq

/-- Where an argument of a constructor of `T` is: elsewhere, or in the storage of an `Optional`. -/
inductive OptionalSource (α : Type) where
  | value (a : α)
  | inside (j : Nat)
deriving Repr, DecidableEq

/-- What a program does with variables of type `Optional< T >`. -/
inductive OptionalOp (α : Type) where
  /-- `Optional()` -/
  | empty
  /-- `Optional( T && )`, `Optional( true, ... )` -/
  | full (a : α) (throws : Bool)
  /-- `Optional( const Optional & )` -/
  | copy (j : Nat) (throws : Bool)
  /-- `Optional( Optional && )` -/
  | move (j : Nat) (throws : Bool)
  | initialize (i : Nat) (a : OptionalSource α) (throws : Bool)
  | assignCopy (i j : Nat) (throws : Bool)
  | assignMove (i j : Nat) (throws : Bool)
  | clear (i : Nat)
  | reset (i : Nat) (a : OptionalSource α) (throws : Bool)
  | get (i : Nat)
  | getOr (i : Nat) (a : α)
  /-- `~Optional` -/
  | destroy (i : Nat)
deriving Repr, DecidableEq

/-- How an operation ends. -/
inductive OptionalOutcome (α : Type) where
  | done
  | value (a : α)
  | threw
  | assertion
  | undefined
deriving Repr, DecidableEq

variable {α : Type}

/-- A variable that is alive. -/
def OptionalWorld.live (w : OptionalWorld α) (i : Nat) : Option (OptionalVar α) := (w.variables.getD i none)

/-- A variable changed. -/
def OptionalWorld.setVar (w : OptionalWorld α) (i : Nat) (v : Option (OptionalVar α)) : OptionalWorld α := { w with variables := w.variables.set i v }

/-- A new variable. -/
def OptionalWorld.addVar (w : OptionalWorld α) (v : OptionalVar α) : OptionalWorld α := { w with variables := w.variables ++ [some v] }

/-- `object_.~T()`: `none` if there is no object. -/
def OptionalWorld.endObject (w : OptionalWorld α) (i : Nat) : Option (OptionalWorld α) :=
  match w.live i with
  | some ⟨flag, some _⟩ => some { w.setVar i (some ⟨flag, none⟩) with destroyed := w.destroyed + 1 }
  | _ => none

/-- The value of an argument: `none` if there is no object. -/
def OptionalWorld.read (w : OptionalWorld α) : OptionalSource α → Option α
  | .value a => some a
  | .inside j => (w.live j).bind (·.object)

/-- `if ( initialized_ ) { object_.~T(); }`. -/
def OptionalWorld.endIfFlagged (w : OptionalWorld α) (i : Nat) : Option (OptionalWorld α) :=
  match w.live i with
  | some v => if v.flag then w.endObject i else some w
  | none => none

/-- The two constructors from another `Optional` (src/util/optional.hh:62-78): `leaves` is what is left of an object that was moved from. -/
def OptionalWorld.construct (w : OptionalWorld α) (leaves : α → α) (j : Nat) (throws : Bool) : OptionalWorld α × OptionalOutcome α :=
  match w.live j with
  | none => (w, .undefined)
  | some v =>
    if v.flag then
      match v.object with
      | none => (w, .undefined)
      | some a =>
        if throws then (w, .threw)
        else ({ (w.setVar j (some { v with object := some (leaves a) })).addVar ⟨true, some a⟩ with made := w.made + 1 }, .done)
    else (w.addVar ⟨false, none⟩, .done)

/-- The two assignments (src/util/optional.hh:89-117): the object is destroyed, then the flag is copied, then an object is made. -/
def OptionalWorld.assign (w : OptionalWorld α) (leaves : α → α) (i j : Nat) (throws : Bool) : OptionalWorld α × OptionalOutcome α :=
  match w.live i, w.live j with
  | some _, some other =>
    match w.endIfFlagged i with
    | none => (w, .undefined)
    | some w =>
      match w.live i with
      | none => (w, .undefined)
      | some v =>
        let w := w.setVar i (some { v with flag := other.flag })
        if other.flag then
          match (w.live j).bind (·.object) with
          | none => (w, .undefined)
          | some a =>
            if throws then (w, .threw)
            else
              let w := match w.live j with
                | some u => w.setVar j (some { u with object := some (leaves a) })
                | none => w
              ({ w.setVar i (some ⟨true, some a⟩) with made := w.made + 1 }, .done)
        else (w, .done)
  | _, _ => (w, .undefined)

/-- `initialize` (src/util/optional.hh:80-87): the flag is set when the object has been made. -/
def OptionalWorld.initialize (w : OptionalWorld α) (i : Nat) (a : OptionalSource α) (throws : Bool) : OptionalWorld α × OptionalOutcome α :=
  match w.live i with
  | none => (w, .undefined)
  | some v =>
    if v.flag then (w, .assertion)
    else match v.object, w.read a with
      | none, some a => if throws then (w, .threw) else ({ w.setVar i (some ⟨true, some a⟩) with made := w.made + 1 }, .done)
      | _, _ => (w, .undefined)

/-- `clear` (src/util/optional.hh:144). -/
def OptionalWorld.clear (w : OptionalWorld α) (i : Nat) : Option (OptionalWorld α) :=
  match w.endIfFlagged i with
  | none => none
  | some w => (w.live i).map fun v => w.setVar i (some { v with flag := false })

/-- One operation. `leaves` is what a constructor that moves leaves of its argument. -/
def OptionalWorld.step (leaves : α → α) (w : OptionalWorld α) : OptionalOp α → OptionalWorld α × OptionalOutcome α
  /- src/util/optional.hh:46 -/
  | .empty => (w.addVar ⟨false, none⟩, .done)
  /- src/util/optional.hh:48-60 -/
  | .full a throws => if throws then (w, .threw) else ({ w.addVar ⟨true, some a⟩ with made := w.made + 1 }, .done)
  | .copy j throws => w.construct id j throws
  | .move j throws => w.construct leaves j throws
  | .initialize i a throws => w.initialize i a throws
  | .assignCopy i j throws => w.assign id i j throws
  | .assignMove i j throws => w.assign leaves i j throws
  | .clear i => match w.clear i with
    | some w => (w, .done)
    | none => (w, .undefined)
  /- `reset` (src/util/optional.hh:146-147) -/
  | .reset i a throws => match w.clear i with
    | some w => w.initialize i a throws
    | none => (w, .undefined)
  /- src/util/optional.hh:136,139 -/
  | .get i => match w.live i with
    | none => (w, .undefined)
    | some v => if v.flag then (match v.object with | some a => (w, .value a) | none => (w, .undefined)) else (w, .assertion)
  /- src/util/optional.hh:137 -/
  | .getOr i a => match w.live i with
    | none => (w, .undefined)
    | some v => if v.flag then (match v.object with | some a => (w, .value a) | none => (w, .undefined)) else (w, .value a)
  /- src/util/optional.hh:142 -/
  | .destroy i => match w.endIfFlagged i with
    | some w => (w.setVar i none, .done)
    | none => (w, .undefined)

/-- Operations one after the other, up to the first that ends the program. -/
def OptionalWorld.run (leaves : α → α) (w : OptionalWorld α) : List (OptionalOp α) → OptionalWorld α × List (OptionalOutcome α)
  | [] => (w, [])
  | op :: rest =>
    let (w, o) := w.step leaves op
    match o with
    | .assertion | .undefined => (w, [o])
    | _ => let (w, os) := OptionalWorld.run leaves w rest
           (w, o :: os)

end Alfalfa
