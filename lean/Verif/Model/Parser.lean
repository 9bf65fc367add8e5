import Verif.Model.BoolCoder

/-! Reading and writing of header elements (src/decoder/vp8_header_structures.hh, src/encoder/serializer.cc:41-108).

A function that takes a `BoolDecoder &` is modelled as a `Parser`: a function from the decoder state to a result
and the next decoder state, or `none` when the C++ throws (or would index out of range).  A function that takes a
`BoolEncoder &` is modelled by the list of its `put` calls, in order. -/

namespace Alfalfa

/-- The `put( value, probability )` calls made on a `BoolEncoder`, in order. -/
abbrev Bits := List (Bool × Prob)

/-- A function reading from a `BoolDecoder &`; `none` is an exception. -/
abbrev Parser := StateT BoolDecoder Option

/-- `data.get( p )` (src/decoder/bool_decoder.hh:82-107) and `Boolean( data, p )`
(src/decoder/vp8_header_structures.hh:45). -/
def getBit (p : Prob := 128) : Parser Bool := fun d => some (d.get p)

/-- `Unsigned<width>( data )` (src/decoder/vp8_header_structures.hh:59-69).  The two operands of `|` are taken to be
evaluated left to right (C++ leaves the order unspecified). -/
def parseUnsigned : Nat → Parser Nat
  | 0 => pure 0
  | w + 1 => do
    let b ← getBit
    let r ← parseUnsigned w
    pure ((b.toNat <<< w) ||| r)

/-- `encode( encoder, Unsigned<width> )` (src/encoder/serializer.cc:64-71). -/
def encUnsigned : Nat → Nat → Bits
  | 0, _ => []
  | w + 1, n => (decide (n &&& (1 <<< w) ≠ 0), 128) :: encUnsigned w n

/-- `Signed<width>( data )` (src/decoder/vp8_header_structures.hh:78); the operands of `*` are taken left to right. -/
def parseSigned (w : Nat) : Parser Int := do
  let u ← parseUnsigned w
  let s ← getBit
  pure ((u : Int) * (if s then -1 else 1))

/-- `encode( encoder, Signed<width> )` (src/encoder/serializer.cc:73-79). -/
def encSigned (w : Nat) (n : Int) : Bits := encUnsigned w n.natAbs ++ [(decide (n < 0), 128)]

/-- `Optional<T>( flag, data, … )`: read only if the flag is set (src/util/optional.hh). -/
def parseOptional (flag : Bool) (p : Parser α) : Parser (Option α) :=
  if flag then some <$> p else pure none

/-- `encode( encoder, Optional<T> )` (src/encoder/serializer.cc:46-52). -/
def encOptional (f : α → Bits) : Option α → Bits
  | none => []
  | some x => f x

/-- `Flagged<T>( data, p )` (src/decoder/vp8_header_structures.hh:91-93). -/
def parseFlagged (prob : Prob) (p : Parser α) : Parser (Option α) := do
  let b ← getBit prob
  parseOptional b p

/-- `encode( encoder, Flagged<T>, p )` (src/encoder/serializer.cc:54-62). -/
def encFlagged (prob : Prob) (f : α → Bits) (x : Option α) : Bits :=
  (x.isSome, prob) :: encOptional f x

/-- `Array<T,len>( data )` and `Enumerate<T,len>( data, … )`
(src/decoder/vp8_header_structures.hh:113-121,152-160): elements in index order, the element reader may depend on
the index.  `SafeArray`/`Array` of static length `n` is modelled as `Fin n → T`. -/
def parseFin : (n : Nat) → (Fin n → Parser α) → Parser (Fin n → α)
  | 0, _ => pure Fin.elim0
  | n + 1, f => do
    let x ← f 0
    let g ← parseFin n (fun i => f i.succ)
    pure (Fin.cases x g)

/-- `encode( encoder, Array )`, `encode( encoder, Enumerate, … )` (src/encoder/serializer.cc:81-87,102-108). -/
def encFin : (n : Nat) → (Fin n → Bits) → Bits
  | 0, _ => []
  | n + 1, f => f 0 ++ encFin n (fun i => f i.succ)

end Alfalfa
