import Verif.Spec.HeaderBits
import Verif.Spec.CoefficientBits
import Verif.Spec.FrameBytes
import Verif.Spec.Arithmetic

/-! A whole frame as the format gives it (RFC 6386, sections 5 and 9.5, with the parts of Spec/HeaderBits, Spec/ModeBits,
Spec/CoefficientBits, Spec/FrameBytes and Spec/Arithmetic): which macroblock is next to which, what is in the first partition, and how
the rows of macroblocks are dealt to the partitions of coefficients. -/

namespace Alfalfa.FrameSpec

/-- The number of macroblocks that cover `n` pixels. -/
def macroblocks (n : Nat) : Nat := (n + 15) / 16

/-- What is above macroblock `k` in rows of `w`. -/
def over {α : Type} (w : Nat) (all : List α) (k : Nat) : Option α := if w ≤ k then all[k - w]? else none

/-- What is to the left of it. -/
def before {α : Type} (w : Nat) (all : List α) (k : Nat) : Option α := if k % w = 0 then none else all[k - 1]?

/-- The place of macroblock `k` in `h` rows of `w`, and what is around it. -/
def around (w h : Nat) (modes : List MBModes) (k : Nat) : MBContext :=
  { column := k % w, row := k / w, width := w, height := h, above := over w modes k, left := before w modes k
    aboveLeft := if w ≤ k ∧ k % w ≠ 0 then modes[k - w - 1]? else none }

/-- The bits of the first partition: the header, and the modes and vectors of the macroblocks in order. -/
def firstBits (header : Bits) (mb : MBContext → MBModes → Bits) (width height : Nat) (modes : List MBModes) : Bits :=
  header ++ modes.zipIdx.flatMap fun x => mb (around (macroblocks width) (macroblocks height) modes x.2) x.1

/-- Has the Y2 block of the closest earlier macroblock that has one, of those in `same`, a coefficient that is not zero? -/
def earlierY2 (modes : List MBModes) (residues : List Residue) (same : Nat → Bool) (k : Nat) : Bool :=
  match (List.range k).reverse.find? fun j => same j && (modes[j]?).any fun m => m.yMode ≠ B_PRED && m.yMode ≠ SPLITMV with
  | none => false
  | some j => (residues[j]?).any (·.y2.hasNonzero)

/-- The bits of the coefficients of macroblock `k`. -/
def coefficientBits (probs : CoeffProbs) (w : Nat) (modes : List MBModes) (residues : List Residue) (m : MBModes) (r : Residue) (k : Nat) : Bits :=
  CoefficientSpec.residueBits probs m (earlierY2 modes residues (fun j => j % w == k % w) k) (earlierY2 modes residues (fun j => j / w == k / w) k)
    (over w residues k) (before w residues k) r

/-- The bits of partition `i` of `n`: every `n`th row, from row `i` on. -/
def partitionBits (probs : CoeffProbs) (w n i : Nat) (modes : List MBModes) (residues : List Residue) : Bits :=
  ((modes.zip residues).zipIdx.filter fun x => x.2 / w % n == i).flatMap fun x => coefficientBits probs w modes residues x.1.1 x.1.2 x.2

/-- These bytes are the arithmetic coding of these bits: the lower end of their range, in which they are found again. -/
def Codes (bits : Bits) (bytes : List UInt8) : Prop :=
  (let (low, _, scale) := ArithmeticSpec.encode (0, 255, 0) bits; ArithmeticSpec.number bytes * 2 ^ (8 + scale) = low * 256 ^ bytes.length) ∧
  ArithmeticSpec.decodeBytes bytes (bits.map Prod.snd) = bits.map Prod.fst

/-- These bytes are this frame, with these bits in the first partition and these probabilities of coefficients, in `n` partitions. -/
def IsFrame {H : Type} (key : Bool) (first : Bits) (probs : CoeffProbs) (n : Nat) (f : Frame H) (bytes : List UInt8) : Prop :=
  ∃ one parts, bytes = frame key 0 f.show' f.width f.height one parts ∧ Codes first one ∧ parts.length = n ∧
    ∀ i p, parts[i]? = some p → Codes (partitionBits probs (macroblocks f.width) n i f.modes f.residues) p

end Alfalfa.FrameSpec
