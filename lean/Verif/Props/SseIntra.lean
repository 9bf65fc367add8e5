import Verif.Proof.SseIntra

/-! C85, prediction from the edges of a block: the vector predictors and the portable ones. -/

namespace Alfalfa
open Sse

theorem sseIntraSquare4_eq (mode : Nat) (e : Edge 4 8) (r r' : Int → UInt8) :
    sseIntraSquare4 mode e (e.aboveStorage r) (e.leftStorage r') = intraSquare4 mode e :=
  match mode with
  | 0 => congrArg some (dcPred4_eq e r r')
  | 1 => congrArg some (tmPred4_eq e r r')
  | 2 => rfl
  | 3 => rfl
  | 4 => rfl
  | 5 => rfl
  | 6 => rfl
  | 7 => rfl
  | 8 => congrArg some (d153_eq e r r')
  | 9 => congrArg some (d207_eq e r')
  | _ + 10 => rfl

theorem sseDcPredict8_eq (column row : Nat) (e : Edge 8 8) (r r' : Int → UInt8) :
    sseDcPredict8 column row (e.aboveStorage r) (e.leftStorage r') = dcPredict (Nat.le_refl 8) 3 column row e := by
  unfold sseDcPredict8 dcPredict
  rw [dcPred8_eq, dcOne8_eq (f := e.up (Nat.le_refl 8)) fun j => bytesAt_above e r j.2, dcOne8_eq (f := e.left) fun j => bytesAt_left e r' j.2]
  rfl

theorem sseDcPredict16_eq (column row : Nat) (e : Edge 16 16) (r r' : Int → UInt8) (m2 : Reg) :
    sseDcPredict16 column row (e.aboveStorage r) (e.leftStorage r') m2 = dcPredict (Nat.le_refl 16) 4 column row e := by
  unfold sseDcPredict16 dcPredict
  rw [dcPred16_eq, dcOne16_eq (f := e.up (Nat.le_refl 16)) fun j => bytesAt_above e r j.2, dcOne16_eq (f := e.left) fun j => bytesAt_left e r' j.2]
  rfl

theorem sseIntraSquare8_eq (mode column row : Nat) (e : Edge 8 8) (r r' : Int → UInt8) :
    sseIntraSquare8 mode column row (e.aboveStorage r) (e.leftStorage r') = intraSquare (Nat.le_refl 8) 3 mode column row e :=
  match mode with
  | 0 => congrArg some (sseDcPredict8_eq column row e r r')
  | 1 => congrArg some (sseVertical_eq _ e r)
  | 2 => congrArg some (hPred8_eq e r')
  | 3 => congrArg some (tmPred8_eq e r r')
  | _ + 4 => rfl

theorem sseIntraSquare16_eq (mode column row : Nat) (e : Edge 16 16) (r r' : Int → UInt8) (m2 : Reg) :
    sseIntraSquare16 mode column row (e.aboveStorage r) (e.leftStorage r') m2 = intraSquare (Nat.le_refl 16) 4 mode column row e :=
  match mode with
  | 0 => congrArg some (sseDcPredict16_eq column row e r r' m2)
  | 1 => congrArg some (sseVertical_eq _ e r)
  | 2 => congrArg some (hPred16_eq e r')
  | 3 => congrArg some (tmPred16_eq e r r')
  | _ + 4 => rfl

/-- **C85, prediction within a picture.** On every picture, for every block and every mode, and whatever is in the bytes around the edges
that nobody wrote and in the registers, the vector predictors leave the same picture as the portable ones, or both fail. -/
theorem C85_intra (r r' : Int → UInt8) (m2 : Reg) (p : Plane) (mode column row : Nat) :
    sseIntraPredict16 r r' m2 p mode column row = intraPredict16 p mode column row ∧
    sseIntraPredict8 r r' p mode column row = intraPredict8 p mode column row ∧
    sseIntraPredict4 r r' p mode column row = intraPredict4 p mode column row := by
  refine ⟨?_, ?_, ?_⟩
  · unfold sseIntraPredict16 intraPredict16
    simp only [sseIntraSquare16_eq]
  · unfold sseIntraPredict8 intraPredict8
    simp only [sseIntraSquare8_eq]
  · unfold sseIntraPredict4 intraPredict4
    simp only [sseIntraSquare4_eq]

/-- The vector predictors do predict: a block at the left side of a picture, below a line of 7 and 200, has that mean. -/
example : ∃ p : Plane, (sseIntraPredict8 (fun _ => 99) (fun _ => 99) p 0 0 1).bind (fun q => q.at? 3 12) = some 104 := by
  refine ⟨⟨8, 16, (List.range 128).map fun i => if i % 2 = 0 then 7 else 200⟩, ?_⟩
  rw [(C85_intra _ _ (fun _ => 0) _ _ _ _).2.1]
  decide +kernel

end Alfalfa
