import Verif.Model.Transform
import Verif.Spec.Transform
import Verif.Proof.Intra

/-! Lemmas about the transforms. -/

namespace Alfalfa

open TransformSpec

theorem toInt16_of_fits {z : Int} (h : -32768 ≤ z ∧ z ≤ 32767) : toInt16 z = z := by
  unfold toInt16; exact Int.bmod_eq_of_le (by omega) (by omega)

theorem shr3 (z : Int) : z >>> 3 = z / 8 := by rw [Int.shiftRight_eq_div_pow]; norm_num
theorem shr4 (z : Int) : z >>> 4 = z / 16 := by rw [Int.shiftRight_eq_div_pow]; norm_num
theorem shr12 (z : Int) : z >>> 12 = z / 4096 := by rw [Int.shiftRight_eq_div_pow]; norm_num
theorem shr16 (z : Int) : z >>> 16 = z / 65536 := by rw [Int.shiftRight_eq_div_pow]; norm_num

theorem mul35468_eq (a : Int) : mul35468 a = sine a := by unfold mul35468 sine; rw [shr16]
theorem mul20091_eq (a : Int) : mul20091 a = cosine a := by unfold mul20091 cosine; rw [shr16, Int.add_comm]

theorem at16_lt (c : Fin 16 → Int) {i : Nat} (h : i < 16) : at16 c i = c ⟨i, h⟩ := dif_pos h

theorem idctColumn_eq {c : Fin 16 → Int} (h : Fits line c) (column row : Fin 4) :
    idctColumn c column row = columns line c column row := by
  refine Eq.trans ?_ (toInt16_of_fits (h column row))
  unfold idctColumn
  fin_cases column <;> fin_cases row <;>
    simp [at16, columns, line, entry, mul35468_eq, mul20091_eq]

theorem idctIntermediate_eq {c : Fin 16 → Int} (h : Fits line c) (column row : Fin 4) :
    at16 (idctIntermediate c) (4 * column + row) = columns line c column row := by
  rw [at16_lt _ (by omega), ← idctColumn_eq h]
  unfold idctIntermediate
  exact congrArg₂ _ (by dsimp only; omega) (by dsimp only; omega)

theorem idct_eq {c : Fin 16 → Int} (h : Fits line c) (column row : Fin 4) : idct c column row = residue c column row := by
  have e := idctIntermediate_eq h
  have e0 := e 0 row
  have e1 := e 1 row
  have e2 := e 2 row
  have e3 := e 3 row
  simp at e0 e1 e2 e3
  unfold idct
  have : ∀ k, row.val + k = k + row.val := fun k => Nat.add_comm _ _
  simp only [this, e0, e1, e2, e3, Nat.zero_add, mul35468_eq, mul20091_eq, shr3]
  unfold residue both
  fin_cases column <;> rfl

theorem iwhtColumn_eq {c : Fin 16 → Int} (h : Fits walshLine c) (column row : Fin 4) :
    iwhtColumn c column row = columns walshLine c column row := by
  refine Eq.trans ?_ (toInt16_of_fits (h column row))
  unfold iwhtColumn
  refine congrArg toInt16 ?_
  fin_cases column <;> fin_cases row <;> simp [at16, columns, walshLine, entry] <;> omega

theorem iwhtIntermediate_eq {c : Fin 16 → Int} (h : Fits walshLine c) (column row : Fin 4) :
    at16 (iwhtIntermediate c) (row * 4 + column) = columns walshLine c column row := by
  rw [at16_lt _ (by omega), ← iwhtColumn_eq h]
  unfold iwhtIntermediate
  exact congrArg₂ _ (by dsimp only; omega) (by dsimp only; omega)

theorem iwht_eq {c : Fin 16 → Int} (h : Fits walshLine c) (column row : Fin 4) : iwht c column row = walsh c column row := by
  have e := fun k => iwhtIntermediate_eq h k row
  have hb := fun k => h k row
  have e0 := e 0
  have e1 := e 1
  have e2 := e 2
  have e3 := e 3
  have h0 := hb 0
  have h1 := hb 1
  have h2 := hb 2
  have h3 := hb 3
  simp at e0 e1 e2 e3
  unfold iwht
  simp only [e0, e1, e2, e3, Nat.add_zero, shr3]
  unfold walsh both
  fin_cases column <;> simp only [walshLine] <;> rw [toInt16_of_fits (by omega)] <;> congr 1 <;> omega

end Alfalfa
