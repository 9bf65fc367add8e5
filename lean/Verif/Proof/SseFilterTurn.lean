import Verif.Model.SseFilter
import Mathlib.Data.Fintype.Basic
import Mathlib.Tactic.FinCases
import Mathlib.Tactic.IntervalCases

/-! The transpositions in the loop filter: each byte comes from the register and the place that are exchanged. -/

namespace Alfalfa.Sse

theorem transpose16x8_at (s : Fin 16 → Reg) (i : Fin 8) (j : Fin 16) : transpose16x8 s i j = s j i := by
  fin_cases i <;> fin_cases j <;> rfl

theorem mbvLines_at (v : Fin 8 → Reg) (n : Fin 16) (i : Fin 8) : mbvLines v n i = v i n := by
  fin_cases n <;> fin_cases i <;> rfl

theorem gather8_at (s : Fin 8 → Reg) (k : Fin 8) (j : Fin 16) : gather8 s k j = s ⟨j % 8, Nat.mod_lt _ (by decide)⟩ (2 * k + j / 8) := by
  fin_cases k <;> fin_cases j <;> rfl

theorem transpose16_at (s : Fin 16 → Reg) (n j : Fin 16) : transpose16 s n j = s j n := by
  have hl : ∀ a b : Reg, punpckl 8 a b j.val = if j.val < 8 then a j.val else b (j.val - 8) := by
    intro a b; fin_cases j <;> rfl
  have hh : ∀ a b : Reg, punpckh 8 8 a b j.val = if j.val < 8 then a (8 + j.val) else b j.val := by
    intro a b; fin_cases j <;> rfl
  have pick : ∀ (a b : Fin 16) (x y : Nat), a.val = b.val → x = y → s a x = s b y := fun a b x y h h' => by rw [Fin.ext h, h']
  unfold transpose16
  have hj := j.isLt
  split
  · next hn =>
    rw [hl]
    split
    · next h8 =>
      have := gather8_at (fun k : Fin 8 => s ⟨k.val, by omega⟩) ⟨n.val / 2, by omega⟩ j
      rw [this]
      exact pick _ _ _ _ (by show j.val % 8 = j.val; omega) (by dsimp only; omega)
    · next h8 =>
      have := gather8_at (fun k : Fin 8 => s ⟨8 + k.val, by omega⟩) ⟨n.val / 2, by omega⟩ ⟨j.val - 8, by omega⟩
      rw [this]
      exact pick _ _ _ _ (by show 8 + (j.val - 8) % 8 = j.val; omega) (by dsimp only; omega)
  · next hn =>
    rw [hh]
    split
    · next h8 =>
      have := gather8_at (fun k : Fin 8 => s ⟨k.val, by omega⟩) ⟨n.val / 2, by omega⟩ ⟨8 + j.val, by omega⟩
      rw [this]
      exact pick _ _ _ _ (by show (8 + j.val) % 8 = j.val; omega) (by dsimp only; omega)
    · next h8 =>
      have := gather8_at (fun k : Fin 8 => s ⟨8 + k.val, by omega⟩) ⟨n.val / 2, by omega⟩ j
      rw [this]
      exact pick _ _ _ _ (by show 8 + j.val % 8 = j.val; omega) (by dsimp only; omega)

/-- The four bytes of line `n` of the first eight lines, and of the last. -/
theorem bvLines_low (o : Fin 4 → Reg) (n : Fin 8) (i : Fin 4) :
    bvLines (bvTranspose (o 0) (o 1) (o 2) (o 3) 0) (bvTranspose (o 0) (o 1) (o 2) (o 3) 1) n i = o i n := by
  fin_cases n <;> fin_cases i <;> rfl

theorem bvLines_high (o : Fin 4 → Reg) (n : Fin 8) (i : Fin 4) :
    bvLines (bvTranspose (o 0) (o 1) (o 2) (o 3) 2) (bvTranspose (o 0) (o 1) (o 2) (o 3) 3) n i = o i (8 + n) := by
  fin_cases n <;> fin_cases i <;> rfl

end Alfalfa.Sse
