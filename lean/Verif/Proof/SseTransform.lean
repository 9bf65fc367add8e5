import Verif.Model.SseTransform
import Verif.Proof.Sse
import Verif.Proof.Transform
import Verif.Proof.Inter
import Mathlib.Data.BitVec

/-! The numbers in the registers of the transforms. -/

namespace Alfalfa

open Sse

theorem ofInt_toInt16 (z : Int) : BitVec.ofInt 16 (toInt16 z) = BitVec.ofInt 16 z := by
  apply BitVec.eq_of_toInt_eq
  rw [BitVec.toInt_ofInt, BitVec.toInt_ofInt]
  unfold toInt16
  norm_num

theorem toInt_ofInt_16 (z : Int) : (BitVec.ofInt 16 z).toInt = toInt16 z := by
  rw [BitVec.toInt_ofInt]
  rfl

theorem word_loadWords (c : Fin 16 → Int) (base i : Nat) : word (loadWords c base) i = BitVec.ofInt 16 (at16 c (base + i)) := by rw [loadWords, word_ofWords]

/-- The numbers of 16 bits that are shifted at the end of the inverse Walsh transform. -/
def iwhtSum (c : Fin 16 → Int) (column row : Fin 4) : Int :=
  let m := iwhtIntermediate c
  let offset := row.val * 4
  let a1 := at16 m (offset + 0) + at16 m (offset + 3)
  let b1 := at16 m (offset + 1) + at16 m (offset + 2)
  let c1 := at16 m (offset + 1) - at16 m (offset + 2)
  let d1 := at16 m (offset + 0) - at16 m (offset + 3)
  match column with
    | 0 => a1 + b1
    | 1 => c1 + d1
    | 2 => a1 - b1
    | 3 => d1 - c1

theorem iwht_of_sum (c : Fin 16 → Int) (column row : Fin 4) : iwht c column row = toInt16 ((iwhtSum c column row + 3) >>> 3) := by
  unfold iwht iwhtSum
  fin_cases column <;> rfl

theorem sseIwht_of_sum (c : Fin 16 → Int) (column row : Fin 4) : sseIwht c column row = toInt16 (iwhtSum c column row + 3) >>> 3 := by
  have e3 : (3 : BitVec 16) = BitVec.ofInt 16 3 := rfl
  have key : ∀ x y : BitVec 16, x = y → (x.sshiftRight 3).toInt = y.toInt >>> 3 := by
    intro x y h; rw [h, BitVec.toInt_sshiftRight]
  rw [← toInt_ofInt_16]
  fin_cases column <;> fin_cases row <;>
  · simp only [sseIwht, sseIwhtRegs, word_psraw]
    apply key
    simp [word_punpcklwd, word_punpckhwd, word_punpcklqdq, word_punpckhqdq, word_pshufd, word_loadWords, iwhtSum, iwhtIntermediate, iwhtColumn, BitVec.ofInt_add, ← ofInt_sub', ofInt_toInt16, at16]
    try ring

/-! ### The inverse cosine transform -/

theorem toInt16_range (z : Int) : -32768 ≤ toInt16 z ∧ toInt16 z ≤ 32767 := by
  unfold toInt16
  have h1 := Int.le_bmod (x := z) (m := 65536) (by norm_num)
  have h2 := Int.bmod_lt (x := z) (m := 65536) (by norm_num)
  omega

theorem word_sin {a : Reg} {i : Nat} {v : Int} (h : word a i = BitVec.ofInt 16 v) (hv : -32768 ≤ v ∧ v ≤ 32767) :
    word (paddw (pmulhw a sinConst) a) i = BitVec.ofInt 16 (mul35468 v) := by
  rw [word_paddw, word_pmulhw, h, toInt_ofInt16 hv, sinConst, word_ofWords, show ((0x8A8C : BitVec 16).toInt) = -30068 by decide, ← BitVec.ofInt_add]
  congr 1
  unfold mul35468
  rw [Int.shiftRight_eq_div_pow, Int.shiftRight_eq_div_pow]
  norm_num
  omega

theorem word_cos {a : Reg} {i : Nat} {v : Int} (h : word a i = BitVec.ofInt 16 v) (hv : -32768 ≤ v ∧ v ≤ 32767) :
    word (paddw (pmulhw a cosConst) a) i = BitVec.ofInt 16 (mul20091 v) := by
  rw [word_paddw, word_pmulhw, h, toInt_ofInt16 hv, cosConst, word_ofWords, show ((0x4E7B : BitVec 16).toInt) = 20091 by decide, ← BitVec.ofInt_add]
  rfl

theorem mmxPass_words {bias r0 r1 r2 r3 : Reg} {i : Nat} {b v0 v1 v2 v3 : Int} (hb : word bias i = BitVec.ofInt 16 b)
    (h0 : word r0 i = BitVec.ofInt 16 v0) (h1 : word r1 i = BitVec.ofInt 16 v1) (h2 : word r2 i = BitVec.ofInt 16 v2) (h3 : word r3 i = BitVec.ofInt 16 v3)
    (k1 : -32768 ≤ v1 ∧ v1 ≤ 32767) (k3 : -32768 ≤ v3 ∧ v3 ≤ 32767) :
    word (mmxPass bias r0 r1 r2 r3).1 i = BitVec.ofInt 16 (v0 + v2 + (mul20091 v1 + mul35468 v3) + b) ∧
    word (mmxPass bias r0 r1 r2 r3).2.2.1 i = BitVec.ofInt 16 (v0 - v2 + (mul35468 v1 - mul20091 v3) + b) ∧
    word (mmxPass bias r0 r1 r2 r3).2.1 i = BitVec.ofInt 16 (v0 - v2 - (mul35468 v1 - mul20091 v3) + b) ∧
    word (mmxPass bias r0 r1 r2 r3).2.2.2 i = BitVec.ofInt 16 (v0 + v2 - (mul20091 v1 + mul35468 v3) + b) := by
  have s1 := word_sin h1 k1
  have s3 := word_sin h3 k3
  have c1 := word_cos h1 k1
  have c3 := word_cos h3 k3
  rw [word_paddw] at s1 s3 c1 c3
  unfold mmxPass
  refine ⟨?_, ?_, ?_, ?_⟩ <;>
  · simp only [word_paddw, word_psubw, s1, s3, c1, c3]
    rw [h0, h2, hb]
    simp only [← BitVec.ofInt_add, ofInt_sub']
    congr 1; ring

/-- One of four registers. -/
def pick (r : Reg × Reg × Reg × Reg) : Fin 4 → Reg
  | 0 => r.1
  | 1 => r.2.1
  | 2 => r.2.2.1
  | 3 => r.2.2.2

theorem mmxTranspose_words (a b c d : Reg) (k i : Fin 4) : word (pick (mmxTranspose a b c d) k) i = word (pick (a, c, b, d) i) k := by
  fin_cases k <;> fin_cases i <;>
  simp [pick, mmxTranspose, word_punpcklwd, word_punpckhwdMm, word_punpckldq, word_punpckhdqMm]

/-- The numbers that are shifted at the end of the inverse cosine transform. -/
def idctSum (c : Fin 16 → Int) (column row : Fin 4) : Int :=
  let m := idctIntermediate c
  let i := row.val
  let t0 := at16 m (i + 0) + at16 m (i + 8)
  let t1 := at16 m (i + 0) - at16 m (i + 8)
  let t2 := mul35468 (at16 m (i + 4)) - mul20091 (at16 m (i + 12))
  let t3 := mul20091 (at16 m (i + 4)) + mul35468 (at16 m (i + 12))
  match column with
  | 0 => t0 + t3
  | 1 => t1 + t2
  | 2 => t1 - t2
  | 3 => t0 - t3

theorem idct_of_sum (c : Fin 16 → Int) (column row : Fin 4) : idct c column row = (idctSum c column row + 4) >>> 3 := by
  unfold idct idctSum
  fin_cases column <;> rfl

theorem idctMiddle (c : Fin 16 → Int) (i : Fin 4) (k : Nat) (hk : k < 4) : at16 (idctIntermediate c) (i.val + 4 * k) = idctColumn c k i := by
  rw [at16, dif_pos (by omega), idctIntermediate]
  congr 1 <;> simp <;> omega

theorem idctColumn_range (c : Fin 16 → Int) (i k : Nat) : -32768 ≤ idctColumn c i k ∧ idctColumn c i k ≤ 32767 := by
  unfold idctColumn
  exact toInt16_range _

theorem mmxIdct_words {c : Fin 16 → Int} (hc : ∀ i, -32768 ≤ c i ∧ c i ≤ 32767) (column row : Fin 4) :
    word (pick (mmxIdctRegs c) row) column = (BitVec.ofInt 16 (idctSum c column row + 4)).sshiftRight 3 := by
  have ha : ∀ i, -32768 ≤ at16 c i ∧ at16 c i ≤ 32767 := by
    intro i
    unfold at16
    split
    · exact hc _
    · omega
  have first : ∀ i k : Fin 4, word (pick ((mmxPass zero (loadWords c 0) (loadWords c 4) (loadWords c 8) (loadWords c 12)).1,
      (mmxPass zero (loadWords c 0) (loadWords c 4) (loadWords c 8) (loadWords c 12)).2.2.1, (mmxPass zero (loadWords c 0) (loadWords c 4) (loadWords c 8) (loadWords c 12)).2.1,
      (mmxPass zero (loadWords c 0) (loadWords c 4) (loadWords c 8) (loadWords c 12)).2.2.2) i) k = BitVec.ofInt 16 (idctColumn c k i) := by
    intro i k
    have h := mmxPass_words (bias := zero) (i := k) (b := 0) (by rw [word_zero]; rfl) (word_loadWords c 0 k) (word_loadWords c 4 k) (word_loadWords c 8 k) (word_loadWords c 12 k)
      (ha _) (ha _)
    simp only [Int.add_zero, Nat.zero_add, Nat.add_comm _ k.val] at h
    unfold idctColumn
    rw [ofInt_toInt16]
    fin_cases i
    · exact h.1
    · exact h.2.1
    · exact h.2.2.1
    · exact h.2.2.2
  unfold mmxIdctRegs
  rw [mmxTranspose_words]
  generalize mmxPass zero (loadWords c 0) (loadWords c 4) (loadWords c 8) (loadWords c 12) = p at *
  have second : ∀ k : Fin 4, word (pick (mmxTranspose p.1 p.2.1 p.2.2.1 p.2.2.2) k) row = BitVec.ofInt 16 (at16 (idctIntermediate c) (row.val + 4 * k.val)) := by
    intro k
    rw [mmxTranspose_words, first, idctMiddle _ _ _ k.isLt]
  generalize mmxTranspose p.1 p.2.1 p.2.2.1 p.2.2.2 = t at *
  have hr : ∀ k : Fin 4, -32768 ≤ at16 (idctIntermediate c) (row.val + 4 * k.val) ∧ at16 (idctIntermediate c) (row.val + 4 * k.val) ≤ 32767 := by
    intro k
    rw [idctMiddle _ _ _ k.isLt]
    exact idctColumn_range _ _ _
  have h := mmxPass_words (bias := fours) (i := row) (b := 4) (by rw [fours, word_ofWords]; rfl) (second 0) (second 1) (second 2) (second 3) (hr 1) (hr 3)
  simp only [pick] at h ⊢
  fin_cases column <;> simp only [word_psraw]
  · rw [h.1]; rfl
  · rw [h.2.1]; rfl
  · rw [h.2.2.1]; rfl
  · rw [h.2.2.2]; rfl

/-- Pixels and a number with a sign: `paddsw`, then `packuswb`. -/
theorem byte_mmxAddRow {r p : Reg} {j : Nat} (hj : j < 4) : (⟨mmxAddRow r p j⟩ : UInt8) = clamp255 ((p j).toNat + (word r j).toInt) := by
  have hp := (p j).isLt
  have hr1 := BitVec.le_toInt (word r j)
  have hr2 := BitVec.toInt_lt (x := word r j)
  norm_num at hr1 hr2
  unfold mmxAddRow packuswbMm
  simp only [if_pos hj, word_paddsw, word_punpckl1_zero, setWidth_ofInt]
  rw [show movd p j = p j by rw [movd, if_pos hj], toInt_ofInt16 (x := ((p j).toNat : Int)) (by omega)]
  rw [toInt_ofInt16 (by unfold saturate; norm_num)]
  rw [clamp255_eq]
  apply UInt8.toBitVec_inj.mp
  apply BitVec.eq_of_toNat_eq
  simp only [BitVec.toNat_ofInt, UInt8.toNat_toBitVec, UInt8.toNat_ofNat']
  unfold saturate saturateU
  norm_num
  omega

theorem sseIdctAdd_of_sum {c : Fin 16 → Int} (hc : ∀ i, -32768 ≤ c i ∧ c i ≤ 32767) (old : Square 4) (column row : Fin 4) :
    sseIdctAdd c old column row = clamp255 ((old column row).toNat + toInt16 (idctSum c column row + 4) >>> 3) := by
  have h := mmxIdct_words hc column row
  have e : sseIdctAdd c old column row = ⟨mmxAddRow (pick (mmxIdctRegs c) row) (squareRow old row) column⟩ := by
    unfold sseIdctAdd
    fin_cases row <;> rfl
  rw [e, byte_mmxAddRow column.isLt, h, BitVec.toInt_sshiftRight, toInt_ofInt_16]
  unfold squareRow
  rw [dif_pos column.isLt]
  rfl

/-! ### The forward cosine transform -/

theorem word_subtractRow (block prediction : Square 4) (row : Fin 4) (j : Nat) (hj : j < 4) :
    word (sseSubtractRow block prediction row) j = BitVec.ofInt 16 ((block ⟨j, hj⟩ row).toNat - (prediction ⟨j, hj⟩ row).toNat) := by
  unfold sseSubtractRow
  simp only [word_psubw, word_punpckl1_zero, setWidth_ofInt, ofInt_sub', movd, if_pos hj, squareRow, dif_pos hj]
  rfl

@[simp] theorem word_pairs (x y : Int) (i : Nat) : word (pairs x y) i = if i % 2 = 0 then BitVec.ofInt 16 x else BitVec.ofInt 16 y := by rw [pairs, word_ofWords]
@[simp] theorem dword_dwords (x : Int) (i : Nat) : dword (dwords x) i = BitVec.ofInt 32 x := by rw [dwords, dword_ofDwords]

theorem ofInt_shl2 (x : Int) : BitVec.ofInt 16 x <<< 2 = BitVec.ofInt 16 (x * 4) := by
  rw [BitVec.shiftLeft_eq_mul_twoPow, BitVec.ofInt_mul]
  rfl

theorem ofInt_shl3 (x : Int) : BitVec.ofInt 16 x <<< 3 = BitVec.ofInt 16 (x * 8) := by
  rw [BitVec.shiftLeft_eq_mul_twoPow, BitVec.ofInt_mul]
  rfl

theorem sseFdctSums_words {input : Fin 16 → Int} {r : Fin 4 → Reg} (h : ∀ i j : Fin 4, word (r i) j = BitVec.ofInt 16 (at16 input (4 * i.val + j.val))) (i : Fin 4) :
    word (sseFdctSums (r 0) (r 1) (r 2) (r 3)).1 (2 * i) = BitVec.ofInt 16 ((at16 input (4 * i + 0) + at16 input (4 * i + 3)) * 8) ∧
    word (sseFdctSums (r 0) (r 1) (r 2) (r 3)).1 (2 * i + 1) = BitVec.ofInt 16 ((at16 input (4 * i + 1) + at16 input (4 * i + 2)) * 8) ∧
    word (sseFdctSums (r 0) (r 1) (r 2) (r 3)).2 (2 * i) = BitVec.ofInt 16 ((at16 input (4 * i + 0) - at16 input (4 * i + 3)) * 8) ∧
    word (sseFdctSums (r 0) (r 1) (r 2) (r 3)).2 (2 * i + 1) = BitVec.ofInt 16 ((at16 input (4 * i + 1) - at16 input (4 * i + 2)) * 8) := by
  have h0 := fun j : Fin 4 => h 0 j
  have h1 := fun j : Fin 4 => h 1 j
  have h2 := fun j : Fin 4 => h 2 j
  have h3 := fun j : Fin 4 => h 3 j
  simp only [Fin.forall_fin_succ, Fin.forall_fin_zero] at h0 h1 h2 h3
  simp at h0 h1 h2 h3
  refine ⟨?_, ?_, ?_, ?_⟩ <;> fin_cases i <;>
  · simp [sseFdctSums, word_punpcklqdq, word_punpckldq, word_punpckhdq, word_pshufhw, word_movq, h0, h1, h2, h3, ← BitVec.ofInt_add, ofInt_sub', ofInt_shl3]

/-- `pmaddwd`, `paddd` and `psrad`, when nothing overflows. -/
theorem dword_madd {a : Reg} {i : Nat} {p q : Int} (hp : word a (2 * i) = BitVec.ofInt 16 p) (hq : word a (2 * i + 1) = BitVec.ofInt 16 q)
    (kp : -32768 ≤ p ∧ p ≤ 32767) (kq : -32768 ≤ q ∧ q ≤ 32767) {c d : Int} (kc : -32768 ≤ c ∧ c ≤ 32767) (kd : -32768 ≤ d ∧ d ≤ 32767) :
    dword (pmaddwd a (pairs c d)) i = BitVec.ofInt 32 (p * c + q * d) := by
  rw [dword_pmaddwd, hp, hq, toInt_ofInt16 kp, toInt_ofInt16 kq, word_pairs, word_pairs, if_pos (by omega), if_neg (by omega), toInt_ofInt16 kc, toInt_ofInt16 kd]

theorem dword_round {a : Reg} {i : Nat} {x : Int} (h : dword a i = BitVec.ofInt 32 x) (b : Int) (s : Nat) (k : -2147483648 ≤ x + b ∧ x + b ≤ 2147483647) :
    (dword (psrad (paddd a (dwords b)) s) i).toInt = (x + b) >>> s := by
  rw [dword_psrad, dword_paddd, h, dword_dwords, ← BitVec.ofInt_add, BitVec.toInt_sshiftRight, toInt_ofInt32 k]

theorem sseFdctFirst_words {xmm0 xmm3 : Reg} {a1 b1 c1 d1 : Fin 4 → Int}
    (ha : ∀ i : Fin 4, word xmm0 (2 * i) = BitVec.ofInt 16 (a1 i)) (hb : ∀ i : Fin 4, word xmm0 (2 * i + 1) = BitVec.ofInt 16 (b1 i))
    (hd : ∀ i : Fin 4, word xmm3 (2 * i) = BitVec.ofInt 16 (d1 i)) (hc : ∀ i : Fin 4, word xmm3 (2 * i + 1) = BitVec.ofInt 16 (c1 i))
    (ka : ∀ i, |a1 i| ≤ 4080) (kb : ∀ i, |b1 i| ≤ 4080) (kc : ∀ i, |c1 i| ≤ 4080) (kd : ∀ i, |d1 i| ≤ 4080) (i k : Fin 4) :
    word (if i.val < 2 then (sseFdctFirst xmm0 xmm3).1 else (sseFdctFirst xmm0 xmm3).2) (4 * (i.val % 2) + k) = BitVec.ofInt 16 (match k with
      | 0 => a1 i + b1 i
      | 1 => (c1 i * 2217 + d1 i * 5352 + 14500) >>> 12
      | 2 => a1 i - b1 i
      | 3 => (d1 i * 2217 - c1 i * 5352 + 7500) >>> 12) := by
  have la := abs_le.mp (ka i)
  have lb := abs_le.mp (kb i)
  have lc := abs_le.mp (kc i)
  have ld := abs_le.mp (kd i)
  have m0 : (dword (pmaddwd xmm0 (pairs 1 1)) i).toInt = a1 i + b1 i := by
    rw [dword_madd (ha i) (hb i) (by omega) (by omega) (by norm_num) (by norm_num), toInt_ofInt32 (by omega)]; ring
  have m1 : (dword (pmaddwd xmm0 (pairs 1 (-1))) i).toInt = a1 i - b1 i := by
    rw [dword_madd (ha i) (hb i) (by omega) (by omega) (by norm_num) (by norm_num), toInt_ofInt32 (by omega)]; ring
  have m3 : (dword (psrad (paddd (pmaddwd xmm3 (pairs 5352 2217)) (dwords 14500)) 12) i).toInt = (c1 i * 2217 + d1 i * 5352 + 14500) >>> 12 := by
    rw [dword_round (dword_madd (hd i) (hc i) (by omega) (by omega) (by norm_num) (by norm_num)) _ _ (by omega)]
    congr 1; ring
  have m4 : (dword (psrad (paddd (pmaddwd xmm3 (pairs 2217 (-5352))) (dwords 7500)) 12) i).toInt = (d1 i * 2217 - c1 i * 5352 + 7500) >>> 12 := by
    rw [dword_round (dword_madd (hd i) (hc i) (by omega) (by omega) (by norm_num) (by norm_num)) _ _ (by omega)]
    congr 1; ring
  have s0 : saturate 16 (a1 i + b1 i) = a1 i + b1 i := saturate_of_fits (by omega)
  have s1 : saturate 16 (a1 i - b1 i) = a1 i - b1 i := saturate_of_fits (by omega)
  have s3 : saturate 16 ((c1 i * 2217 + d1 i * 5352 + 14500) >>> 12) = (c1 i * 2217 + d1 i * 5352 + 14500) >>> 12 :=
    saturate_of_fits (by rw [Int.shiftRight_eq_div_pow]; norm_num; omega)
  have s4 : saturate 16 ((d1 i * 2217 - c1 i * 5352 + 7500) >>> 12) = (d1 i * 2217 - c1 i * 5352 + 7500) >>> 12 :=
    saturate_of_fits (by rw [Int.shiftRight_eq_div_pow]; norm_num; omega)
  fin_cases i <;> fin_cases k <;>
  · simp only [Fin.zero_eta, Fin.mk_one, Fin.reduceFinMk, Fin.val_zero, Fin.val_one, Fin.val_two, Fin.isValue, show ((3 : Fin 4).val) = 3 from rfl] at m0 m1 m3 m4 s0 s1 s3 s4 ⊢
    simp [sseFdctFirst, word_punpcklqdq, word_punpckhqdq, word_punpcklwd, word_punpckhwd, -dword_pmaddwd, -dword_psrad, m0, m1, m3, m4, s0, s1, s3, s4]

theorem sseFdctColumns_words {xmm0 xmm2 : Reg} {m : Fin 4 → Fin 4 → Int}
    (h : ∀ i k : Fin 4, word (if i.val < 2 then xmm0 else xmm2) (4 * (i.val % 2) + k) = BitVec.ofInt 16 (m i k)) (i : Fin 4) :
    word (sseFdctColumns xmm0 xmm2).1 (2 * i) = BitVec.ofInt 16 (m 0 i + m 3 i) ∧
    word (sseFdctColumns xmm0 xmm2).1 (2 * i + 1) = BitVec.ofInt 16 (m 1 i + m 2 i) ∧
    word (sseFdctColumns xmm0 xmm2).2.1 (2 * i) = BitVec.ofInt 16 (m 0 i - m 3 i) ∧
    word (sseFdctColumns xmm0 xmm2).2.1 (2 * i + 1) = BitVec.ofInt 16 (m 1 i - m 2 i) ∧
    word (sseFdctColumns xmm0 xmm2).2.2 i = BitVec.ofInt 16 (m 0 i - m 3 i) := by
  have h0 := fun j : Fin 4 => h 0 j
  have h1 := fun j : Fin 4 => h 1 j
  have h2 := fun j : Fin 4 => h 2 j
  have h3 := fun j : Fin 4 => h 3 j
  simp only [Fin.forall_fin_succ, Fin.forall_fin_zero] at h0 h1 h2 h3
  simp at h0 h1 h2 h3
  refine ⟨?_, ?_, ?_, ?_, ?_⟩ <;> fin_cases i <;>
  · simp [sseFdctColumns, word_pshufd, word_pshuflw, word_pshufhw, h0, h1, h2, h3, ← BitVec.ofInt_add, ofInt_sub']

theorem sseFdctSecond_words {xmm0 xmm3 xmm2 : Reg} {a1 b1 c1 d1 : Fin 4 → Int}
    (ha : ∀ i : Fin 4, word xmm0 (2 * i) = BitVec.ofInt 16 (a1 i)) (hb : ∀ i : Fin 4, word xmm0 (2 * i + 1) = BitVec.ofInt 16 (b1 i))
    (hd : ∀ i : Fin 4, word xmm3 (2 * i) = BitVec.ofInt 16 (d1 i)) (hc : ∀ i : Fin 4, word xmm3 (2 * i + 1) = BitVec.ofInt 16 (c1 i))
    (h2 : ∀ i : Fin 4, word xmm2 i = BitVec.ofInt 16 (d1 i))
    (ka : ∀ i, |a1 i| ≤ 16384) (kb : ∀ i, |b1 i| ≤ 16384) (kc : ∀ i, |c1 i| ≤ 16384) (kd : ∀ i, |d1 i| ≤ 16384) (i k : Fin 4) :
    word (if k.val < 2 then (sseFdctSecond xmm0 xmm3 xmm2).1 else (sseFdctSecond xmm0 xmm3 xmm2).2) (4 * (k.val % 2) + i) = BitVec.ofInt 16 (match k with
      | 0 => (a1 i + b1 i + 7) >>> 4
      | 1 => ((c1 i * 2217 + d1 i * 5352 + 12000) >>> 16) + (if d1 i ≠ 0 then 1 else 0)
      | 2 => (a1 i - b1 i + 7) >>> 4
      | 3 => (d1 i * 2217 - c1 i * 5352 + 51000) >>> 16) := by
  have la := abs_le.mp (ka i)
  have lb := abs_le.mp (kb i)
  have lc := abs_le.mp (kc i)
  have ld := abs_le.mp (kd i)
  have m0 : (dword (psrad (paddd (pmaddwd xmm0 (pairs 1 1)) (dwords 7)) 4) i).toInt = (a1 i + b1 i + 7) >>> 4 := by
    rw [dword_round (dword_madd (ha i) (hb i) (by omega) (by omega) (by norm_num) (by norm_num)) _ _ (by omega)]
    congr 1; ring
  have m1 : (dword (psrad (paddd (pmaddwd xmm0 (pairs 1 (-1))) (dwords 7)) 4) i).toInt = (a1 i - b1 i + 7) >>> 4 := by
    rw [dword_round (dword_madd (ha i) (hb i) (by omega) (by omega) (by norm_num) (by norm_num)) _ _ (by omega)]
    congr 1; ring
  have m3 : (dword (psrad (paddd (pmaddwd xmm3 (pairs 5352 2217)) (dwords 12000)) 16) i).toInt = (c1 i * 2217 + d1 i * 5352 + 12000) >>> 16 := by
    rw [dword_round (dword_madd (hd i) (hc i) (by omega) (by omega) (by norm_num) (by norm_num)) _ _ (by omega)]
    congr 1; ring
  have m4 : (dword (psrad (paddd (pmaddwd xmm3 (pairs 2217 (-5352))) (dwords 51000)) 16) i).toInt = (d1 i * 2217 - c1 i * 5352 + 51000) >>> 16 := by
    rw [dword_round (dword_madd (hd i) (hc i) (by omega) (by omega) (by norm_num) (by norm_num)) _ _ (by omega)]
    congr 1; ring
  have s0 : saturate 16 ((a1 i + b1 i + 7) >>> 4) = (a1 i + b1 i + 7) >>> 4 := saturate_of_fits (by rw [Int.shiftRight_eq_div_pow]; norm_num; omega)
  have s1 : saturate 16 ((a1 i - b1 i + 7) >>> 4) = (a1 i - b1 i + 7) >>> 4 := saturate_of_fits (by rw [Int.shiftRight_eq_div_pow]; norm_num; omega)
  have s3 : saturate 16 ((c1 i * 2217 + d1 i * 5352 + 12000) >>> 16) = (c1 i * 2217 + d1 i * 5352 + 12000) >>> 16 :=
    saturate_of_fits (by rw [Int.shiftRight_eq_div_pow]; norm_num; omega)
  have s4 : saturate 16 ((d1 i * 2217 - c1 i * 5352 + 51000) >>> 16) = (d1 i * 2217 - c1 i * 5352 + 51000) >>> 16 :=
    saturate_of_fits (by rw [Int.shiftRight_eq_div_pow]; norm_num; omega)
  have z : ∀ j : Nat, word (pandn (pcmpeqw xmm2 zero) cmpMask) j = if j < 4 then (if word xmm2 j = 0#16 then 0#16 else 1#16) else 0#16 := by
    intro j
    rw [word_pandn, word_pcmpeqw, cmpMask, word_ofWords, word_zero]
    by_cases h : j < 4
    · rw [if_pos h, if_pos h]
      split <;> rfl
    · rw [if_neg h, if_neg h]
      simp
  have z1 : (if word xmm2 i = 0#16 then 0#16 else 1#16) = BitVec.ofInt 16 (if d1 i ≠ 0 then 1 else 0) := by
    rw [h2 i]
    by_cases h : d1 i = 0
    · rw [h, if_pos (by rfl), if_neg (by simp)]; rfl
    · rw [if_neg, if_pos h]
      · rfl
      · intro h'
        have := congrArg BitVec.toInt h'
        rw [toInt_ofInt16 (by omega)] at this
        exact h (by simpa using this)
  fin_cases k
  · fin_cases i <;>
    · simp only [Fin.zero_eta, Fin.mk_one, Fin.reduceFinMk, Fin.val_zero, Fin.val_one, Fin.val_two, Fin.isValue, show ((3 : Fin 4).val) = 3 from rfl] at m0 s0 ⊢
      simp [sseFdctSecond, word_punpcklqdq, word_punpckhqdq, -dword_pmaddwd, -dword_psrad, m0, s0]
  · rw [BitVec.ofInt_add, ← z1]
    fin_cases i <;>
    · simp only [Fin.zero_eta, Fin.mk_one, Fin.reduceFinMk, Fin.val_zero, Fin.val_one, Fin.val_two, Fin.isValue, show ((3 : Fin 4).val) = 3 from rfl] at m3 s3 ⊢
      simp [sseFdctSecond, word_punpcklqdq, word_punpckhqdq, -dword_pmaddwd, -dword_psrad, m3, s3, z]
  · fin_cases i <;>
    · simp only [Fin.zero_eta, Fin.mk_one, Fin.reduceFinMk, Fin.val_zero, Fin.val_one, Fin.val_two, Fin.isValue, show ((3 : Fin 4).val) = 3 from rfl] at m1 s1 ⊢
      simp [sseFdctSecond, word_punpcklqdq, word_punpckhqdq, -dword_pmaddwd, -dword_psrad, m1, s1]
  · fin_cases i <;>
    · simp only [Fin.zero_eta, Fin.mk_one, Fin.reduceFinMk, Fin.val_zero, Fin.val_one, Fin.val_two, Fin.isValue, show ((3 : Fin 4).val) = 3 from rfl] at m4 s4 ⊢
      simp [sseFdctSecond, word_punpcklqdq, word_punpckhqdq, -dword_pmaddwd, -dword_psrad, m4, s4, z]

/-! ### The forward Walsh transform -/

/-- The first pass, when `a1` is a number of 16 bits: the words of a row. -/
theorem sseWhtFirst_words {input : Fin 16 → Int} (ha : ∀ i : Fin 4, |(at16 input (4 * i + 0) + at16 input (4 * i + 2)) * 4| ≤ 32767) (i : Fin 4) :
    word (sseWhtFirst input).1 i = BitVec.ofInt 16 (whtRow input i 0) ∧ word (sseWhtFirst input).1 (4 + i) = BitVec.ofInt 16 (whtRow input i 1) ∧
    word (sseWhtFirst input).2 i = BitVec.ofInt 16 (whtRow input i 3) ∧ word (sseWhtFirst input).2 (4 + i) = BitVec.ofInt 16 (whtRow input i 2) := by
  have hz : (if 0#16 = BitVec.ofInt 16 ((at16 input (4 * i + 0) + at16 input (4 * i + 2)) * 4) then (-1 : BitVec 16) else 0) + BitVec.ofInt 16 1 =
      BitVec.ofInt 16 (if (at16 input (4 * i + 0) + at16 input (4 * i + 2)) * 4 ≠ 0 then 1 else 0) := by
    have h := abs_le.mp (ha i)
    generalize (at16 input (4 * i + 0) + at16 input (4 * i + 2)) * 4 = a at *
    by_cases h0 : a = 0
    · rw [h0, if_pos (by rfl), if_neg (by simp)]; rfl
    · rw [if_neg, if_pos h0]
      · rfl
      · intro h'
        have := congrArg BitVec.toInt h'
        rw [toInt_ofInt16 (by omega)] at this
        exact h0 (by simpa using this.symm)
  refine ⟨?_, ?_, ?_, ?_⟩
  · unfold whtRow
    rw [ofInt_toInt16]
    simp only
    rw [BitVec.ofInt_add, ← hz]
    fin_cases i <;>
    · simp [sseWhtFirst, word_punpcklwd, word_punpckldq, word_punpckhdq, word_punpcklqdq, word_punpckhqdq, word_movq, word_loadWords, ← BitVec.ofInt_add, ofInt_shl2]
  all_goals
    unfold whtRow
    rw [ofInt_toInt16]
    fin_cases i <;>
    · simp [sseWhtFirst, word_punpcklwd, word_punpckldq, word_punpckhdq, word_punpcklqdq, word_punpckhqdq, word_movq, word_loadWords, ← BitVec.ofInt_add, ofInt_sub', ofInt_shl2]

theorem sseWhtSums_dwords {x0 x2 : Reg} {m : Fin 4 → Fin 4 → Int} (h0 : ∀ i : Fin 4, (word x0 i).toInt = m i 0) (h1 : ∀ i : Fin 4, (word x0 (4 + i)).toInt = m i 1)
    (h3 : ∀ i : Fin 4, (word x2 i).toInt = m i 3) (h2 : ∀ i : Fin 4, (word x2 (4 + i)).toInt = m i 2) (j : Fin 4) :
    dword (if j.val < 2 then (sseWhtSums x0 x2).1 else (sseWhtSums x0 x2).2.1) (j.val % 2) = BitVec.ofInt 32 (m 0 j + m 2 j + (m 1 j + m 3 j)) ∧
    dword (if j.val < 2 then (sseWhtSums x0 x2).1 else (sseWhtSums x0 x2).2.1) (2 + j.val % 2) = BitVec.ofInt 32 (m 0 j - m 2 j + (m 1 j - m 3 j)) ∧
    dword (if j.val < 2 then (sseWhtSums x0 x2).2.2.1 else (sseWhtSums x0 x2).2.2.2) (j.val % 2) = BitVec.ofInt 32 (m 0 j + m 2 j - (m 1 j + m 3 j)) ∧
    dword (if j.val < 2 then (sseWhtSums x0 x2).2.2.1 else (sseWhtSums x0 x2).2.2.2) (2 + j.val % 2) = BitVec.ofInt 32 (m 0 j - m 2 j - (m 1 j - m 3 j)) := by
  simp only [Fin.forall_fin_succ, Fin.forall_fin_zero] at h0 h1 h2 h3
  simp at h0 h1 h2 h3
  have t1 : (BitVec.ofInt 16 1).toInt = 1 := by decide
  have t2 : (BitVec.ofInt 16 (-1)).toInt = -1 := by decide
  refine ⟨?_, ?_, ?_, ?_⟩ <;> fin_cases j <;>
  · simp [sseWhtSums, word_pshuflw, word_pshufhw, dword_pshufd, dword_punpcklqdq, dword_punpckhqdq, -BitVec.toInt_ofInt, t1, t2, h0, h1, h2, h3, ← BitVec.ofInt_add, ofInt_sub',
      ← sub_eq_add_neg]

theorem dword_sseWhtRound {r : Reg} {i : Nat} {x : Int} (h : dword r i = BitVec.ofInt 32 x) (hx : |x| ≤ 200000) : (dword (sseWhtRound r) i).toInt = whtRound x := by
  have k := abs_le.mp hx
  have e : dword (pand (pcmpgtd zero r) (dwords 1)) i = BitVec.ofInt 32 (if x < 0 then 1 else 0) := by
    rw [dword_pand, dword_pcmpgtd, dword_zero, h, toInt_ofInt32 (by omega), dword_dwords]
    by_cases hn : x < 0
    · rw [if_pos (by simpa using hn), if_pos hn]; decide
    · rw [if_neg (by simpa using hn), if_neg hn]; decide
  unfold sseWhtRound
  simp only [dword_psrad, dword_paddd, h, e, dword_dwords, ← BitVec.ofInt_add]
  rw [BitVec.toInt_sshiftRight, toInt_ofInt32 (by split <;> omega)]
  rfl

theorem sseWhtPack_words {x0 x1 x2 x3 : Reg} {f : Fin 4 → Fin 4 → Int}
    (h0 : ∀ j : Fin 4, (dword (if j.val < 2 then x0 else x1) (j.val % 2)).toInt = f 0 j) (h1 : ∀ j : Fin 4, (dword (if j.val < 2 then x0 else x1) (2 + j.val % 2)).toInt = f 1 j)
    (h3 : ∀ j : Fin 4, (dword (if j.val < 2 then x2 else x3) (j.val % 2)).toInt = f 3 j) (h2 : ∀ j : Fin 4, (dword (if j.val < 2 then x2 else x3) (2 + j.val % 2)).toInt = f 2 j)
    (k j : Fin 4) :
    word (if k.val < 2 then (sseWhtPack x0 x1 x2 x3).1 else (sseWhtPack x0 x1 x2 x3).2) (4 * (k.val % 2) + j) = BitVec.ofInt 16 (saturate 16 (f k j)) := by
  simp only [Fin.forall_fin_succ, Fin.forall_fin_zero] at h0 h1 h2 h3
  simp at h0 h1 h2 h3
  fin_cases k <;> fin_cases j <;>
  · simp [sseWhtPack, dword_punpcklqdq, dword_punpckhqdq, h0, h1, h2, h3]

end Alfalfa
