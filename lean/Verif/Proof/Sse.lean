import Verif.Model.Sse
import Mathlib.Tactic.Ring
import Mathlib.Tactic.IntervalCases

/-! The numbers in a register after each instruction. -/

namespace Alfalfa.Sse

@[simp] theorem word_ofWords (w : Nat → BitVec 16) (i : Nat) : word (ofWords w) i = w i := by
  unfold word ofWords
  rw [show (2 * i + 1) / 2 = i by omega, show (2 * i + 1) % 2 = 1 by omega, show 2 * i / 2 = i by omega, show 2 * i % 2 = 0 by omega]
  generalize w i = x
  ext k hk
  simp only [BitVec.getElem_append, BitVec.getElem_extractLsb']
  split
  · next h => simp [BitVec.getLsbD_eq_getElem hk]
  · next h => rw [show 8 * 1 + (k - 8) = k by omega, BitVec.getLsbD_eq_getElem hk]

@[simp] theorem dword_ofDwords (d : Nat → BitVec 32) (i : Nat) : dword (ofDwords d) i = d i := by
  unfold dword ofDwords
  rw [word_ofWords, word_ofWords]
  rw [show (2 * i + 1) / 2 = i by omega, show (2 * i + 1) % 2 = 1 by omega, show 2 * i / 2 = i by omega, show 2 * i % 2 = 0 by omega]
  generalize d i = x
  ext k hk
  simp only [BitVec.getElem_append, BitVec.getElem_extractLsb']
  split
  · next h => simp [BitVec.getLsbD_eq_getElem hk]
  · next h => rw [show 16 * 1 + (k - 16) = k by omega, BitVec.getLsbD_eq_getElem hk]

/-! Each register is that of its words, in both directions. -/

theorem ofWords_byte (w : Nat → BitVec 16) (j : Nat) : ofWords w j = (w (j / 2)).extractLsb' (8 * (j % 2)) 8 := rfl

/-! ### Instructions on words -/

@[simp] theorem word_paddw (a b : Reg) (i : Nat) : word (paddw a b) i = word a i + word b i := by rw [paddw, word_ofWords]
@[simp] theorem word_psubw (a b : Reg) (i : Nat) : word (psubw a b) i = word a i - word b i := by rw [psubw, word_ofWords]
@[simp] theorem word_paddsw (a b : Reg) (i : Nat) : word (paddsw a b) i = BitVec.ofInt 16 (saturate 16 ((word a i).toInt + (word b i).toInt)) := by
  rw [paddsw, word_ofWords]
@[simp] theorem word_pmullw (a b : Reg) (i : Nat) : word (pmullw a b) i = word a i * word b i := by rw [pmullw, word_ofWords]
@[simp] theorem word_pmulhw (a b : Reg) (i : Nat) : word (pmulhw a b) i = BitVec.ofInt 16 (((word a i).toInt * (word b i).toInt) >>> 16) := by
  rw [pmulhw, word_ofWords]
@[simp] theorem word_pmaddubsw (a b : Reg) (i : Nat) : word (pmaddubsw a b) i =
    BitVec.ofInt 16 (saturate 16 ((a (2 * i)).toNat * (b (2 * i)).toInt + (a (2 * i + 1)).toNat * (b (2 * i + 1)).toInt)) := by
  rw [pmaddubsw, word_ofWords]
@[simp] theorem word_psllw (a : Reg) (n i : Nat) : word (psllw a n) i = word a i <<< n := by rw [psllw, word_ofWords]
@[simp] theorem word_psraw (a : Reg) (n i : Nat) : word (psraw a n) i = (word a i).sshiftRight n := by rw [psraw, word_ofWords]
@[simp] theorem word_psrlw (a : Reg) (n i : Nat) : word (psrlw a n) i = word a i >>> n := by rw [psrlw, word_ofWords]
@[simp] theorem word_pcmpeqw (a b : Reg) (i : Nat) : word (pcmpeqw a b) i = if word a i = word b i then -1 else 0 := by rw [pcmpeqw, word_ofWords]
@[simp] theorem word_packssdw (a b : Reg) (i : Nat) : word (packssdw a b) i =
    BitVec.ofInt 16 (saturate 16 (if i < 4 then dword a i else dword b (i - 4)).toInt) := by rw [packssdw, word_ofWords]
@[simp] theorem word_zero (i : Nat) : word zero i = 0#16 := by
  unfold word zero; decide

theorem word_pand (a b : Reg) (i : Nat) : word (pand a b) i = word a i &&& word b i := by
  unfold word pand; exact (BitVec.and_append ..).symm
theorem word_pandn (a b : Reg) (i : Nat) : word (pandn a b) i = ~~~ word a i &&& word b i := by
  unfold word pandn
  rw [BitVec.not_append, BitVec.and_append]
theorem dword_pand (a b : Reg) (i : Nat) : dword (pand a b) i = dword a i &&& dword b i := by
  unfold dword; rw [word_pand, word_pand]; exact (BitVec.and_append ..).symm

/-! ### Instructions on double words -/

@[simp] theorem dword_paddd (a b : Reg) (i : Nat) : dword (paddd a b) i = dword a i + dword b i := by rw [paddd, dword_ofDwords]
@[simp] theorem dword_psubd (a b : Reg) (i : Nat) : dword (psubd a b) i = dword a i - dword b i := by rw [psubd, dword_ofDwords]
@[simp] theorem dword_pmaddwd (a b : Reg) (i : Nat) : dword (pmaddwd a b) i =
    BitVec.ofInt 32 ((word a (2 * i)).toInt * (word b (2 * i)).toInt + (word a (2 * i + 1)).toInt * (word b (2 * i + 1)).toInt) := by
  rw [pmaddwd, dword_ofDwords]
@[simp] theorem dword_psrad (a : Reg) (n i : Nat) : dword (psrad a n) i = (dword a i).sshiftRight n := by rw [psrad, dword_ofDwords]
@[simp] theorem dword_pcmpgtd (a b : Reg) (i : Nat) : dword (pcmpgtd a b) i = if (dword b i).toInt < (dword a i).toInt then -1 else 0 := by
  rw [pcmpgtd, dword_ofDwords]
@[simp] theorem dword_zero (i : Nat) : dword zero i = 0#32 := by
  unfold dword; rw [word_zero, word_zero]; decide

/-! ### Moves of bytes -/

theorem zero_append8 (x : BitVec 8) : (0 : BitVec 8) ++ x = (x.setWidth 16 : BitVec (8 + 8)) := by
  apply BitVec.eq_of_toNat_eq
  have := x.isLt
  rw [BitVec.toNat_append]
  simp
  omega

theorem word_punpckl1 (a b : Reg) (i : Nat) : word (punpckl 1 a b) i = b i ++ a i := by
  unfold word punpckl
  simp only [Nat.div_one, Nat.mul_one, Nat.mod_one, Nat.add_zero]
  rw [if_neg (by omega), if_pos (by omega), show (2 * i + 1) / 2 = i by omega, show 2 * i / 2 = i by omega]

theorem word_punpckl1_zero (a : Reg) (i : Nat) : word (punpckl 1 a zero) i = (a i).setWidth 16 := by
  rw [word_punpckl1]
  exact zero_append8 _

theorem word_punpckh1 (h : Nat) (a b : Reg) (i : Nat) : word (punpckh h 1 a b) i = b (h + i) ++ a (h + i) := by
  unfold word punpckh
  simp only [Nat.div_one, Nat.mul_one, Nat.mod_one, Nat.add_zero]
  rw [if_neg (by omega), if_pos (by omega), show (2 * i + 1) / 2 = i by omega, show 2 * i / 2 = i by omega]

theorem word_punpckh1_zero (h : Nat) (a : Reg) (i : Nat) : word (punpckh h 1 a zero) i = (a (h + i)).setWidth 16 := by
  rw [word_punpckh1]
  exact zero_append8 _

/-! Moves of words: each word of the result is one of the operands; evaluated for concrete numbers. -/

theorem word_psrldq (a : Reg) (n i : Nat) (h : i + n < 8) : word (psrldq a (2 * n)) i = word a (i + n) := by
  unfold word psrldq
  rw [if_pos (by omega), if_pos (by omega)]
  congr 2 <;> ring

theorem dword_psrldq (a : Reg) (n i : Nat) (h : i + n < 4) : dword (psrldq a (4 * n)) i = dword a (i + n) := by
  unfold dword
  rw [show 4 * n = 2 * (2 * n) by ring, word_psrldq _ _ _ (by omega), word_psrldq _ _ _ (by omega)]
  congr 2 <;> ring

theorem word_punpckl (m : Nat) (a b : Reg) (i : Nat) (hm : 0 < m) :
    word (punpckl (2 * m) a b) i = if i / m % 2 = 0 then word a (i / (2 * m) * m + i % m) else word b (i / (2 * m) * m + i % m) := by
  have e1 : 2 * i / (2 * m) = i / m := Nat.mul_div_mul_left _ _ (by omega)
  have e2 : (2 * i + 1) / (2 * m) = i / m := by
    rw [← Nat.div_div_eq_div_mul]
    congr 1
    omega
  have e3 : 2 * i / (2 * (2 * m)) = i / (2 * m) := Nat.mul_div_mul_left _ _ (by omega)
  have e4 : (2 * i + 1) / (2 * (2 * m)) = i / (2 * m) := by
    rw [← Nat.div_div_eq_div_mul]
    congr 1
    omega
  have e5 : 2 * i % (2 * m) = 2 * (i % m) := Nat.mul_mod_mul_left _ _ _
  have e6 : (2 * i + 1) % (2 * m) = 2 * (i % m) + 1 := by
    rw [Nat.mod_mul, show (2 * i + 1) % 2 = 1 by omega, show (2 * i + 1) / 2 = i by omega]
    omega
  unfold word punpckl
  rw [e1, e2, e3, e4, e5, e6]
  have e7 : i / (2 * m) * (2 * m) + (2 * (i % m) + 1) = 2 * (i / (2 * m) * m + i % m) + 1 := by ring
  have e8 : i / (2 * m) * (2 * m) + 2 * (i % m) = 2 * (i / (2 * m) * m + i % m) := by ring
  rw [e7, e8]
  split <;> rfl

theorem word_punpckh (h m : Nat) (a b : Reg) (i : Nat) (hm : 0 < m) :
    word (punpckh (2 * h) (2 * m) a b) i = if i / m % 2 = 0 then word a (h + (i / (2 * m) * m + i % m)) else word b (h + (i / (2 * m) * m + i % m)) := by
  have := word_punpckl m (fun j => a (2 * h + j)) (fun j => b (2 * h + j)) i hm
  have e : ∀ (r : Reg) k, word (fun j => r (2 * h + j)) k = word r (h + k) := by
    intro r k
    unfold word
    beta_reduce
    rw [show 2 * h + (2 * k + 1) = 2 * (h + k) + 1 by ring, show 2 * h + 2 * k = 2 * (h + k) by ring]
  rw [e, e] at this
  exact this

theorem word_punpcklwd (a b : Reg) (i : Nat) : word (punpckl 2 a b) i = if i / 1 % 2 = 0 then word a (i / 2 * 1 + i % 1) else word b (i / 2 * 1 + i % 1) := word_punpckl 1 a b i (by decide)
theorem word_punpckldq (a b : Reg) (i : Nat) : word (punpckl 4 a b) i = if i / 2 % 2 = 0 then word a (i / 4 * 2 + i % 2) else word b (i / 4 * 2 + i % 2) := word_punpckl 2 a b i (by decide)
theorem word_punpcklqdq (a b : Reg) (i : Nat) : word (punpckl 8 a b) i = if i / 4 % 2 = 0 then word a (i / 8 * 4 + i % 4) else word b (i / 8 * 4 + i % 4) := word_punpckl 4 a b i (by decide)
theorem word_punpckhwd (a b : Reg) (i : Nat) : word (punpckh 8 2 a b) i = if i / 1 % 2 = 0 then word a (4 + (i / 2 * 1 + i % 1)) else word b (4 + (i / 2 * 1 + i % 1)) := word_punpckh 4 1 a b i (by decide)
theorem word_punpckhdq (a b : Reg) (i : Nat) : word (punpckh 8 4 a b) i = if i / 2 % 2 = 0 then word a (4 + (i / 4 * 2 + i % 2)) else word b (4 + (i / 4 * 2 + i % 2)) := word_punpckh 4 2 a b i (by decide)
theorem word_punpckhqdq (a b : Reg) (i : Nat) : word (punpckh 8 8 a b) i = if i / 4 % 2 = 0 then word a (4 + (i / 8 * 4 + i % 4)) else word b (4 + (i / 8 * 4 + i % 4)) := word_punpckh 4 4 a b i (by decide)
theorem word_punpckhwdMm (a b : Reg) (i : Nat) : word (punpckh 4 2 a b) i = if i / 1 % 2 = 0 then word a (2 + (i / 2 * 1 + i % 1)) else word b (2 + (i / 2 * 1 + i % 1)) := word_punpckh 2 1 a b i (by decide)
theorem word_punpckhdqMm (a b : Reg) (i : Nat) : word (punpckh 4 4 a b) i = if i / 2 % 2 = 0 then word a (2 + (i / 4 * 2 + i % 2)) else word b (2 + (i / 4 * 2 + i % 2)) := word_punpckh 2 2 a b i (by decide)

theorem word_pshufd (a : Reg) (imm i : Nat) : word (pshufd a imm) i = word a (2 * (imm / 4 ^ (i / 2) % 4) + i % 2) := by
  unfold word pshufd
  rw [show (2 * i + 1) / 4 = i / 2 by omega, show 2 * i / 4 = i / 2 by omega, show (2 * i + 1) % 4 = 2 * (i % 2) + 1 by omega, show 2 * i % 4 = 2 * (i % 2) by omega]
  congr 2 <;> ring

theorem word_pshuflw (a : Reg) (imm i : Nat) : word (pshuflw a imm) i = if i < 4 then word a (imm / 4 ^ i % 4) else word a i := by
  unfold word pshuflw
  rw [show (2 * i + 1) / 2 = i by omega, show 2 * i / 2 = i by omega, show (2 * i + 1) % 2 = 1 by omega, show 2 * i % 2 = 0 by omega]
  by_cases h : i < 4
  · rw [if_pos (by omega), if_pos (by omega), if_pos h]; rfl
  · rw [if_neg (by omega), if_neg (by omega), if_neg h]

theorem word_pshufhw (a : Reg) (imm i : Nat) : word (pshufhw a imm) i = if i < 4 then word a i else word a (4 + imm / 4 ^ (i - 4) % 4) := by
  unfold word pshufhw
  by_cases h : i < 4
  · rw [if_pos (by omega), if_pos (by omega), if_pos h]
  · rw [if_neg (by omega), if_neg (by omega), if_neg h, show (2 * i + 1 - 8) / 2 = i - 4 by omega, show (2 * i - 8) / 2 = i - 4 by omega, show (2 * i + 1) % 2 = 1 by omega,
      show 2 * i % 2 = 0 by omega]
    congr 2 <;> ring

theorem word_movq (a : Reg) (i : Nat) : word (movq a) i = if i < 4 then word a i else 0#16 := by
  unfold word movq
  by_cases h : i < 4
  · rw [if_pos (by omega), if_pos (by omega), if_pos h]
  · rw [if_neg (by omega), if_neg (by omega), if_neg h]; decide

/-! Moves of double words. -/

theorem dword_words (a : Reg) (i : Nat) : dword a i = word a (2 * i + 1) ++ word a (2 * i) := rfl

theorem dword_pshufd (a : Reg) (imm i : Nat) : dword (pshufd a imm) i = dword a (imm / 4 ^ i % 4) := by
  unfold dword
  rw [word_pshufd, word_pshufd, show (2 * i + 1) / 2 = i by omega, show 2 * i / 2 = i by omega, show (2 * i + 1) % 2 = 1 by omega, show 2 * i % 2 = 0 by omega]
  rfl

theorem dword_punpcklqdq (a b : Reg) (i : Nat) (h : i < 4) : dword (punpckl 8 a b) i = if i < 2 then dword a i else dword b (i - 2) := by
  unfold dword
  rw [word_punpcklqdq, word_punpcklqdq]
  interval_cases i <;> rfl

theorem dword_punpckhqdq (a b : Reg) (i : Nat) (h : i < 4) : dword (punpckh 8 8 a b) i = if i < 2 then dword a (2 + i) else dword b i := by
  unfold dword
  rw [word_punpckhqdq, word_punpckhqdq]
  interval_cases i <;> rfl

/-! ### Numbers -/

theorem toInt_ofInt16 {x : Int} (h : -32768 ≤ x ∧ x ≤ 32767) : (BitVec.ofInt 16 x).toInt = x := by
  rw [BitVec.toInt_ofInt]
  exact Int.bmod_eq_of_le (by omega) (by omega)

theorem toInt_ofInt32 {x : Int} (h : -2147483648 ≤ x ∧ x ≤ 2147483647) : (BitVec.ofInt 32 x).toInt = x := by
  rw [BitVec.toInt_ofInt]
  exact Int.bmod_eq_of_le (by omega) (by omega)

theorem setWidth_ofInt (x : BitVec 8) : x.setWidth 16 = BitVec.ofInt 16 x.toNat := by
  apply BitVec.eq_of_toNat_eq
  have := x.isLt
  simp

theorem ofInt_sub' (w : Nat) (x y : Int) : BitVec.ofInt w x - BitVec.ofInt w y = BitVec.ofInt w (x - y) := by
  rw [BitVec.sub_eq_add_neg, ← BitVec.ofInt_neg, ← BitVec.ofInt_add, Int.sub_eq_add_neg]

theorem saturate_of_fits {x : Int} (h : -32768 ≤ x ∧ x ≤ 32767) : saturate 16 x = x := by
  unfold saturate
  norm_num
  omega

end Alfalfa.Sse
