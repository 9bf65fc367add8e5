import Verif.Model.SseBlocks
import Verif.Proof.Sse
import Verif.Spec.Vectors
import Mathlib.Algebra.BigOperators.Intervals
import Mathlib.Algebra.Order.BigOperators.Group.Finset
import Mathlib.Tactic.Linarith

/-! Sums in registers. -/

namespace Alfalfa

open Sse Finset

/-- The difference of two bytes of two rows. -/
def byteDiff (src ref : Nat → Reg) (r k : Nat) : Int := ((src r k).toNat : Int) - (ref r k).toNat

theorem byteDiff_bound (src ref : Nat → Reg) (r k : Nat) : -255 ≤ byteDiff src ref r k ∧ byteDiff src ref r k ≤ 255 := by
  unfold byteDiff
  have h1 := (src r k).isLt
  have h2 := (ref r k).isLt
  omega

theorem word_diff8 (a b : Reg) (i : Nat) : word (diff8 a b) i = BitVec.ofInt 16 (((a i).toNat : Int) - (b i).toNat) := by
  unfold diff8
  rw [word_psubw, word_punpckl1_zero, word_punpckl1_zero, setWidth_ofInt, setWidth_ofInt, ofInt_sub']

theorem word_diffHigh (a b : Reg) (i : Nat) :
    word (psubw (punpckh 8 1 a zero) (punpckh 8 1 b zero)) i = BitVec.ofInt 16 (((a (8 + i)).toNat : Int) - (b (8 + i)).toNat) := by
  rw [word_psubw, word_punpckh1_zero, word_punpckh1_zero, setWidth_ofInt, setWidth_ofInt, ofInt_sub']

theorem dword_squares {d : Reg} {f : Nat → Int} (h : ∀ i, word d i = BitVec.ofInt 16 (f i)) (hb : ∀ i, -255 ≤ f i ∧ f i ≤ 255) (i : Nat) :
    dword (pmaddwd d d) i = BitVec.ofInt 32 (f (2 * i) ^ 2 + f (2 * i + 1) ^ 2) := by
  have h1 := hb (2 * i)
  have h2 := hb (2 * i + 1)
  rw [dword_pmaddwd, h, h, toInt_ofInt16 (by omega), toInt_ofInt16 (by omega), pow_two, pow_two]

theorem sumDwords_eq (v : Reg) : sumDwords v = dword v 0 + dword v 2 + (dword v 1 + dword v 3) := by
  unfold sumDwords
  have e : ∀ w : Reg, dword (psrldq w 4) 0 = dword w 1 := fun w => dword_psrldq w 1 0 (by omega)
  have e0 : ∀ w : Reg, dword (psrldq w 8) 0 = dword w 2 := fun w => dword_psrldq w 2 0 (by omega)
  have e1 : ∀ w : Reg, dword (psrldq w 8) 1 = dword w 3 := fun w => dword_psrldq w 2 1 (by omega)
  simp only [dword_paddd, e, e0, e1]

theorem words_half (v : Reg) (i : Nat) (h : i < 4) : word (paddw v (psrldq v 8)) i = word v i + word v (i + 4) := by
  rw [word_paddw, show (8 : Nat) = 2 * 4 by rfl, word_psrldq _ _ _ (by omega)]

theorem words_quarter (v : Reg) (i : Nat) (h : i < 6) : word (paddw v (psrldq v 4)) i = word v i + word v (i + 2) := by
  rw [word_paddw, show (4 : Nat) = 2 * 2 by rfl, word_psrldq _ _ _ (by omega)]

theorem words_pair (v : Reg) (i : Nat) (h : i < 7) : word (paddw v (psrldq v 2)) i = word v i + word v (i + 1) := by
  rw [word_paddw, show (2 : Nat) = 2 * 1 by rfl, word_psrldq _ _ _ (by omega)]

/-! ### The loops -/

theorem get16x16loop_sum (src ref : Nat → Reg) (n i : Nat) (s : Reg × Reg) (k : Nat) :
    word (get16x16loop src ref n i s).1 k = word s.1 k + BitVec.ofInt 16 (∑ r ∈ range n, (byteDiff src ref (i + r) k + byteDiff src ref (i + r) (8 + k))) := by
  induction n generalizing i s with
  | zero => simp [get16x16loop]
  | succ n ih =>
    obtain ⟨vsum, vsse⟩ := s
    rw [get16x16loop, ih, Finset.sum_range_succ']
    have e1 := word_diff8 (src i) (ref i) k
    unfold diff8 at e1
    simp only [word_paddw, e1, word_diffHigh]
    simp only [BitVec.ofInt_add, BitVec.add_assoc, byteDiff, Nat.add_zero, show ∀ r, i + 1 + r = i + (r + 1) by intro r; omega]
    congr 1
    rw [BitVec.add_comm (BitVec.ofInt 16 (∑ r ∈ range n, _)), BitVec.add_assoc]

theorem get16x16loop_sse (src ref : Nat → Reg) (n i : Nat) (s : Reg × Reg) (k : Nat) :
    dword (get16x16loop src ref n i s).2 k = dword s.2 k + BitVec.ofInt 32 (∑ r ∈ range n,
      (byteDiff src ref (i + r) (2 * k) ^ 2 + byteDiff src ref (i + r) (2 * k + 1) ^ 2 +
        (byteDiff src ref (i + r) (8 + 2 * k) ^ 2 + byteDiff src ref (i + r) (8 + (2 * k + 1)) ^ 2))) := by
  induction n generalizing i s with
  | zero => simp [get16x16loop]
  | succ n ih =>
    obtain ⟨vsum, vsse⟩ := s
    rw [get16x16loop, ih, Finset.sum_range_succ']
    have e1 := dword_squares (f := byteDiff src ref i) (word_diff8 (src i) (ref i)) (byteDiff_bound src ref i) k
    unfold diff8 at e1
    have e2 := dword_squares (f := fun k => byteDiff src ref i (8 + k)) (word_diffHigh (src i) (ref i)) (fun k => byteDiff_bound src ref i (8 + k)) k
    simp only [dword_paddd, e1, e2]
    rw [BitVec.ofInt_add (∑ r ∈ range n, _)]
    simp only [Nat.add_zero, show ∀ r, i + 1 + r = i + (r + 1) by intro r; omega]
    rw [BitVec.ofInt_add (_ + _) (_ + _)]
    simp only [BitVec.add_assoc]
    congr 1
    rw [BitVec.add_comm (BitVec.ofInt 32 (∑ r ∈ range n, _)), BitVec.add_assoc]

theorem get8x8loop_sum (src ref : Nat → Reg) (n i : Nat) (s : Reg × Reg) (k : Nat) :
    word (get8x8loop src ref n i s).1 k = word s.1 k + BitVec.ofInt 16 (∑ r ∈ range n, (byteDiff src ref (i + 2 * r) k + byteDiff src ref (i + 2 * r + 1) k)) := by
  induction n generalizing i s with
  | zero => simp [get8x8loop]
  | succ n ih =>
    obtain ⟨vsum, vsse⟩ := s
    rw [get8x8loop, ih, Finset.sum_range_succ']
    simp only [word_paddw, word_diff8]
    simp only [BitVec.ofInt_add, BitVec.add_assoc, byteDiff, Nat.mul_zero, Nat.add_zero, show ∀ r, i + 2 + 2 * r = i + 2 * (r + 1) by intro r; omega]
    congr 1
    rw [BitVec.add_comm (BitVec.ofInt 16 (∑ r ∈ range n, _)), BitVec.add_assoc]

theorem get8x8loop_sse (src ref : Nat → Reg) (n i : Nat) (s : Reg × Reg) (k : Nat) :
    dword (get8x8loop src ref n i s).2 k = dword s.2 k + BitVec.ofInt 32 (∑ r ∈ range n,
      (byteDiff src ref (i + 2 * r) (2 * k) ^ 2 + byteDiff src ref (i + 2 * r) (2 * k + 1) ^ 2 +
        (byteDiff src ref (i + 2 * r + 1) (2 * k) ^ 2 + byteDiff src ref (i + 2 * r + 1) (2 * k + 1) ^ 2))) := by
  induction n generalizing i s with
  | zero => simp [get8x8loop]
  | succ n ih =>
    obtain ⟨vsum, vsse⟩ := s
    rw [get8x8loop, ih, Finset.sum_range_succ']
    have e1 := dword_squares (f := byteDiff src ref i) (word_diff8 (src i) (ref i)) (byteDiff_bound src ref i) k
    have e2 := dword_squares (f := byteDiff src ref (i + 1)) (word_diff8 (src (i + 1)) (ref (i + 1))) (byteDiff_bound src ref (i + 1)) k
    simp only [dword_paddd, e1, e2]
    rw [BitVec.ofInt_add (∑ r ∈ range n, _)]
    simp only [Nat.mul_zero, Nat.add_zero, show ∀ r, i + 2 + 2 * r = i + 2 * (r + 1) by intro r; omega]
    rw [BitVec.ofInt_add (_ + _) (_ + _)]
    simp only [BitVec.add_assoc]
    congr 1
    rw [BitVec.add_comm (BitVec.ofInt 32 (∑ r ∈ range n, _)), BitVec.add_assoc]

/-! ### All rows -/

theorem get16x16var_sse (src ref : Nat → Reg) :
    (get16x16var src ref).1 = BitVec.ofInt 32 (∑ k ∈ range 16, ∑ r ∈ range 16, byteDiff src ref r k ^ 2) := by
  unfold get16x16var
  simp only [sumDwords_eq, get16x16loop_sse, dword_zero, BitVec.zero_add, ← BitVec.ofInt_add, Nat.zero_add]
  congr 1
  rw [Finset.sum_comm]
  simp only [← Finset.sum_add_distrib]
  apply Finset.sum_congr rfl
  intro r _
  simp only [Finset.sum_range_succ, Finset.sum_range_zero]
  ring

theorem sum_bound {n : Nat} {f : Nat → Int} {b : Int} (h : ∀ r, -b ≤ f r ∧ f r ≤ b) : -(n * b) ≤ ∑ r ∈ range n, f r ∧ ∑ r ∈ range n, f r ≤ n * b := by
  induction n with
  | zero => simp
  | succ n ih =>
    rw [Finset.sum_range_succ]
    have := h n
    push_cast
    constructor <;> linarith [ih.1, ih.2, this.1, this.2]

theorem get16x16var_sum (src ref : Nat → Reg) :
    (get16x16var src ref).2 = ∑ k ∈ range 16, ∑ r ∈ range 16, byteDiff src ref r k := by
  unfold get16x16var
  have hw : ∀ k, -8160 ≤ ∑ r ∈ range 16, (byteDiff src ref r k + byteDiff src ref r (8 + k)) ∧
      ∑ r ∈ range 16, (byteDiff src ref r k + byteDiff src ref r (8 + k)) ≤ 8160 := by
    intro k
    have := sum_bound (n := 16) (f := fun r => byteDiff src ref r k + byteDiff src ref r (8 + k)) (b := 510) (fun r => by
      have h1 := byteDiff_bound src ref r k
      have h2 := byteDiff_bound src ref r (8 + k)
      constructor <;> omega)
    constructor <;> norm_num at this <;> linarith [this.1, this.2]
  simp only [words_quarter _ 0 (by omega), words_quarter _ 1 (by omega), words_half _ _ (show 0 < 4 by omega), words_half _ _ (show 1 < 4 by omega),
    words_half _ _ (show 0 + 2 < 4 by omega), words_half _ _ (show 1 + 2 < 4 by omega), get16x16loop_sum, word_zero, BitVec.zero_add, ← BitVec.ofInt_add, Nat.zero_add]
  have h0 := hw 0; have h1 := hw 1; have h2 := hw 2; have h3 := hw 3; have h4 := hw 4; have h5 := hw 5; have h6 := hw 6; have h7 := hw 7
  rw [toInt_ofInt16 (by constructor <;> linarith [h0.1, h0.2, h2.1, h2.2, h4.1, h4.2, h6.1, h6.2]),
    toInt_ofInt16 (by constructor <;> linarith [h1.1, h1.2, h3.1, h3.2, h5.1, h5.2, h7.1, h7.2])]
  rw [Finset.sum_comm]
  simp only [← Finset.sum_add_distrib]
  apply Finset.sum_congr rfl
  intro r _
  simp only [Finset.sum_range_succ, Finset.sum_range_zero]
  ring

theorem get8x8var_sse (src ref : Nat → Reg) :
    (get8x8var src ref).1 = BitVec.ofInt 32 (∑ k ∈ range 8, ∑ r ∈ range 8, byteDiff src ref r k ^ 2) := by
  unfold get8x8var
  simp only [sumDwords_eq, get8x8loop_sse, dword_zero, BitVec.zero_add, ← BitVec.ofInt_add, Nat.zero_add]
  congr 1
  simp only [Finset.sum_range_succ, Finset.sum_range_zero]
  ring

theorem get8x8var_sum (src ref : Nat → Reg) :
    (get8x8var src ref).2 = ∑ k ∈ range 8, ∑ r ∈ range 8, byteDiff src ref r k := by
  unfold get8x8var
  have hw : ∀ k, -2040 ≤ ∑ r ∈ range 8, byteDiff src ref r k ∧ ∑ r ∈ range 8, byteDiff src ref r k ≤ 2040 := by
    intro k
    have := sum_bound (n := 8) (f := fun r => byteDiff src ref r k) (b := 255) (fun r => byteDiff_bound src ref r k)
    constructor <;> norm_num at this <;> linarith [this.1, this.2]
  simp only [words_pair _ 0 (by omega), words_quarter _ 0 (by omega), words_quarter _ (0 + 1) (by omega), words_half _ _ (show 0 < 4 by omega), words_half _ _ (show 0 + 1 < 4 by omega),
    words_half _ _ (show 0 + 2 < 4 by omega), words_half _ _ (show 0 + 1 + 2 < 4 by omega), get8x8loop_sum, word_zero, BitVec.zero_add, ← BitVec.ofInt_add, Nat.zero_add]
  have h0 := hw 0; have h1 := hw 1; have h2 := hw 2; have h3 := hw 3; have h4 := hw 4; have h5 := hw 5; have h6 := hw 6; have h7 := hw 7
  simp only [Finset.sum_range_succ, Finset.sum_range_zero] at h0 h1 h2 h3 h4 h5 h6 h7 ⊢
  norm_num only at h0 h1 h2 h3 h4 h5 h6 h7 ⊢
  rw [toInt_ofInt16]
  · ring
  · constructor <;> linarith [h0.1, h0.2, h2.1, h2.2, h4.1, h4.2, h6.1, h6.2, h1.1, h1.2, h3.1, h3.2, h5.1, h5.2, h7.1, h7.2]

/-- Byte `k` of two rows of four bytes in turns. -/
theorem read64_byte (p : Nat → Reg) (i k : Nat) : read64 p i k = if k % 2 = 0 then p i (k / 2) else p (i + 1) (k / 2) := by
  unfold read64 punpckl
  simp only [Nat.div_one, Nat.mul_one, Nat.mod_one, Nat.add_zero]

theorem get4x4var_eq (src ref : Nat → Reg) :
    (get4x4var src ref).1 = BitVec.ofInt 32 (∑ k ∈ range 4, ∑ r ∈ range 4, byteDiff src ref r k ^ 2) ∧
    (get4x4var src ref).2 = ∑ k ∈ range 4, ∑ r ∈ range 4, byteDiff src ref r k := by
  have e : ∀ i k, word (psubw (punpckl 1 (read64 src i) zero) (punpckl 1 (read64 ref i) zero)) k =
      BitVec.ofInt 16 (if k % 2 = 0 then byteDiff src ref i (k / 2) else byteDiff src ref (i + 1) (k / 2)) := by
    intro i k
    have := word_diff8 (read64 src i) (read64 ref i) k
    unfold diff8 at this
    rw [this, read64_byte, read64_byte]
    unfold byteDiff
    split <;> rfl
  have b : ∀ i k, -255 ≤ (if k % 2 = 0 then byteDiff src ref i (k / 2) else byteDiff src ref (i + 1) (k / 2)) ∧
      (if k % 2 = 0 then byteDiff src ref i (k / 2) else byteDiff src ref (i + 1) (k / 2)) ≤ 255 := by
    intro i k
    split <;> exact byteDiff_bound _ _ _ _
  constructor
  · unfold get4x4var
    simp only [sumDwords_eq, dword_paddd, dword_squares (e _) (b _), ← BitVec.ofInt_add]
    congr 1
    simp only [Finset.sum_range_succ, Finset.sum_range_zero]
    norm_num
    ring
  · unfold get4x4var
    simp only [words_pair _ 0 (by omega), words_quarter _ 0 (by omega), words_quarter _ (0 + 1) (by omega), words_half _ _ (show 0 < 4 by omega), words_half _ _ (show 0 + 1 < 4 by omega),
      words_half _ _ (show 0 + 2 < 4 by omega), words_half _ _ (show 0 + 1 + 2 < 4 by omega), word_paddw, e, ← BitVec.ofInt_add, Nat.zero_add]
    have hb := byteDiff_bound src ref
    simp only [Finset.sum_range_succ, Finset.sum_range_zero]
    norm_num only [if_true, if_false]
    rw [toInt_ofInt16]
    · ring
    · constructor <;> linarith [(hb 0 0).1, (hb 0 0).2, (hb 0 1).1, (hb 0 1).2, (hb 0 2).1, (hb 0 2).2, (hb 0 3).1, (hb 0 3).2, (hb 1 0).1, (hb 1 0).2, (hb 1 1).1, (hb 1 1).2,
        (hb 1 2).1, (hb 1 2).2, (hb 1 3).1, (hb 1 3).2, (hb 2 0).1, (hb 2 0).2, (hb 2 1).1, (hb 2 1).2, (hb 2 2).1, (hb 2 2).2, (hb 2 3).1, (hb 2 3).2,
        (hb 3 0).1, (hb 3 0).2, (hb 3 1).1, (hb 3 1).2, (hb 3 2).1, (hb 3 2).2, (hb 3 3).1, (hb 3 3).2]

/-! ### Distances -/

theorem dword_psadbw (a b : Reg) (i : Nat) (h : i % 2 = 0) :
    dword (psadbw a b) i = BitVec.ofInt 32 (∑ j ∈ range 8, |((b (4 * i + j)).toNat : Int) - (a (4 * i + j)).toNat|) := by
  have e : ∀ x y : Nat, ((x - y + (y - x) : Nat) : Int) = |(y : Int) - x| := by
    intro x y
    rcases Nat.le_total x y with h | h
    · rw [abs_of_nonneg (by omega)]; omega
    · rw [abs_of_nonpos (by omega)]; omega
  unfold psadbw
  rw [dword_ofDwords, if_pos h, ← BitVec.ofInt_natCast]
  congr 1
  simp only [Finset.sum_range_succ, Finset.sum_range_zero, ← e]
  simp [List.range, List.range.loop]
  omega

theorem sadLoop_eq (src ref : Nat → Reg) (n i : Nat) (m0 : Reg) (k : Nat) (hk : k % 2 = 0) :
    dword (sadLoop src ref n i m0) k = dword m0 k + BitVec.ofInt 32 (∑ r ∈ range (4 * n), ∑ j ∈ range 8, |byteDiff src ref (i + r) (4 * k + j)|) := by
  induction n generalizing i m0 with
  | zero => simp [sadLoop]
  | succ n ih =>
    rw [sadLoop, ih, show 4 * (n + 1) = 4 * n + 1 + 1 + 1 + 1 by ring, Finset.sum_range_succ', Finset.sum_range_succ', Finset.sum_range_succ', Finset.sum_range_succ']
    have d : ∀ r, dword (psadbw (ref r) (src r)) k = BitVec.ofInt 32 (∑ j ∈ range 8, |byteDiff src ref r (4 * k + j)|) := fun r => dword_psadbw _ _ _ hk
    simp only [dword_paddd, d]
    have e4 : ∑ r ∈ range (4 * n), ∑ j ∈ range 8, |byteDiff src ref (i + (r + 1 + 1 + 1 + 1)) (4 * k + j)| =
        ∑ r ∈ range (4 * n), ∑ j ∈ range 8, |byteDiff src ref (i + 4 + r) (4 * k + j)| :=
      Finset.sum_congr rfl fun r _ => by rw [show i + (r + 1 + 1 + 1 + 1) = i + 4 + r by omega]
    rw [e4]
    simp only [Nat.zero_add, Nat.add_zero, Nat.reduceAdd]
    simp only [BitVec.ofInt_add, BitVec.add_assoc]
    congr 1
    generalize BitVec.ofInt 32 (∑ r ∈ range (4 * n), _) = x
    rw [BitVec.add_comm x, BitVec.add_assoc, BitVec.add_comm, ← BitVec.add_assoc]
    ac_rfl

theorem foldl_ofInt (l : List T) (f : T → Int) (a : BitVec 32) : l.foldl (fun res i => res + BitVec.ofInt 32 (f i)) a = a + BitVec.ofInt 32 ((l.map f).sum) := by
  induction l generalizing a with
  | nil => simp
  | cons x l ih => rw [List.foldl_cons, ih, List.map_cons, List.sum_cons, BitVec.ofInt_add, BitVec.add_assoc]

theorem foldl_square {n : Nat} (f : Fin n → Fin n → Int) (a : BitVec 32) :
    (List.finRange n).foldl (fun res i => (List.finRange n).foldl (fun res j => res + BitVec.ofInt 32 (f i j)) res) a = a + BitVec.ofInt 32 (∑ i, ∑ j, f i j) := by
  simp only [foldl_ofInt]
  simp only [Fin.sum_univ_def]

theorem byteDiff_rowOf {n : Nat} (a b : Square n) (c r : Fin n) : byteDiff (rowOf a) (rowOf b) r c = Spec.lighter a b c r := by
  unfold byteDiff rowOf Spec.lighter
  rw [dif_pos ⟨c.isLt, r.isLt⟩, dif_pos ⟨c.isLt, r.isLt⟩]
  rfl

theorem sum_rowOf {n : Nat} (a b : Square n) (g : Int → Int) :
    ∑ k ∈ range n, ∑ r ∈ range n, g (byteDiff (rowOf a) (rowOf b) r k) = ∑ c : Fin n, ∑ r : Fin n, g (Spec.lighter a b c r) := by
  rw [Finset.sum_range]
  apply Finset.sum_congr rfl
  intro c _
  rw [Finset.sum_range]
  apply Finset.sum_congr rfl
  intro r _
  rw [byteDiff_rowOf]

end Alfalfa
