import Verif.Proof.SseBlocks
import Mathlib.Algebra.Order.Chebyshev

/-! C85: the code for processors with vector instructions computes what the portable code computes.  Here: how far a block of pixels is from another. -/

namespace Alfalfa

open Sse Finset Spec

theorem lighter_bound {n : Nat} (a b : Square n) (c r : Fin n) : -255 ≤ lighter a b c r ∧ lighter a b c r ≤ 255 := by
  unfold lighter
  have h1 := (a c r).toNat_lt
  have h2 := (b c r).toNat_lt
  omega

theorem squareSum_le {n : Nat} {f : Fin n → Fin n → Int} {m : Int} (h : ∀ c r, 0 ≤ f c r ∧ f c r ≤ m) : 0 ≤ ∑ c, ∑ r, f c r ∧ ∑ c, ∑ r, f c r ≤ n * (n * m) := by
  constructor
  · exact Finset.sum_nonneg fun c _ => Finset.sum_nonneg fun r _ => (h c r).1
  · have h1 : ∀ c : Fin n, ∑ r, f c r ≤ n * m := by
      intro c
      have := Finset.sum_le_card_nsmul Finset.univ (f c) m fun r _ => (h c r).2
      simpa using this
    have := Finset.sum_le_card_nsmul Finset.univ (fun c => ∑ r, f c r) (n * m) fun c _ => h1 c
    simpa using this

theorem sumOfSquares_le {n : Nat} (a b : Square n) : 0 ≤ sumOfSquares a b ∧ sumOfSquares a b ≤ n * (n * 65025) := by
  apply squareSum_le
  intro c r
  have := lighter_bound a b c r
  constructor
  · positivity
  · nlinarith

theorem sumOfDistances_le {n : Nat} (a b : Square n) : 0 ≤ sumOfDistances a b ∧ sumOfDistances a b ≤ n * (n * 255) := by
  apply squareSum_le
  intro c r
  have := lighter_bound a b c r
  exact ⟨abs_nonneg _, abs_le.mpr ⟨by linarith [this.1], this.2⟩⟩

theorem sumOfDifferences_sq {n : Nat} (a b : Square n) : sumOfDifferences a b ^ 2 ≤ n ^ 2 * sumOfSquares a b := by
  unfold sumOfDifferences sumOfSquares
  have h1 := sq_sum_le_card_mul_sum_sq (s := (Finset.univ : Finset (Fin n))) (f := fun c => ∑ r, lighter a b c r)
  have h2 : ∑ c : Fin n, (∑ r, lighter a b c r) ^ 2 ≤ ∑ c : Fin n, (n * ∑ r, lighter a b c r ^ 2) := by
    apply Finset.sum_le_sum
    intro c _
    have := sq_sum_le_card_mul_sum_sq (s := (Finset.univ : Finset (Fin n))) (f := fun r => lighter a b c r)
    simpa using this
  rw [← Finset.mul_sum] at h2
  simp only [card_univ, Fintype.card_fin] at h1
  calc (∑ c, ∑ r, lighter a b c r) ^ 2 ≤ n * ∑ c, (∑ r, lighter a b c r) ^ 2 := h1
    _ ≤ n * (n * ∑ c, ∑ r, lighter a b c r ^ 2) := mul_le_mul_of_nonneg_left h2 (by positivity)
    _ = _ := by ring

theorem spread_bound {n : Nat} (hn : 0 < n) (a b : Square n) : 0 ≤ spread a b ∧ spread a b ≤ sumOfSquares a b := by
  unfold spread
  have h := sumOfDifferences_sq a b
  have hp : (0 : Int) < (n : Int) ^ 2 := by positivity
  constructor
  · have : sumOfDifferences a b ^ 2 / (n : Int) ^ 2 ≤ sumOfSquares a b := by
      rw [← Int.mul_ediv_cancel_left (sumOfSquares a b) (ne_of_gt hp)]
      exact Int.ediv_le_ediv hp h
    linarith
  · have : 0 ≤ sumOfDifferences a b ^ 2 / (n : Int) ^ 2 := Int.ediv_nonneg (by positivity) (le_of_lt hp)
    linarith

theorem toNat_ofInt32 {x : Int} (h : 0 ≤ x) (h' : x < 2 ^ 32) : ((BitVec.ofInt 32 x).toNat : Int) = x := by
  rw [BitVec.toNat_ofInt]
  norm_num at *
  rw [Int.emod_eq_of_lt h h', max_eq_left h]

theorem sad_eq {n : Nat} (a b : Square n) : sad a b = BitVec.ofInt 32 (sumOfDistances a b) := by
  unfold sad sumOfDistances
  have e : ∀ x : Int, BitVec.ofNat 32 x.natAbs = BitVec.ofInt 32 |x| := by
    intro x
    rw [← BitVec.ofInt_natCast, Int.natCast_natAbs]
  simp only [e]
  rw [foldl_square (fun i j => |((a i j).toNat : Int) - (b i j).toNat|)]
  exact BitVec.zero_add _

theorem sse_eq {n : Nat} (a b : Square n) : sse a b = BitVec.ofInt 32 (sumOfSquares a b) := by
  unfold sse sumOfSquares
  rw [foldl_square (fun i j => (((a i j).toNat : Int) - (b i j).toNat) * (((a i j).toNat : Int) - (b i j).toNat))]
  simp only [lighter, pow_two]
  exact BitVec.zero_add _

theorem foldl_pair {T : Type} (l : List T) (f : T → Int) (g : T → Int) (s : BitVec 32 × Int) :
    l.foldl (fun s i => (s.1 + BitVec.ofInt 32 (f i), s.2 + g i)) s = (s.1 + BitVec.ofInt 32 (l.map f).sum, s.2 + (l.map g).sum) := by
  induction l generalizing s with
  | nil => simp
  | cons x l ih => rw [List.foldl_cons, ih, List.map_cons, List.sum_cons, List.map_cons, List.sum_cons, BitVec.ofInt_add, BitVec.add_assoc, Int.add_assoc]

theorem variance_eq {n : Nat} (hn : 0 < n) (hn' : n ≤ 16) (a b : Square n) : variance a b = BitVec.ofInt 32 (spread a b) := by
  have hs := sumOfSquares_le a b
  have hle : (n : Int) * (n * 65025) ≤ 16 * (16 * 65025) := by
    have : (n : Int) ≤ 16 := by exact_mod_cast hn'
    have h0 : (0 : Int) ≤ n := by positivity
    nlinarith
  unfold variance
  simp only [foldl_pair]
  simp only [← Fin.sum_univ_def]
  have e1 : ∑ i : Fin n, ∑ j : Fin n, (((a i j).toNat : Int) - (b i j).toNat) * (((a i j).toNat : Int) - (b i j).toNat) = sumOfSquares a b := by
    unfold sumOfSquares lighter
    simp only [pow_two]
  have e2 : ∑ i : Fin n, ∑ j : Fin n, (((a i j).toNat : Int) - (b i j).toNat) = sumOfDifferences a b := rfl
  rw [e1, e2]
  simp only [Int.zero_add]
  rw [show (0 : BitVec 32) + BitVec.ofInt 32 (sumOfSquares a b) = BitVec.ofInt 32 (sumOfSquares a b) from BitVec.zero_add _]
  rw [toNat_ofInt32 hs.1 (by norm_num; linarith [hs.2])]
  unfold spread
  rw [Int.tdiv_eq_ediv_of_nonneg (mul_self_nonneg _)]
  simp only [pow_two]

/-- The sum of the distances over a macroblock is the same with and without SSE2. -/
theorem C85_sad (a b : Square 16) : sad16 a b = sad a b ∧ ((sad a b).toNat : Int) = sumOfDistances a b := by
  have hs := sumOfDistances_le a b
  refine ⟨?_, ?_⟩
  · rw [sad_eq]
    unfold sad16
    have e : ∀ w : Reg, dword (psrldq w 8) 0 = dword w 2 := fun w => dword_psrldq w 2 0 (by omega)
    simp only [dword_paddd, e, sadLoop_eq _ _ _ _ _ _ (show 0 % 2 = 0 from rfl), sadLoop_eq _ _ _ _ _ _ (show 2 % 2 = 0 from rfl), dword_zero, BitVec.zero_add, ← BitVec.ofInt_add]
    congr 1
    have h := sum_rowOf a b (fun x => |x|)
    unfold sumOfDistances
    rw [← h, ← Finset.sum_add_distrib, Finset.sum_comm (s := range 16)]
    apply Finset.sum_congr rfl
    intro r _
    simp only [Finset.sum_range_succ, Finset.sum_range_zero]
    norm_num
    ring
  · rw [sad_eq, toNat_ofInt32 hs.1 (by norm_num; norm_num at hs; linarith [hs.2])]

/-- The sum of the squares of the differences is the same with and without SSE2, for each size of a block. -/
theorem C85_sse (a b : Square 16) (c d : Square 8) (e f : Square 4) :
    (sse16 a b = sse a b ∧ ((sse a b).toNat : Int) = sumOfSquares a b) ∧ (sse8 c d = sse c d ∧ ((sse c d).toNat : Int) = sumOfSquares c d) ∧
      (sse4 e f = sse e f ∧ ((sse e f).toNat : Int) = sumOfSquares e f) := by
  have h1 := sumOfSquares_le a b
  have h2 := sumOfSquares_le c d
  have h3 := sumOfSquares_le e f
  refine ⟨⟨?_, ?_⟩, ⟨?_, ?_⟩, ⟨?_, ?_⟩⟩
  · rw [sse_eq, sse16, get16x16var_sse, sum_rowOf a b (fun x => x ^ 2)]; rfl
  · rw [sse_eq, toNat_ofInt32 h1.1 (by norm_num; norm_num at h1; linarith [h1.2])]
  · rw [sse_eq, sse8, get8x8var_sse, sum_rowOf c d (fun x => x ^ 2)]; rfl
  · rw [sse_eq, toNat_ofInt32 h2.1 (by norm_num; norm_num at h2; linarith [h2.2])]
  · rw [sse_eq, sse4, (get4x4var_eq _ _).1, sum_rowOf e f (fun x => x ^ 2)]; rfl
  · rw [sse_eq, toNat_ofInt32 h3.1 (by norm_num; norm_num at h3; linarith [h3.2])]

theorem ofInt_sub32 (x y : Int) : BitVec.ofInt 32 x - BitVec.ofInt 32 y = BitVec.ofInt 32 (x - y) := ofInt_sub' 32 x y

/-- The variance of the differences is the same with and without SSE2, for each size of a block. -/
theorem C85_variance (a b : Square 16) (c d : Square 8) (e f : Square 4) :
    (variance16 a b = variance a b ∧ ((variance a b).toNat : Int) = spread a b) ∧ (variance8 c d = variance c d ∧ ((variance c d).toNat : Int) = spread c d) ∧
      (variance4 e f = variance e f ∧ ((variance e f).toNat : Int) = spread e f) := by
  have h1 := sumOfSquares_le a b
  have h2 := sumOfSquares_le c d
  have h3 := sumOfSquares_le e f
  have s1 := spread_bound (by norm_num) a b
  have s2 := spread_bound (by norm_num) c d
  have s3 := spread_bound (by norm_num) e f
  norm_num at h1 h2 h3
  refine ⟨⟨?_, ?_⟩, ⟨?_, ?_⟩, ⟨?_, ?_⟩⟩
  · rw [variance_eq (by norm_num) (by norm_num), variance16]
    simp only
    rw [get16x16var_sse, get16x16var_sum, sum_rowOf a b (fun x => x ^ 2), sum_rowOf a b (fun x => x)]
    have hd := sumOfDifferences_sq a b
    have e : (BitVec.ofInt 32 (sumOfDifferences a b * sumOfDifferences a b)) >>> 8 = BitVec.ofInt 32 (sumOfDifferences a b ^ 2 / 16 ^ 2) := by
      have h0 : 0 ≤ sumOfDifferences a b * sumOfDifferences a b := mul_self_nonneg _
      have hl : sumOfDifferences a b * sumOfDifferences a b < 2 ^ 32 := by
        norm_num at hd ⊢
        nlinarith [h1.2]
      apply BitVec.eq_of_toNat_eq
      have k : ((BitVec.ofInt 32 (sumOfDifferences a b ^ 2 / 16 ^ 2)).toNat : Int) = sumOfDifferences a b ^ 2 / 16 ^ 2 :=
        toNat_ofInt32 (by positivity) (by rw [pow_two]; norm_num at hl ⊢; omega)
      rw [BitVec.toNat_ushiftRight]
      have k2 := toNat_ofInt32 h0 hl
      rw [← pow_two] at *
      rw [Nat.shiftRight_eq_div_pow]
      norm_num at *
      omega
    change BitVec.ofInt 32 (sumOfSquares a b) - (BitVec.ofInt 32 (sumOfDifferences a b * sumOfDifferences a b)) >>> 8 = _
    rw [e, ofInt_sub32]
    rfl
  · rw [variance_eq (by norm_num) (by norm_num), toNat_ofInt32 s1.1 (by norm_num; linarith [s1.2, h1.2])]
  · rw [variance_eq (by norm_num) (by norm_num), variance8]
    simp only
    rw [get8x8var_sse, get8x8var_sum, sum_rowOf c d (fun x => x ^ 2), sum_rowOf c d (fun x => x), ofInt_sub32, Int.shiftRight_eq_div_pow, ← pow_two]
    rfl
  · rw [variance_eq (by norm_num) (by norm_num), toNat_ofInt32 s2.1 (by norm_num; linarith [s2.2, h2.2])]
  · rw [variance_eq (by norm_num) (by norm_num), variance4]
    simp only
    rw [(get4x4var_eq _ _).1, (get4x4var_eq _ _).2, sum_rowOf e f (fun x => x ^ 2), sum_rowOf e f (fun x => x), ofInt_sub32, Int.shiftRight_eq_div_pow, ← pow_two]
    rfl
  · rw [variance_eq (by norm_num) (by norm_num), toNat_ofInt32 s3.1 (by norm_num; linarith [s3.2, h3.2])]

/-- Not empty: two blocks and what the functions say of them. -/
example : sad16 (fun c r => UInt8.ofNat (c.val + 16 * r.val)) (fun _ _ => 100) = 17140#32 := by
  rw [(C85_sad _ _).1]
  decide +kernel

example : variance4 (fun c r => UInt8.ofNat (60 * c.val + r.val)) (fun _ _ => 7) = 72020#32 := by
  rw [(C85_variance (fun _ _ => 0) (fun _ _ => 0) (fun _ _ => 0) (fun _ _ => 0) _ _).2.2.1]
  decide +kernel

end Alfalfa
