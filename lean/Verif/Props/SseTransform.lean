import Verif.Proof.SseTransform
import Verif.Proof.FidelityFrame

/-! C85: the code for processors with vector instructions computes what the portable code computes.  Here: the transforms. -/

namespace Alfalfa

open Sse TransformSpec

/-- Dequantization is the same with and without SSE2. -/
theorem C85_dequantize (dc ac : Nat) (c : Fin 16 → Int) : sseDequantize dc ac c = dequantize dc ac c := by
  funext i
  unfold sseDequantize dequantize
  have e : ∀ (x : Int) (f : Nat), (BitVec.ofInt 16 x * BitVec.ofNat 16 f).toInt = toInt16 (x * f) := by
    intro x f
    rw [← BitVec.ofInt_natCast, ← BitVec.ofInt_mul, toInt_ofInt_16]
  fin_cases i <;> simp [word_loadWords, at16, -BitVec.toInt_mul, e]

theorem sseFdct_eq {input : Fin 16 → Int} (h : ∀ i, |input i| ≤ 255) {r : Fin 4 → Reg} (hr : ∀ i j : Fin 4, word (r i) j = BitVec.ofInt 16 (at16 input (4 * i.val + j.val))) (k j : Fin 4) :
    word (if k.val < 2 then (sseFdctRegs (r 0) (r 1) (r 2) (r 3)).1 else (sseFdctRegs (r 0) (r 1) (r 2) (r 3)).2) (4 * (k.val % 2) + j) =
      BitVec.ofInt 16 (fdct input ⟨4 * k + j, by omega⟩) := by
  have ha : ∀ i, -255 ≤ at16 input i ∧ at16 input i ≤ 255 := fun i => by
    unfold at16
    split
    · exact abs_le.mp (h _)
    · omega
  have s := sseFdctSums_words hr
  have f := sseFdctFirst_words (xmm0 := (sseFdctSums (r 0) (r 1) (r 2) (r 3)).1) (xmm3 := (sseFdctSums (r 0) (r 1) (r 2) (r 3)).2) (fun i => (s i).1) (fun i => (s i).2.1) (fun i => (s i).2.2.1)
    (fun i => (s i).2.2.2)
    (fun i => by have h1 := ha (4 * i + 0); have h2 := ha (4 * i + 3); rw [abs_le]; constructor <;> omega)
    (fun i => by have h1 := ha (4 * i + 1); have h2 := ha (4 * i + 2); rw [abs_le]; constructor <;> omega)
    (fun i => by have h1 := ha (4 * i + 1); have h2 := ha (4 * i + 2); rw [abs_le]; constructor <;> omega)
    (fun i => by have h1 := ha (4 * i + 0); have h2 := ha (4 * i + 3); rw [abs_le]; constructor <;> omega)
  have f' : ∀ i k : Fin 4, word (if i.val < 2 then (sseFdctFirst (sseFdctSums (r 0) (r 1) (r 2) (r 3)).1 (sseFdctSums (r 0) (r 1) (r 2) (r 3)).2).1
      else (sseFdctFirst (sseFdctSums (r 0) (r 1) (r 2) (r 3)).1 (sseFdctSums (r 0) (r 1) (r 2) (r 3)).2).2) (4 * (i.val % 2) + k) = BitVec.ofInt 16 (fdctRow input i k) := by
    intro i k
    rw [f i k]
    unfold fdctRow
    rw [ofInt_toInt16]
    fin_cases k <;> rfl
  have hb : ∀ i k : Fin 4, -8160 ≤ fdctRow input i k ∧ fdctRow input i k ≤ 8160 := fun i k => abs_le.mp (fdctRow_bound h i.isLt k.isLt)
  have c := sseFdctColumns_words f'
  have g := sseFdctSecond_words (fun i => (c i).1) (fun i => (c i).2.1) (fun i => (c i).2.2.1) (fun i => (c i).2.2.2.1) (fun i => (c i).2.2.2.2)
    (fun i => by have h1 := hb 0 i; have h2 := hb 3 i; rw [abs_le]; constructor <;> omega)
    (fun i => by have h1 := hb 1 i; have h2 := hb 2 i; rw [abs_le]; constructor <;> omega)
    (fun i => by have h1 := hb 1 i; have h2 := hb 2 i; rw [abs_le]; constructor <;> omega)
    (fun i => by have h1 := hb 0 i; have h2 := hb 3 i; rw [abs_le]; constructor <;> omega) j k
  have e : ∀ q : Fin 4, at16 (fdctIntermediate input) (j.val + 4 * q.val) = fdctRow input q j := by
    intro q
    rw [at16, dif_pos (by omega), fdctIntermediate]
    congr 1 <;> simp <;> omega
  have e0 := e 0; have e1 := e 1; have e2 := e 2; have e3 := e 3
  simp at e0 e1 e2 e3
  unfold sseFdctRegs
  refine Eq.trans g ?_
  unfold fdct
  rw [ofInt_toInt16]
  congr 1
  have j4 : (4 * k.val + j.val) % 4 = j.val := by omega
  have k4 : (4 * k.val + j.val) / 4 = k.val := by omega
  simp only [j4, k4, Nat.add_zero, e0, e1, e2, e3]
  fin_cases k <;> rfl

/-- The transform of the differences of a block and a prediction is the same with and without SSE2. -/
theorem C85_subtractDct (block prediction : Square 4) : sseSubtractDct block prediction = subtractDct block prediction := by
  funext i
  have hr : ∀ i j : Fin 4, word (sseSubtractRow block prediction i) j = BitVec.ofInt 16 (at16 (fun i : Fin 16 =>
      ((block ⟨i.val % 4, by omega⟩ ⟨i.val / 4, by omega⟩).toNat : Int) - (prediction ⟨i.val % 4, by omega⟩ ⟨i.val / 4, by omega⟩).toNat) (4 * i.val + j.val)) := by
    intro i j
    rw [word_subtractRow _ _ _ _ j.isLt, at16, dif_pos (by omega)]
    have e1 : (4 * i.val + j.val) % 4 = j.val := by omega
    have e2 : (4 * i.val + j.val) / 4 = i.val := by omega
    simp only [e1, e2]
  have hb := C41_forward_range block prediction i
  have h := sseFdct_eq (fun i => by
    have h1 := (block ⟨i.val % 4, by omega⟩ ⟨i.val / 4, by omega⟩).toNat_lt
    have h2 := (prediction ⟨i.val % 4, by omega⟩ ⟨i.val / 4, by omega⟩).toNat_lt
    rw [abs_le]; omega) hr ⟨i.val / 4, by omega⟩ ⟨i.val % 4, by omega⟩
  simp only [show 4 * (i.val / 4) + i.val % 4 = i.val by omega] at h
  have e : sseSubtractDct block prediction i = (word (if i.val / 4 < 2 then (sseFdctRegs (sseSubtractRow block prediction 0) (sseSubtractRow block prediction 1)
      (sseSubtractRow block prediction 2) (sseSubtractRow block prediction 3)).1 else (sseFdctRegs (sseSubtractRow block prediction 0) (sseSubtractRow block prediction 1)
      (sseSubtractRow block prediction 2) (sseSubtractRow block prediction 3)).2) (4 * (i.val / 4 % 2) + i.val % 4)).toInt := by
    unfold sseSubtractDct
    by_cases hi : i.val < 8
    · rw [if_pos (show i.val / 4 < 2 by omega), show 4 * (i.val / 4 % 2) + i.val % 4 = i.val by omega]
      exact if_pos hi
    · rw [if_neg (show ¬ i.val / 4 < 2 by omega), show 4 * (i.val / 4 % 2) + i.val % 4 = i.val - 8 by omega]
      exact if_neg hi
  rw [e, h]
  have := abs_le.mp hb
  exact toInt_ofInt16 (x := subtractDct block prediction i) (by omega)

/-- The Walsh transform of the DC coefficients of any sixteen blocks is the same with and without SSE2. -/
theorem C85_wht {input : Fin 16 → Int} (h : ∀ i, |input i| ≤ 2041) : sseWht input = wht input := by
  funext i
  have ha : ∀ i, -2041 ≤ at16 input i ∧ at16 input i ≤ 2041 := fun i => by
    unfold at16
    split
    · exact abs_le.mp (h _)
    · omega
  have hf := sseWhtFirst_words (input := input) (fun i => by
    have h1 := ha (4 * i + 0); have h2 := ha (4 * i + 2); rw [abs_le]; constructor <;> omega)
  have hb : ∀ (i k : Fin 4), -32657 ≤ whtRow input i k ∧ whtRow input i k ≤ 32657 := fun i k => abs_le.mp (whtRow_bound h k.isLt)
  have t : ∀ (i k : Fin 4), (BitVec.ofInt 16 (whtRow input i k)).toInt = whtRow input i k := fun i k => toInt_ofInt16 (by have := hb i k; omega)
  have hs := sseWhtSums_dwords (x0 := (sseWhtFirst input).1) (x2 := (sseWhtFirst input).2) (m := fun i k => whtRow input i k)
    (fun i => by rw [(hf i).1]; exact t i 0) (fun i => by rw [(hf i).2.1]; exact t i 1) (fun i => by rw [(hf i).2.2.1]; exact t i 3) (fun i => by rw [(hf i).2.2.2]; exact t i 2)
  set S := sseWhtSums (sseWhtFirst input).1 (sseWhtFirst input).2 with hS
  have hm : ∀ j : Fin 4, -32657 ≤ whtRow input 0 j ∧ whtRow input 0 j ≤ 32657 ∧ -32657 ≤ whtRow input 1 j ∧ whtRow input 1 j ≤ 32657 ∧
      -32657 ≤ whtRow input 2 j ∧ whtRow input 2 j ≤ 32657 ∧ -32657 ≤ whtRow input 3 j ∧ whtRow input 3 j ≤ 32657 := fun j =>
    ⟨(hb 0 j).1, (hb 0 j).2, (hb 1 j).1, (hb 1 j).2, (hb 2 j).1, (hb 2 j).2, (hb 3 j).1, (hb 3 j).2⟩
  have pull : ∀ (a b : Reg) (j : Fin 4), (if j.val < 2 then sseWhtRound a else sseWhtRound b) = sseWhtRound (if j.val < 2 then a else b) := by
    intro a b j; split <;> rfl
  have hp := sseWhtPack_words (x0 := sseWhtRound S.1) (x1 := sseWhtRound S.2.1) (x2 := sseWhtRound S.2.2.1) (x3 := sseWhtRound S.2.2.2)
    (f := fun k j => whtRound (match k with
      | 0 => whtRow input 0 j + whtRow input 2 j + (whtRow input 1 j + whtRow input 3 j)
      | 1 => whtRow input 0 j - whtRow input 2 j + (whtRow input 1 j - whtRow input 3 j)
      | 2 => whtRow input 0 j - whtRow input 2 j - (whtRow input 1 j - whtRow input 3 j)
      | 3 => whtRow input 0 j + whtRow input 2 j - (whtRow input 1 j + whtRow input 3 j)))
    (fun j => by rw [pull]; exact dword_sseWhtRound (hs j).1 (by have := hm j; rw [abs_le]; constructor <;> simp <;> omega))
    (fun j => by rw [pull]; exact dword_sseWhtRound (hs j).2.1 (by have := hm j; rw [abs_le]; constructor <;> simp <;> omega))
    (fun j => by rw [pull]; exact dword_sseWhtRound (hs j).2.2.1 (by have := hm j; rw [abs_le]; constructor <;> simp <;> omega))
    (fun j => by rw [pull]; exact dword_sseWhtRound (hs j).2.2.2 (by have := hm j; rw [abs_le]; constructor <;> simp <;> omega))
    ⟨i.val / 4, by omega⟩ ⟨i.val % 4, by omega⟩
  have e : sseWht input i = (word (if i.val / 4 < 2 then (sseWhtPack (sseWhtRound S.1) (sseWhtRound S.2.1) (sseWhtRound S.2.2.1) (sseWhtRound S.2.2.2)).1
      else (sseWhtPack (sseWhtRound S.1) (sseWhtRound S.2.1) (sseWhtRound S.2.2.1) (sseWhtRound S.2.2.2)).2) (4 * (i.val / 4 % 2) + i.val % 4)).toInt := by
    unfold sseWht
    by_cases hi : i.val < 8
    · rw [if_pos (show i.val / 4 < 2 by omega), show 4 * (i.val / 4 % 2) + i.val % 4 = i.val by omega]
      exact if_pos hi
    · rw [if_neg (show ¬ i.val / 4 < 2 by omega), show 4 * (i.val / 4 % 2) + i.val % 4 = i.val - 8 by omega]
      exact if_neg hi
  rw [e, hp, toInt_ofInt_16]
  unfold wht
  have e' : ∀ q : Fin 4, at16 (whtIntermediate input) (i.val % 4 + 4 * q.val) = whtRow input q (i.val % 4) := by
    intro q
    rw [at16, dif_pos (by omega), whtIntermediate]
    congr 1 <;> simp <;> omega
  have e0 := e' 0; have e1 := e' 1; have e2 := e' 2; have e3 := e' 3
  simp at e0 e1 e2 e3
  simp only [Nat.add_zero, e0, e1, e2, e3]
  have hj := hm ⟨i.val % 4, by omega⟩
  simp only at hj
  have sat : ∀ x : Int, |x| ≤ 130628 → saturate 16 (whtRound x) = whtRound x := fun x hx => by
    have h1 := whtRound_bound hx
    have h2 := abs_nonneg (whtRound x)
    have h3 := abs_le.mp (show |whtRound x| ≤ 16329 by omega)
    exact saturate_of_fits (by omega)
  have hk : i.val / 4 = 0 ∨ i.val / 4 = 1 ∨ i.val / 4 = 2 ∨ i.val / 4 = 3 := by omega
  rcases hk with hk | hk | hk | hk <;> simp only [hk] <;> congr 1 <;> apply sat <;> rw [abs_le] <;> constructor <;> omega

theorem iwhtSum_eq {c : Fin 16 → Int} (h : Fits walshLine c) (column row : Fin 4) : iwhtSum c column row = both walshLine c column row := by
  have e := fun k => iwhtIntermediate_eq h k row
  have e0 := e 0
  have e1 := e 1
  have e2 := e 2
  have e3 := e 3
  simp at e0 e1 e2 e3
  unfold iwhtSum
  simp only [e0, e1, e2, e3, Nat.add_zero]
  unfold both
  fin_cases column <;> simp only [walshLine] <;> omega

theorem idctSum_eq {c : Fin 16 → Int} (h : Fits line c) (column row : Fin 4) : idctSum c column row = both line c column row := by
  have e := idctIntermediate_eq h
  have e0 := e 0 row
  have e1 := e 1 row
  have e2 := e 2 row
  have e3 := e 3 row
  simp at e0 e1 e2 e3
  unfold idctSum
  have : ∀ k, row.val + k = k + row.val := fun k => Nat.add_comm _ _
  simp only [this, e0, e1, e2, e3, Nat.zero_add, mul35468_eq, mul20091_eq]
  unfold both
  fin_cases column <;> rfl

/-- The inverse Walsh transform is the same with and without SSE2, as long as the numbers that are rounded fit in 16 bits after either pass. -/
theorem C85_iwht_partial {c : Fin 16 → Int} (h : Fits walshLine c) (hb : ∀ column row, -32768 ≤ both walshLine c column row + 3 ∧ both walshLine c column row + 3 ≤ 32767) :
    sseIwht c = iwht c ∧ sseIwht c = walsh c := by
  have e : sseIwht c = walsh c := by
    funext column row
    rw [sseIwht_of_sum, iwhtSum_eq h, toInt16_of_fits (hb column row), shr3, walsh]
  refine ⟨?_, e⟩
  rw [e]
  funext column row
  exact (iwht_eq h column row).symm

/-- Adding the inverse cosine transform to a block gives the same with and without MMX, as long as the numbers that are rounded fit in 16 bits after either pass. -/
theorem C85_idct_partial {c : Fin 16 → Int} (hc : ∀ i, -32768 ≤ c i ∧ c i ≤ 32767) (h : Fits line c)
    (hb : ∀ column row, -32768 ≤ both line c column row + 4 ∧ both line c column row + 4 ≤ 32767) :
    (∀ old : Square 4, sseIdctAdd c old = fun column row => UInt8.ofNat (IntraSpec.limited ((old column row).toNat + residue c column row))) ∧
    ∀ (p : Plane) (x y : Nat), idctAdd c p x y = (p.getSquare 4 x y).bind fun old => p.putSquare x y (sseIdctAdd c old) := by
  have e : ∀ old : Square 4, sseIdctAdd c old = fun column row => clamp255 ((old column row).toNat + idct c column row) := fun old => by
    funext column row
    rw [sseIdctAdd_of_sum hc, idctSum_eq h, toInt16_of_fits (hb column row), idct_eq h, shr3, residue]
  refine ⟨fun old => ?_, fun p x y => ?_⟩
  · rw [e]
    funext column row
    rw [idct_eq h, clamp255_eq, IntraSpec.limited]
  · unfold idctAdd
    refine congrArg (p.getSquare 4 x y).bind ?_
    funext old
    rw [e]

/-- Every block that has its own DC coefficient is encoded and reconstructed the same way with and without vector instructions. -/
theorem C85_encoder (block prediction : Square 4) {dc ac : Nat} (hd : 0 < dc) (ha : 0 < ac) :
    ∃ z, quantize dc ac (sseSubtractDct block prediction) = some z ∧ quantize dc ac (subtractDct block prediction) = some z ∧
      ∀ (p : Plane) (x y : Nat), idctAdd (dequantize dc ac z) p x y = (p.getSquare 4 x y).bind fun old => p.putSquare x y (sseIdctAdd (sseDequantize dc ac z) old) := by
  have hb := C41_forward_range block prediction
  obtain ⟨z, hz, -⟩ := C42_error hd ha (c := subtractDct block prediction) (fun i => by have := abs_le.1 (hb i); omega)
  obtain ⟨-, -, hs⟩ := dequantized_close hd ha (fun i => by have := abs_le.1 (hb i); omega) hz
  refine ⟨z, by rw [C85_subtractDct, hz], hz, ?_⟩
  obtain ⟨h1, h2, h3⟩ := both_range (c := dequantize dc ac z) ((hs 0).trans ((hb 0).trans (by norm_num))) (fun i _ => (hs i).trans (hb i))
  rw [C85_dequantize]
  exact (C85_idct_partial h1 h2 h3).2

/-- So are the sixteen luma blocks that share a Walsh transform of their DC coefficients. -/
theorem C85_encoder_walsh {q : Quantizer} (hq : q.InRange) (block prediction : Fin 16 → Square 4) :
    ∃ z, quantize q.y2Dc q.y2Ac (sseWht fun k => sseSubtractDct (block k) (prediction k) 0) = some z ∧
      quantize q.y2Dc q.y2Ac (wht fun k => subtractDct (block k) (prediction k) 0) = some z ∧
      sseIwht (sseDequantize q.y2Dc q.y2Ac z) = iwht (dequantize q.y2Dc q.y2Ac z) ∧
      ∀ k : Fin 16, ∃ c, quantize q.yDc q.yAc (Function.update (sseSubtractDct (block k) (prediction k)) 0 0) = some c ∧
        quantize q.yDc q.yAc (Function.update (subtractDct (block k) (prediction k)) 0 0) = some c ∧
        ∀ column row, ∀ (p : Plane) (x y : Nat),
          idctAdd (Function.update (dequantize q.yDc q.yAc c) 0 (iwht (dequantize q.y2Dc q.y2Ac z) column row)) p x y =
            (p.getSquare 4 x y).bind fun old => p.putSquare x y
              (sseIdctAdd (Function.update (sseDequantize q.yDc q.yAc c) 0 (sseIwht (sseDequantize q.y2Dc q.y2Ac z) column row)) old) := by
  have b2 := hq.y2Dc
  have b3 := hq.y2Ac
  have b4 := hq.yDc
  have b5 := hq.yAc
  have hs : ∀ k i, |subtractDct (block k) (prediction k) i| ≤ 2041 := fun k => C41_forward_range (block k) (prediction k)
  have hsmall : ∀ i, |wht (fun k => subtractDct (block k) (prediction k) 0) i| ≤ 16335 := fun i => by
    rw [Int.abs_eq_natAbs]
    have := wht_small (input := fun k => subtractDct (block k) (prediction k) 0) (fun k => subtractDct_small _ _ _) i
    omega
  obtain ⟨z, hz, -⟩ := C42_error (by omega : 0 < q.y2Dc) (by omega : 0 < q.y2Ac) (c := wht fun k => subtractDct (block k) (prediction k) 0)
    (fun i => by have := abs_le.1 (hsmall i); omega)
  obtain ⟨kk, k1, k2, -⟩ := C41_encoder_walsh (input := fun k => subtractDct (block k) (prediction k) 0) (fun k => hs k 0) (by omega : 0 < q.y2Dc) (by omega : 0 < q.y2Ac)
  unfold kept at k1
  rw [hz] at k1
  cases k1
  obtain ⟨e1, e2, -⟩ := dequantized_close (by omega) (by omega) (fun i => by have := abs_le.1 (hsmall i); omega) hz
  have hw : ∀ column row, -23240 ≤ 8 * walsh (dequantize q.y2Dc q.y2Ac z) column row ∧ 8 * walsh (dequantize q.y2Dc q.y2Ac z) column row ≤ 23240 := fun column row => by
    have := walsh_close (r := fun k => subtractDct (block k) (prediction k) 0) (fun k => hs k 0) e1 e2 column row
    have hr : |entry (fun k => subtractDct (block k) (prediction k) 0) column row| ≤ 2041 := hs _ 0
    have := abs_le.mp hr
    unfold OffBy at *
    omega
  have hi : sseIwht (dequantize q.y2Dc q.y2Ac z) = iwht (dequantize q.y2Dc q.y2Ac z) := (C85_iwht_partial k2 fun column row => by
    have := hw column row
    unfold walsh at this
    omega).1
  refine ⟨z, ?_, hz, by rw [C85_dequantize, hi], fun k => ?_⟩
  · rw [C85_wht (fun i => by rw [C85_subtractDct]; exact hs i 0)]
    simp only [C85_subtractDct]
    exact hz
  · have hup : ∀ i, |Function.update (subtractDct (block k) (prediction k)) 0 0 i| ≤ 2041 := fun i => by
      by_cases hi : i = 0
      · subst hi; rw [Function.update_self]; decide
      · rw [Function.update_of_ne hi]; exact hs k i
    obtain ⟨c, hc, -⟩ := C42_error (by omega : 0 < q.yDc) (by omega : 0 < q.yAc) (c := Function.update (subtractDct (block k) (prediction k)) 0 0)
      (fun i => by have := abs_le.1 (hup i); omega)
    obtain ⟨-, -, f3⟩ := dequantized_close (by omega) (by omega) (fun i => by have := abs_le.1 (hup i); omega) hc
    refine ⟨c, by rw [C85_subtractDct, hc], hc, fun column row => ?_⟩
    obtain ⟨h1, h2, h3⟩ := both_range (c := Function.update (dequantize q.yDc q.yAc c) 0 (iwht (dequantize q.y2Dc q.y2Ac z) column row)) (by
      rw [Function.update_self, iwht_eq k2, abs_le]
      have := hw column row
      omega) (fun i hi => by rw [Function.update_of_ne hi]; exact (f3 i).trans (hup i))
    rw [C85_dequantize, C85_dequantize, hi]
    exact (C85_idct_partial h1 h2 h3).2

/-- The coefficients with the first two tokens given, and no others. -/
def twoTokens (a b : Int) (i : Fin 16) : Int := if i = 0 then a else if i = 1 then b else 0

/-- What fails: some tokens that a frame may hold give other pixels with SSE2 than without, as sums that the portable code keeps in 32 bits
are kept in 16. -/
theorem C85_iwht_differs : ∃ (z : Fin 16 → Int), (∀ i, |z i| ≤ 2048) ∧ Fits walshLine (dequantize 314 440 z) ∧
    iwht (dequantize 314 440 z) 0 0 = 4830 ∧ sseIwht (sseDequantize 314 440 z) 0 0 = -3362 := by
  refine ⟨twoTokens 60 45, by decide +kernel, by unfold Fits; decide +kernel, by decide +kernel, ?_⟩
  rw [C85_dequantize, sseIwht_of_sum]
  decide +kernel

/-- The same for the cosine transform and MMX: the portable code makes the pixel white, the other makes it black. -/
theorem C85_idct_differs : ∃ (z : Fin 16 → Int), (∀ i, |z i| ≤ 2048) ∧ Fits line (dequantize 157 284 z) ∧
    (∀ v : UInt8, clamp255 (v.toNat + idct (dequantize 157 284 z) 0 0) = 255) ∧ sseIdctAdd (sseDequantize 157 284 z) (fun _ _ => 0) 0 0 = 0 := by
  refine ⟨twoTokens 127 70, by decide +kernel, by unfold Fits; decide +kernel, ?_, ?_⟩
  · have e : idct (dequantize 157 284 (twoTokens 127 70)) 0 0 = 5739 := by decide +kernel
    intro v
    rw [e]
    have := v.toNat_lt
    unfold clamp255
    rw [if_neg (by omega), if_pos (by omega)]
  · rw [C85_dequantize, sseIdctAdd_of_sum (by decide +kernel)]
    decide +kernel

/-- The hypotheses are met by coefficients of which none is zero, and the transforms with them are not trivial. -/
example : let c : Fin 16 → Int := fun i => 300 - 37 * i
    (∀ i, |c i| ≤ 2041) ∧ sseWht c 0 = 180 ∧ sseIwht c = iwht c ∧ iwht c 0 1 = 296 ∧
    sseIdctAdd c (fun _ _ => 100) 0 0 = 216 ∧ sseSubtractDct (fun x y => UInt8.ofNat (20 * x + 30 * y)) (fun _ _ => 7) 0 = 544 := by
  intro c
  have hc : ∀ i, |c i| ≤ 2041 := by decide +kernel
  have hi := (C85_iwht_partial (c := c) (C41_iwht_range (by decide +kernel)) (by decide +kernel)).1
  obtain ⟨h1, h2, h3⟩ := both_range (c := c) ((hc 0).trans (by norm_num)) (fun i _ => hc i)
  refine ⟨hc, by rw [C85_wht hc]; decide +kernel, hi, by decide +kernel, by rw [(C85_idct_partial h1 h2 h3).1]; decide +kernel, by rw [C85_subtractDct]; decide +kernel⟩

end Alfalfa
