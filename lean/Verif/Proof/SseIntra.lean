import Verif.Model.SseIntra
import Verif.Proof.SseInter
import Verif.Proof.Intra
import Mathlib.Data.Nat.Bitwise
import Mathlib.Algebra.Order.BigOperators.Group.Finset
import Mathlib.Algebra.BigOperators.Fin

/-! The intra predictors for vectors, lane by lane. -/

namespace Alfalfa
open Sse

theorem ofBytes (x : UInt8) : (⟨x.toBitVec⟩ : UInt8) = x := rfl

theorem Edge.aboveStorage_at {n m : Nat} (e : Edge n m) (rest : Int → UInt8) (i : Nat) (h : i < m) : e.aboveStorage rest i = e.above ⟨i, h⟩ := by
  unfold Edge.aboveStorage
  rw [if_neg (by omega), dif_pos (by omega)]
  rfl

theorem Edge.aboveStorage_corner {n m : Nat} (e : Edge n m) (rest : Int → UInt8) : e.aboveStorage rest (-1) = e.corner := rfl

theorem Edge.leftStorage_at {n m : Nat} (e : Edge n m) (rest : Int → UInt8) (i : Nat) (h : i < n) : e.leftStorage rest i = e.left ⟨i, h⟩ := by
  unfold Edge.leftStorage
  rw [dif_pos (by omega)]
  rfl

theorem toBitVec_toNat (x : UInt8) : x.toBitVec.toNat = x.toNat := rfl

/-! ### Means -/

theorem word_low {r : Reg} {s : Nat} (h : dword r 0 = BitVec.ofNat 32 s) : word r 0 = BitVec.ofNat 16 s := by
  have e : (dword r 0).setWidth 16 = word r 0 := by
    unfold dword
    ext k hk
    simp only [BitVec.getElem_setWidth, BitVec.getLsbD_append]
    rw [if_pos (by omega)]
    exact BitVec.getLsbD_eq_getElem hk
  rw [← e, h]
  apply BitVec.eq_of_toNat_eq
  simp

/-- The sum of the lower and of the upper eight bytes. -/
theorem sad_zero (a : Reg) (i : Nat) (h : i % 2 = 0) : dword (psadbw a zero) i = BitVec.ofNat 32 ((List.range 8).map fun j => (a (4 * i + j)).toNat).sum := by
  unfold psadbw
  rw [dword_ofDwords, if_pos h]
  congr 3
  funext j
  simp [zero]

theorem word_mean {r : Reg} {s c k : Nat} (h : word r 0 = BitVec.ofNat 16 s) (hs : s + c < 32768) :
    word (psraw (paddw r (wordsOf c)) k) 0 = BitVec.ofNat 16 ((s + c) >>> k) := by
  rw [word_psraw, word_paddw, h, wordsOf, word_ofWords, ← BitVec.ofNat_add]
  apply BitVec.eq_of_toInt_eq
  rw [BitVec.toInt_sshiftRight]
  have e1 : (BitVec.ofNat 16 (s + c)).toInt = ((s + c : Nat) : Int) := by
    rw [BitVec.toInt_eq_toNat_of_lt] <;> simp [Nat.mod_eq_of_lt (show s + c < 65536 by omega)]; omega
  have hle : (s + c) >>> k ≤ s + c := by rw [Nat.shiftRight_eq_div_pow]; exact Nat.div_le_self _ _
  have e2 : (BitVec.ofNat 16 ((s + c) >>> k)).toInt = (((s + c) >>> k : Nat) : Int) := by
    rw [BitVec.toInt_eq_toNat_of_lt] <;> simp [Nat.mod_eq_of_lt (show (s + c) >>> k < 65536 by omega)]; omega
  rw [e1, e2]
  rfl

theorem byte_low {r : Reg} {v : Nat} (h : word r 0 = BitVec.ofNat 16 v) : r 0 = BitVec.ofNat 8 v := by
  have e : (word r 0).setWidth 8 = r 0 := by
    unfold word
    ext k hk
    simp only [BitVec.getElem_setWidth, BitVec.getLsbD_append]
    rw [if_pos (by omega)]
    exact BitVec.getLsbD_eq_getElem hk
  rw [← e, h]
  apply BitVec.eq_of_toNat_eq
  simp

theorem saturateU_small {v : Nat} (h : v < 256) : BitVec.ofInt 8 (saturateU 8 (BitVec.ofNat 16 v).toInt) = BitVec.ofNat 8 v := by
  have e : (BitVec.ofNat 16 v).toInt = (v : Int) := by
    rw [BitVec.toInt_eq_toNat_of_lt] <;> simp [Nat.mod_eq_of_lt (show v < 65536 by omega)]; omega
  rw [e, show saturateU 8 (v : Int) = (v : Int) by unfold saturateU; norm_num; omega]
  rfl

/-- The value of the lowest word in each byte: for 4x4 blocks. -/
theorem spread4 {r : Reg} {v : Nat} (h : word r 0 = BitVec.ofNat 16 v) (hv : v < 256) {j : Nat} (hj : j < 4) :
    packuswb (pshuflw r 0) (pshuflw r 0) j = BitVec.ofNat 8 v := by
  unfold packuswb
  rw [if_pos (by omega), word_pshuflw, if_pos (by omega)]
  norm_num
  rw [h, saturateU_small hv]

/-- For 8x8 blocks. -/
theorem spread8 {r : Reg} {v : Nat} (h : word r 0 = BitVec.ofNat 16 v) {j : Nat} (hj : j < 8) :
    pshuflw (punpckl 1 r r) 0 j = BitVec.ofNat 8 v := by
  unfold pshuflw punpckl
  rw [if_pos (by omega)]
  norm_num
  rw [← byte_low h]
  congr 1
  omega

/-- For 16x16 blocks. -/
theorem spread16 {r : Reg} {v : Nat} (h : word r 0 = BitVec.ofNat 16 v) (hv : v < 256) {j : Nat} (hj : j < 16) :
    packuswb (punpckl 8 (pshuflw r 0) (pshuflw r 0)) (punpckl 8 (pshuflw r 0) (pshuflw r 0)) j = BitVec.ofNat 8 v := by
  have hw : ∀ i, i < 8 → word (punpckl 8 (pshuflw r 0) (pshuflw r 0)) i = BitVec.ofNat 16 v := fun i hi => by
    rw [word_punpcklqdq]
    simp only [ite_self]
    rw [word_pshuflw, if_pos (by omega)]
    norm_num
    exact h
  unfold packuswb
  split
  · rw [hw _ (by omega), saturateU_small hv]
  · rw [hw _ (by omega), saturateU_small hv]

theorem edgeSum {n : Nat} (f : Fin n → UInt8) : pixelSum f ≤ 255 * n := by
  rw [pixelSum_eq]
  calc ∑ i, (f i).toNat ≤ ∑ _ : Fin n, 255 := Finset.sum_le_sum fun i _ => by have := (f i).toNat_lt; omega
    _ = 255 * n := by simp [Nat.mul_comm]

/-- The lower eight bytes of a register. -/
theorem sad_word (a : Reg) : word (psadbw a zero) 0 = BitVec.ofNat 16 ((List.range 8).map fun j => (a j).toNat).sum := by
  have h := word_low (sad_zero a 0 (by decide))
  rw [h]
  simp only [Nat.mul_zero, Nat.zero_add]

/-- The upper eight bytes. -/
theorem sad_word_high (a : Reg) : word (psadbw a zero) 4 = BitVec.ofNat 16 ((List.range 8).map fun j => (a (8 + j)).toNat).sum := by
  have h := sad_zero a 2 (by decide)
  have e : word (psadbw a zero) 4 = word (fun j => psadbw a zero (j + 8)) 0 := rfl
  rw [e]
  apply word_low
  exact h

variable {m : Nat}

theorem pixelSum4 (f : Fin 4 → UInt8) : pixelSum f = (f 0).toNat + (f 1).toNat + (f 2).toNat + (f 3).toNat := by
  rw [pixelSum_eq, Fin.sum_univ_four]

theorem pixelSum8 (f : Fin 8 → UInt8) : pixelSum f = (f 0).toNat + (f 1).toNat + (f 2).toNat + (f 3).toNat + (f 4).toNat + (f 5).toNat + (f 6).toNat + (f 7).toNat := by
  rw [pixelSum_eq, Fin.sum_univ_eight]

/-- What is read of the edge. -/
theorem bytesAt_above {n : Nat} (e : Edge n m) (rest : Int → UInt8) {j : Nat} (h : j < m) : bytesAt (e.aboveStorage rest) 0 j = (e.above ⟨j, h⟩).toBitVec := by
  unfold bytesAt
  rw [Int.zero_add, Edge.aboveStorage_at _ _ _ h]

theorem bytesAt_left {n : Nat} (e : Edge n m) (rest : Int → UInt8) {j : Nat} (h : j < n) : bytesAt (e.leftStorage rest) 0 j = (e.left ⟨j, h⟩).toBitVec := by
  unfold bytesAt
  rw [Int.zero_add, Edge.leftStorage_at _ _ _ h]

theorem sum8 (g : Nat → Nat) : ((List.range 8).map g).sum = g 0 + g 1 + g 2 + g 3 + g 4 + g 5 + g 6 + g 7 := by
  simp [List.range_succ]; omega

/-- Eight bytes added up. -/
theorem sad8 {a : Reg} {f : Fin 8 → UInt8} (h : ∀ j : Fin 8, a j.val = (f j).toBitVec) : word (psadbw a zero) 0 = BitVec.ofNat 16 (pixelSum f) := by
  rw [sad_word, sum8, pixelSum8]
  simp only [← toBitVec_toNat, ← h]
  rfl

theorem sad8_high {a : Reg} {f : Fin 8 → UInt8} (h : ∀ j : Fin 8, a (8 + j.val) = (f j).toBitVec) : word (psadbw a zero) 4 = BitVec.ofNat 16 (pixelSum f) := by
  rw [sad_word_high, sum8, pixelSum8]
  simp only [← toBitVec_toNat, ← h]
  rfl

/-- Four bytes and four. -/
theorem pixelSum_append (f g : Fin 4 → UInt8) : pixelSum (Fin.append f g) = pixelSum f + pixelSum g := by
  rw [pixelSum_eq, pixelSum_eq, pixelSum_eq, Fin.sum_univ_add]
  simp only [Fin.append_left, Fin.append_right]

theorem pixelSum_zeros : pixelSum (fun _ : Fin 4 => (0 : UInt8)) = 0 := by decide

theorem pixelSum_halves (f : Fin 16 → UInt8) : pixelSum f = pixelSum (fun j : Fin 8 => f (Fin.castAdd 8 j)) + pixelSum (fun j : Fin 8 => f (Fin.natAdd 8 j)) := by
  rw [pixelSum_eq, pixelSum_eq, pixelSum_eq]
  exact Fin.sum_univ_add (a := 8) (b := 8) fun i : Fin (8 + 8) => (f i).toNat

/-- Four bytes of one register and four of another. -/
theorem append_bytes {a b : Reg} {f g : Fin 4 → UInt8} (ha : ∀ j : Fin 4, a j.val = (f j).toBitVec) (hb : ∀ j : Fin 4, b j.val = (g j).toBitVec) (j : Fin (4 + 4)) :
    punpckl 4 (movd a) (movd b) j.val = (Fin.append f g j).toBitVec := by
  induction j using Fin.addCases with
  | left i =>
    rw [Fin.append_left, ← ha i]
    have := i.2
    simp only [punpckl, movd, Fin.val_castAdd]
    rw [if_pos (by omega), if_pos (by omega)]
    congr 1; omega
  | right i =>
    rw [Fin.append_right, ← hb i]
    have := i.2
    simp only [punpckl, movd, Fin.val_natAdd]
    rw [if_neg (by omega), if_pos (by omega)]
    congr 1; omega

theorem low_bytes {a : Reg} {f : Fin 4 → UInt8} (ha : ∀ j : Fin 4, a j.val = (f j).toBitVec) (j : Fin (4 + 4)) : movd a j.val = (Fin.append f (fun _ : Fin 4 => (0 : UInt8)) j).toBitVec := by
  induction j using Fin.addCases with
  | left i =>
    rw [Fin.append_left, ← ha i]
    have := i.2
    simp only [movd, Fin.val_castAdd]
    rw [if_pos (by omega)]
  | right i =>
    rw [Fin.append_right]
    simp only [movd, Fin.val_natAdd]
    rw [if_neg (by omega)]
    rfl

theorem dcPred4_eq (e : Edge 4 8) (r r' : Int → UInt8) : dcPred4 (e.aboveStorage r) (e.leftStorage r') = dcSimple (by decide) 2 e := by
  funext c k
  have ha := edgeSum (e.up (by decide))
  have hl := edgeSum e.left
  have hs := sad8 (append_bytes (f := e.up (by decide)) (g := e.left) (fun j => bytesAt_above e r (by omega)) (fun j => bytesAt_left e r' j.2))
  rw [pixelSum_append] at hs
  have hv : (pixelSum (e.up (by decide)) + pixelSum e.left + 4) >>> 3 < 256 := by rw [Nat.shiftRight_eq_div_pow]; omega
  exact congrArg UInt8.ofBitVec (spread4 (word_mean (c := 4) (k := 3) hs (by omega)) hv (j := c.val) c.2)

theorem dcPred8_eq (e : Edge 8 8) (r r' : Int → UInt8) : dcPred8 (e.aboveStorage r) (e.leftStorage r') = dcSimple (Nat.le_refl 8) 3 e := by
  funext c k
  have ha := edgeSum (e.up (Nat.le_refl 8))
  have hl := edgeSum e.left
  have h1 := sad8 (a := movq (bytesAt (e.aboveStorage r) 0)) (f := e.up (Nat.le_refl 8)) (fun j => by rw [movq, if_pos j.2, bytesAt_above e r j.2]; rfl)
  have h2 := sad8 (a := movq (bytesAt (e.leftStorage r') 0)) (f := e.left) (fun j => by rw [movq, if_pos j.2, bytesAt_left e r' j.2])
  have hs : word (paddw (psadbw (movq (bytesAt (e.aboveStorage r) 0)) zero) (psadbw (movq (bytesAt (e.leftStorage r') 0)) zero)) 0 = BitVec.ofNat 16 (pixelSum (e.up (Nat.le_refl 8)) + pixelSum e.left) := by
    rw [word_paddw, h1, h2, BitVec.ofNat_add]
  exact congrArg UInt8.ofBitVec (spread8 (word_mean (c := 8) (k := 4) hs (by omega)) (j := c.val) c.2)

theorem dcOne8_eq {f : Fin 8 → UInt8} {g : Int → UInt8} (h : ∀ j : Fin 8, bytesAt g 0 j.val = (f j).toBitVec) : dcOne8 g = fun _ _ => UInt8.ofNat ((pixelSum f + (1 <<< (3 - 1))) >>> 3) := by
  funext c k
  have ha := edgeSum f
  have hs := sad8 (a := movq (bytesAt g 0)) (f := f) (fun j => by rw [movq, if_pos j.2, h])
  exact congrArg UInt8.ofBitVec (spread8 (word_mean (c := 4) (k := 3) hs (by omega)) (j := c.val) c.2)

theorem dcOne4_eq {f : Fin 4 → UInt8} {g : Int → UInt8} (h : ∀ j : Fin 4, bytesAt g 0 j.val = (f j).toBitVec) : dcOne4 g = fun _ _ => UInt8.ofNat ((pixelSum f + (1 <<< (2 - 1))) >>> 2) := by
  funext c k
  have ha := edgeSum f
  have hs := sad8 (low_bytes h)
  rw [pixelSum_append, pixelSum_zeros, Nat.add_zero] at hs
  have hv : (pixelSum f + 2) >>> 2 < 256 := by rw [Nat.shiftRight_eq_div_pow]; omega
  exact congrArg UInt8.ofBitVec (spread4 (word_mean (c := 2) (k := 2) hs (by omega)) hv (j := c.val) c.2)

/-- Both halves added up. -/
theorem halves_word {a b : Reg} : word (paddw a (movhlps b a)) 0 = word a 0 + word a 4 := by
  rw [word_paddw]
  rfl

theorem dcPred16_eq (e : Edge 16 16) (r r' : Int → UInt8) : dcPred16 (e.aboveStorage r) (e.leftStorage r') = dcSimple (Nat.le_refl 16) 4 e := by
  funext c k
  have ha := edgeSum (e.up (Nat.le_refl 16))
  have hl := edgeSum e.left
  have h1 := sad8 (a := bytesAt (e.aboveStorage r) 0) (f := fun j => e.up (Nat.le_refl 16) (Fin.castAdd 8 j)) (fun j => bytesAt_above e r (by omega))
  have h2 := sad8 (a := bytesAt (e.leftStorage r') 0) (f := fun j => e.left (Fin.castAdd 8 j)) (fun j => bytesAt_left e r' (by omega))
  have h3 := sad8_high (a := bytesAt (e.aboveStorage r) 0) (f := fun j => e.up (Nat.le_refl 16) (Fin.natAdd 8 j)) (fun j => bytesAt_above e r (by omega))
  have h4 := sad8_high (a := bytesAt (e.leftStorage r') 0) (f := fun j => e.left (Fin.natAdd 8 j)) (fun j => bytesAt_left e r' (by omega))
  have hs : word (paddw (paddw (psadbw (bytesAt (e.aboveStorage r) 0) zero) (psadbw (bytesAt (e.leftStorage r') 0) zero)) (movhlps (bytesAt (e.leftStorage r') 0) (paddw (psadbw (bytesAt (e.aboveStorage r) 0) zero) (psadbw (bytesAt (e.leftStorage r') 0) zero)))) 0 =
      BitVec.ofNat 16 (pixelSum (e.up (Nat.le_refl 16)) + pixelSum e.left) := by
    rw [halves_word, word_paddw, word_paddw, h1, h2, h3, h4, pixelSum_halves, pixelSum_halves e.left, ← BitVec.ofNat_add, ← BitVec.ofNat_add, ← BitVec.ofNat_add]
    congr 1; omega
  have hv : (pixelSum (e.up (Nat.le_refl 16)) + pixelSum e.left + 16) >>> 5 < 256 := by rw [Nat.shiftRight_eq_div_pow]; omega
  exact congrArg UInt8.ofBitVec (spread16 (word_mean (c := 16) (k := 5) hs (by omega)) hv (j := c.val) c.2)

theorem dcOne16_eq {f : Fin 16 → UInt8} {g : Int → UInt8} (h : ∀ j : Fin 16, bytesAt g 0 j.val = (f j).toBitVec) (m2 : Reg) : dcOne16 g m2 = fun _ _ => UInt8.ofNat ((pixelSum f + (1 <<< (4 - 1))) >>> 4) := by
  funext c k
  have ha := edgeSum f
  have h1 := sad8 (a := bytesAt g 0) (f := fun j => f (Fin.castAdd 8 j)) (fun j => h (Fin.castAdd 8 j))
  have h3 := sad8_high (a := bytesAt g 0) (f := fun j => f (Fin.natAdd 8 j)) (fun j => h (Fin.natAdd 8 j))
  have hs : word (paddw (psadbw (bytesAt g 0) zero) (movhlps m2 (psadbw (bytesAt g 0) zero))) 0 = BitVec.ofNat 16 (pixelSum f) := by
    rw [halves_word, h1, h3, pixelSum_halves f, ← BitVec.ofNat_add]
  have hv : (pixelSum f + 8) >>> 4 < 256 := by rw [Nat.shiftRight_eq_div_pow]; omega
  exact congrArg UInt8.ofBitVec (spread16 (word_mean (c := 8) (k := 4) hs (by omega)) hv (j := c.val) c.2)

/-! ### Lines -/

theorem twice (a : Reg) (j : Nat) : punpckl 1 a a j = a (j / 2) := by
  unfold punpckl
  rw [ite_self]
  congr 1
  omega

theorem pshufd_one (a : Reg) {k j : Nat} (hk : k < 4) (hj : j < 16) : pshufd a (85 * k) j = a (4 * k + j % 4) := by
  unfold pshufd
  congr 2
  have hq : j / 4 = 0 ∨ j / 4 = 1 ∨ j / 4 = 2 ∨ j / 4 = 3 := by omega
  interval_cases k <;> rcases hq with h | h | h | h <;> rw [h]

theorem pshuflw_one (a : Reg) {k j : Nat} (hk : k < 4) (hj : j < 8) : pshuflw a (85 * k) j = a (2 * k + j % 2) := by
  unfold pshuflw
  rw [if_pos hj]
  congr 2
  have hq : j / 2 = 0 ∨ j / 2 = 1 ∨ j / 2 = 2 ∨ j / 2 = 3 := by omega
  interval_cases k <;> rcases hq with h | h | h | h <;> rw [h]

theorem hPred4_eq (e : Edge 4 8) (r : Int → UInt8) : hPred4 (e.leftStorage r) = horizontal e := by
  have h : ∀ k : Fin 4, ∀ j, j / 2 / 2 = k.val → punpckl 1 (punpckl 1 (movd (bytesAt (e.leftStorage r) 0)) (movd (bytesAt (e.leftStorage r) 0))) (punpckl 1 (movd (bytesAt (e.leftStorage r) 0)) (movd (bytesAt (e.leftStorage r) 0))) j = (e.left k).toBitVec := fun k j hj => by
    rw [twice, twice, hj, movd, if_pos k.2, bytesAt_left e r k.2]
  funext c k
  have hc := c.2
  refine congrArg UInt8.ofBitVec (a₂ := (e.left k).toBitVec) ?_
  generalize punpckl 1 (punpckl 1 (movd (bytesAt (e.leftStorage r) 0)) (movd (bytesAt (e.leftStorage r) 0))) (punpckl 1 (movd (bytesAt (e.leftStorage r) 0)) (movd (bytesAt (e.leftStorage r) 0))) = M at *
  have hd : ∀ imm, pshufd M imm c.val = M (4 * (imm % 4) + c.val) := fun imm => by
    unfold pshufd
    rw [show c.val / 4 = 0 by omega, Nat.mod_eq_of_lt hc, Nat.pow_zero, Nat.div_one]
  fin_cases k
  · exact h 0 _ (by show c.val / 2 / 2 = 0; omega)
  · exact (hd 1).trans (h 1 _ (by show (4 * (1 % 4) + c.val) / 2 / 2 = 1; omega))
  · exact (hd 2).trans (h 2 _ (by show (4 * (2 % 4) + c.val) / 2 / 2 = 2; omega))
  · exact (hd 3).trans (h 3 _ (by show (4 * (3 % 4) + c.val) / 2 / 2 = 3; omega))

theorem hPred8_eq (e : Edge 8 8) (r : Int → UInt8) : hPred8 (e.leftStorage r) = horizontal e := by
  have h : ∀ k : Fin 8, ∀ j, j / 2 = k.val → punpckl 1 (movq (bytesAt (e.leftStorage r) 0)) (movq (bytesAt (e.leftStorage r) 0)) j = (e.left k).toBitVec := fun k j hj => by
    rw [twice, hj, movq, if_pos k.2, bytesAt_left e r k.2]
  funext c k
  have hc := c.2
  refine congrArg UInt8.ofBitVec (a₂ := (e.left k).toBitVec) ?_
  generalize punpckl 1 (movq (bytesAt (e.leftStorage r) 0)) (movq (bytesAt (e.leftStorage r) 0)) = M at *
  have hd : ∀ j, j < 8 → pshufd M 0xe j = M (8 + j) := fun j hj => by
    unfold pshufd
    have hq : j / 4 = 0 ∨ j / 4 = 1 := by omega
    rcases hq with h | h <;> rw [h] <;> congr 1 <;> omega
  have low : ∀ i : Nat, ∀ k : Fin 8, i < 4 → k.val = i → pshuflw M (85 * i) c.val = (e.left k).toBitVec := fun i k hi hk => (pshuflw_one M hi hc).trans (h k _ (by omega))
  have high : ∀ i : Nat, ∀ k : Fin 8, i < 4 → k.val = 4 + i → pshuflw (pshufd M 0xe) (85 * i) c.val = (e.left k).toBitVec := fun i k hi hk =>
    (pshuflw_one (pshufd M 0xe) hi hc).trans ((hd _ (by omega)).trans (h k _ (by omega)))
  fin_cases k
  · exact low 0 0 (by decide) rfl
  · exact low 1 1 (by decide) rfl
  · exact low 2 2 (by decide) rfl
  · exact low 3 3 (by decide) rfl
  · exact high 0 4 (by decide) rfl
  · exact high 1 5 (by decide) rfl
  · exact high 2 6 (by decide) rfl
  · exact high 3 7 (by decide) rfl

theorem hPred16_eq (e : Edge 16 16) (r : Int → UInt8) : hPred16 (e.leftStorage r) = horizontal e := by
  funext c k
  have hc := c.2
  have hk := k.2
  refine congrArg UInt8.ofBitVec (a₂ := (e.left k).toBitVec) ?_
  have ha : bytesAt (e.leftStorage r) (4 * (k.val / 4 : Nat)) (k.val % 4) = (e.left k).toBitVec := by
    unfold bytesAt
    rw [show (4 * ((k.val / 4 : Nat) : Int) + ((k.val % 4 : Nat) : Int)) = (k.val : Int) by omega, Edge.leftStorage_at e r _ k.2]
  dsimp only
  rw [show (if k.val % 4 = 0 then 0 else if k.val % 4 = 1 then 0x55 else if k.val % 4 = 2 then 0xaa else 0xff) = 85 * (k.val % 4) by
    split <;> [skip; split <;> [skip; split]] <;> omega,
    pshufd_one _ (by omega) hc, twice, twice, movd, show (4 * (k.val % 4) + c.val % 4) / 2 / 2 = k.val % 4 by omega, if_pos (by omega), ha]

theorem sseVertical_eq {n m : Nat} (h : n ≤ m) (e : Edge n m) (r : Int → UInt8) : sseVertical n (e.aboveStorage r) = vertical h e := by
  funext c k
  exact congrArg UInt8.ofBitVec (bytesAt_above e r (by omega))

/-! ### True motion -/

theorem tmByte (l t c : UInt8) : BitVec.ofInt 8 (saturateU 8 ((l.toBitVec.setWidth 16 + (t.toBitVec.setWidth 16 - c.toBitVec.setWidth 16)).toInt)) =
    (clamp255 ((l.toNat : Int) + t.toNat - c.toNat)).toBitVec := by
  have h1 := l.toNat_lt; have h2 := t.toNat_lt; have h3 := c.toNat_lt
  rw [setWidth_ofInt, setWidth_ofInt, setWidth_ofInt, ofInt_sub', ← BitVec.ofInt_add, toBitVec_toNat, toBitVec_toNat, toBitVec_toNat, toInt_ofInt16 (by omega), clamp255_bits]
  congr 2
  omega

theorem word_pshuflw_one (a : Reg) {k i : Nat} (hk : k < 4) (hi : i < 4) : word (pshuflw a (85 * k)) i = word a k := by
  rw [word_pshuflw, if_pos hi]
  congr 1
  interval_cases k <;> interval_cases i <;> rfl

/-- The lower four words of `pshuflw` in both halves. -/
theorem word_spread (a : Reg) {k i : Nat} (hk : k < 4) (hi : i < 8) : word (punpckl 8 (pshuflw a (85 * k)) (pshuflw a (85 * k))) i = word a k := by
  rw [word_punpcklqdq, ite_self, word_pshuflw_one a hk (by omega)]

theorem shifted (a : Reg) (b : Nat) : ∀ n i : Nat, i + b * n < 8 → word ((fun r => psrldq r (2 * b))^[n] a) i = word a (i + b * n)
  | 0, i, _ => rfl
  | n + 1, i, h => by
    rw [Function.iterate_succ', Function.comp, word_psrldq _ _ _ (by rw [Nat.mul_add] at h; omega), shifted a b n (i + b) (by rw [Nat.mul_add] at h; omega)]
    congr 1
    rw [Nat.mul_add]; omega

theorem bytesAt_before {n : Nat} (e : Edge n m) (rest : Int → UInt8) : bytesAt (e.aboveStorage rest) (-1) 0 = e.corner.toBitVec := rfl

theorem bytesAt_after {n : Nat} (e : Edge n m) (rest : Int → UInt8) {j : Nat} (h : j < m) : bytesAt (e.aboveStorage rest) (-1) (j + 1) = (e.above ⟨j, h⟩).toBitVec := by
  unfold bytesAt
  rw [show (-1 + ((j + 1 : Nat) : Int)) = j by omega, Edge.aboveStorage_at _ _ _ h]

theorem tmPred4_eq (e : Edge 4 8) (r r' : Int → UInt8) : tmPred4 (e.aboveStorage r) (e.leftStorage r') = trueMotion (by decide) e := by
  funext c k
  have hc := c.2
  refine congrArg UInt8.ofBitVec (a₂ := (clamp255 ((e.left k).toNat + (e.up (by decide) c).toNat - e.corner.toNat)).toBitVec) ?_
  rw [← tmByte]
  have h0 : word (punpckl 1 (movq (bytesAt (e.aboveStorage r) (-1))) zero) 0 = e.corner.toBitVec.setWidth 16 := by
    rw [word_punpckl1_zero, movq, if_pos (by omega), bytesAt_before]
  have h1 : word (punpckl 1 (movq (bytesAt (e.aboveStorage r) (-1))) zero) (c.val + 1) = (e.up (by decide) c).toBitVec.setWidth 16 := by
    rw [word_punpckl1_zero, movq, if_pos (by omega), bytesAt_after e r (show c.val < 8 by omega)]
    rfl
  have h2 : ∀ k : Fin 4, word (punpckl 1 (movd (bytesAt (e.leftStorage r') 0)) zero) k.val = (e.left k).toBitVec.setWidth 16 := fun k => by
    rw [word_punpckl1_zero, movd, if_pos (by omega), bytesAt_left e r' k.2]
  dsimp only
  generalize punpckl 1 (movq (bytesAt (e.aboveStorage r) (-1))) zero = A at *
  generalize punpckl 1 (movd (bytesAt (e.leftStorage r') 0)) zero = B at *
  have hd : word (psubw (psrldq A 2) (pshuflw A 0)) c.val = (e.up (by decide) c).toBitVec.setWidth 16 - e.corner.toBitVec.setWidth 16 := by
    rw [word_psubw, show psrldq A 2 = psrldq A (2 * 1) from rfl, word_psrldq A 1 c.val (by omega), show pshuflw A 0 = pshuflw A (85 * 0) from rfl, word_pshuflw_one A (by decide) hc, h0, h1]
  have line : ∀ k : Fin 4, packuswb (paddw (pshuflw B (85 * k.val)) (psubw (psrldq A 2) (pshuflw A 0))) (paddw (pshuflw B (85 * k.val)) (psubw (psrldq A 2) (pshuflw A 0))) c.val =
      BitVec.ofInt 8 (saturateU 8 (((e.left k).toBitVec.setWidth 16 + ((e.up (by decide) c).toBitVec.setWidth 16 - e.corner.toBitVec.setWidth 16)).toInt)) := fun k => by
    unfold packuswb
    rw [if_pos (by omega), word_paddw, hd, word_pshuflw_one B k.2 hc, h2]
  fin_cases k
  · exact line 0
  · exact line 1
  · exact line 2
  · exact line 3

theorem tmPred8_eq (e : Edge 8 8) (r r' : Int → UInt8) : tmPred8 (e.aboveStorage r) (e.leftStorage r') = trueMotion (Nat.le_refl 8) e := by
  funext c k
  have hc := c.2
  have hk := k.2
  refine congrArg UInt8.ofBitVec (a₂ := (clamp255 ((e.left k).toNat + (e.up (Nat.le_refl 8) c).toNat - e.corner.toNat)).toBitVec) ?_
  rw [← tmByte]
  have h0 : word (punpckl 1 (movd (bytesAt (e.aboveStorage r) (-1))) zero) 0 = e.corner.toBitVec.setWidth 16 := by
    rw [word_punpckl1_zero, movd, if_pos (by omega), bytesAt_before]
  have h1 : word (punpckl 1 (movq (bytesAt (e.aboveStorage r) 0)) zero) c.val = (e.up (Nat.le_refl 8) c).toBitVec.setWidth 16 := by
    rw [word_punpckl1_zero, movq, if_pos (by omega), bytesAt_above e r hc]
    rfl
  have h2 : word (punpckl 1 (movq (bytesAt (e.leftStorage r') 0)) zero) k.val = (e.left k).toBitVec.setWidth 16 := by
    rw [word_punpckl1_zero, movq, if_pos (by omega), bytesAt_left e r' hk]
  dsimp only
  generalize punpckl 1 (movd (bytesAt (e.aboveStorage r) (-1))) zero = C at *
  generalize punpckl 1 (movq (bytesAt (e.aboveStorage r) 0)) zero = A at *
  generalize punpckl 1 (movq (bytesAt (e.leftStorage r') 0)) zero = B at *
  have hd : word (psubw A (punpckl 8 (pshuflw C (85 * 0)) (pshuflw C (85 * 0)))) c.val = (e.up (Nat.le_refl 8) c).toBitVec.setWidth 16 - e.corner.toBitVec.setWidth 16 := by
    rw [word_psubw, word_spread C (by decide) hc, h0, h1]
  have hB : ∀ i, i < 2 → word ((fun r => psrldq r 4)^[k.val / 2] B) i = word B (i + 2 * (k.val / 2)) := fun i hi => shifted B 2 _ _ (by omega)
  generalize (fun r => psrldq r 4)^[k.val / 2] B = S at *
  split
  · next hp =>
    unfold packuswb
    rw [if_pos (by omega), word_paddw]
    refine congrArg (fun x : BitVec 16 => BitVec.ofInt 8 (saturateU 8 x.toInt)) (congrArg₂ (· + ·) ?_ hd)
    refine (word_spread S (k := 0) (by decide) hc).trans ?_
    rw [hB 0 (by decide), show 0 + 2 * (k.val / 2) = k.val by omega, h2]
  · next hp =>
    unfold packuswb
    dsimp only
    rw [if_neg (by omega), show c.val + 8 - 8 = c.val by omega, word_paddw]
    refine congrArg (fun x : BitVec 16 => BitVec.ofInt 8 (saturateU 8 x.toInt)) (congrArg₂ (· + ·) ?_ hd)
    refine (word_spread S (k := 1) (by decide) hc).trans ?_
    rw [hB 1 (by decide), show 1 + 2 * (k.val / 2) = k.val by omega, h2]

theorem tmPred16_eq (e : Edge 16 16) (r r' : Int → UInt8) : tmPred16 (e.aboveStorage r) (e.leftStorage r') = trueMotion (Nat.le_refl 16) e := by
  funext c k
  have hc := c.2
  have hk := k.2
  refine congrArg UInt8.ofBitVec (a₂ := (clamp255 ((e.left k).toNat + (e.up (Nat.le_refl 16) c).toNat - e.corner.toNat)).toBitVec) ?_
  rw [← tmByte]
  have h0 : word (punpckh 8 1 (bytesAt (e.aboveStorage r) (-16)) zero) 7 = e.corner.toBitVec.setWidth 16 := by
    rw [word_punpckh1_zero]; rfl
  have h1 : ∀ i : Nat, ∀ hi : i < 8, word (punpckl 1 (bytesAt (e.aboveStorage r) 0) zero) i = (e.above ⟨i, by omega⟩).toBitVec.setWidth 16 := fun i hi => by
    rw [word_punpckl1_zero, bytesAt_above e r (by omega)]
  have h1' : ∀ i : Nat, ∀ hi : i < 8, word (punpckh 8 1 (bytesAt (e.aboveStorage r) 0) zero) i = (e.above ⟨8 + i, by omega⟩).toBitVec.setWidth 16 := fun i hi => by
    rw [word_punpckh1_zero, bytesAt_above e r (by omega)]
  have h2 : ∀ i : Nat, ∀ hi : i < 8, word (punpckl 1 (bytesAt (e.leftStorage r') 0) zero) i = (e.left ⟨i, by omega⟩).toBitVec.setWidth 16 := fun i hi => by
    rw [word_punpckl1_zero, bytesAt_left e r' (by omega)]
  have h2' : ∀ i : Nat, ∀ hi : i < 8, word (punpckh 8 1 (bytesAt (e.leftStorage r') 0) zero) i = (e.left ⟨8 + i, by omega⟩).toBitVec.setWidth 16 := fun i hi => by
    rw [word_punpckh1_zero, bytesAt_left e r' (by omega)]
  dsimp only
  generalize punpckh 8 1 (bytesAt (e.aboveStorage r) (-16)) zero = C at *
  generalize punpckl 1 (bytesAt (e.aboveStorage r) 0) zero = A at *
  generalize punpckh 8 1 (bytesAt (e.aboveStorage r) 0) zero = A' at *
  generalize punpckl 1 (bytesAt (e.leftStorage r') 0) zero = B at *
  generalize punpckh 8 1 (bytesAt (e.leftStorage r') 0) zero = B' at *
  have hC : ∀ i, i < 8 → word (punpckh 8 8 (pshufhw C 0xff) (pshufhw C 0xff)) i = e.corner.toBitVec.setWidth 16 := fun i hi => by
    rw [word_punpckhqdq, ite_self, word_pshufhw, if_neg (by omega), ← h0]
    congr 1
    have : i / 8 * 4 + i % 4 < 4 := by omega
    rw [show 4 + (i / 8 * 4 + i % 4) - 4 = i / 8 * 4 + i % 4 by omega]
    generalize i / 8 * 4 + i % 4 = q at *
    interval_cases q <;> rfl
  have hL : word ((fun r => psrldq r 2)^[k.val % 8] (if k.val < 8 then B else B')) 0 = (e.left k).toBitVec.setWidth 16 := by
    refine (shifted _ 1 (k.val % 8) 0 (by omega)).trans ?_
    rw [show 0 + 1 * (k.val % 8) = k.val % 8 by omega]
    split
    · rw [h2 _ (by omega)]; congr 3; exact Fin.ext (by dsimp only; omega)
    · rw [h2' _ (by omega)]; congr 3; exact Fin.ext (by dsimp only; omega)
  generalize (fun r => psrldq r 2)^[k.val % 8] (if k.val < 8 then B else B') = S at *
  generalize punpckh 8 8 (pshufhw C 0xff) (pshufhw C 0xff) = D at *
  have hS : ∀ i, i < 8 → word (punpckl 8 (pshuflw S 0) (pshuflw S 0)) i = (e.left k).toBitVec.setWidth 16 := fun i hi => (word_spread S (k := 0) (by decide) hi).trans hL
  unfold packuswb
  refine congrArg (fun x : BitVec 16 => BitVec.ofInt 8 (saturateU 8 x.toInt)) ?_
  split
  · rw [word_paddw, word_psubw, hS _ (by omega), h1 _ (by omega), hC _ (by omega)]
    rfl
  · rw [word_paddw, word_psubw, hS _ (by omega), h1' _ (by omega), hC _ (by omega)]
    congr 4
    exact congrArg e.above (Fin.ext (by simp; omega))

/-! ### Diagonals -/

theorem threeTap_eq (x y z : Reg) (j : Nat) : threeTap x y z j = (avg3 ⟨x j⟩ ⟨y j⟩ ⟨z j⟩).toBitVec := by
  unfold threeTap pavgb psubb pand pxor pb1 avg3
  have hx := (x j).isLt; have hy := (y j).isLt; have hz := (z j).isLt
  apply BitVec.eq_of_toNat_eq
  have e1 : ((z j ^^^ x j) &&& 1).toNat = ((x j).toNat + (z j).toNat) % 2 := by
    rw [BitVec.toNat_and, BitVec.toNat_xor, show (1 : BitVec 8).toNat = 1 from rfl, Nat.and_one_is_mod, Nat.xor_mod_two_eq, Nat.add_comm]
  have ea : (BitVec.ofNat 8 (((x j).toNat + (z j).toNat + 1) / 2)).toNat = ((x j).toNat + (z j).toNat + 1) / 2 := by
    rw [BitVec.toNat_ofNat]; omega
  have e2 : (BitVec.ofNat 8 (((x j).toNat + (z j).toNat + 1) / 2) - ((z j ^^^ x j) &&& 1)).toNat = ((x j).toNat + (z j).toNat) / 2 := by
    rw [BitVec.toNat_sub, e1, ea]; omega
  rw [e2]
  show (BitVec.ofNat 8 _).toNat = (BitVec.ofNat 8 _).toNat
  rw [BitVec.toNat_ofNat, BitVec.toNat_ofNat, Nat.shiftRight_eq_div_pow]
  show _ = ((x j).toNat + 2 * (y j).toNat + (z j).toNat + 2) / 2 ^ 2 % 2 ^ 8
  omega

theorem pavgb_eq (x y : Reg) (j : Nat) : pavgb x y j = (avg2 ⟨x j⟩ ⟨y j⟩).toBitVec := by
  unfold pavgb avg2
  show BitVec.ofNat 8 _ = BitVec.ofNat 8 _
  rw [Nat.shiftRight_eq_div_pow]
  rfl

theorem avg2_comm (x y : UInt8) : avg2 x y = avg2 y x := by unfold avg2; rw [Nat.add_comm x.toNat]

theorem avg2_self (x : UInt8) : avg2 x x = x := by
  unfold avg2
  rw [Nat.shiftRight_eq_div_pow, show (x.toNat + x.toNat + 1) / 2 ^ 1 = x.toNat by omega, UInt8.ofNat_toNat]

theorem avg3_self (x : UInt8) : avg3 x x x = x := by
  unfold avg3
  rw [Nat.shiftRight_eq_div_pow, show (x.toNat + 2 * x.toNat + x.toNat + 2) / 2 ^ 2 = x.toNat by omega, UInt8.ofNat_toNat]

/-- The three-tap and the two-tap averages along a line of bytes. -/
theorem taps3 {M : Reg} {f : Nat → UInt8} {n : Nat} (h : ∀ j, j < n → M j = (f j).toBitVec) (hn : n ≤ 16) {j : Nat} (hj : j + 2 < n) :
    threeTap M (psrldq M 1) (psrldq M 2) j = (avg3 (f j) (f (j + 1)) (f (j + 2))).toBitVec := by
  rw [threeTap_eq, psrldq, psrldq, if_pos (by omega), if_pos (by omega), h _ (by omega), h _ (by omega), h _ (by omega)]

theorem taps2 {M : Reg} {f : Nat → UInt8} {n : Nat} (h : ∀ j, j < n → M j = (f j).toBitVec) (hn : n ≤ 16) {j : Nat} (hj : j + 1 < n) :
    pavgb (psrldq M 1) M j = (avg2 (f j) (f (j + 1))).toBitVec := by
  rw [pavgb_eq, psrldq, if_pos (by omega), h _ (by omega), h _ (by omega), avg2_comm]

theorem d153_eq (e : Edge 4 8) (r r' : Int → UInt8) : d153 (e.aboveStorage r) (e.leftStorage r') = horizontalDown e := by
  have hM : ∀ j, j < 8 → pshufb (punpckl 4 (movd (bytesAt (e.leftStorage r') 0)) (movd (bytesAt (e.aboveStorage r) (-1)))) shB32104567 j = (e.east (Fin.ofNat 13 j)).toBitVec := fun j hj => by
    have hl := fun (i : Nat) (h : i < 4) => bytesAt_left e r' h
    have ha := fun (i : Nat) (h : i < 8) => bytesAt_after e r h
    interval_cases j
    · exact (pshufb_at 3 rfl (by decide)).trans (hl 3 (by decide))
    · exact (pshufb_at 2 rfl (by decide)).trans (hl 2 (by decide))
    · exact (pshufb_at 1 rfl (by decide)).trans (hl 1 (by decide))
    · exact (pshufb_at 0 rfl (by decide)).trans (hl 0 (by decide))
    · exact (pshufb_at 4 rfl (by decide)).trans (bytesAt_before e r)
    · exact (pshufb_at 5 rfl (by decide)).trans (ha 0 (by decide))
    · exact (pshufb_at 6 rfl (by decide)).trans (ha 1 (by decide))
    · exact (pshufb_at 7 rfl (by decide)).trans (ha 2 (by decide))
  have h3 := fun (j : Nat) (hj : j + 2 < 8) => taps3 hM (by decide) hj
  have h2 := fun (j : Nat) (hj : j + 1 < 8) => taps2 hM (by decide) hj
  unfold d153
  dsimp only
  generalize pshufb (punpckl 4 (movd (bytesAt (e.leftStorage r') 0)) (movd (bytesAt (e.aboveStorage r) (-1)))) shB32104567 = M at *
  generalize threeTap M (psrldq M 1) (psrldq M 2) = T at *
  generalize pavgb (psrldq M 1) M = A at *
  have hP2 : ∀ j, j < 4 → pshufb (punpckl 8 T A) shB8091a2b345 (2 * j) = A j := fun j hj => by
    interval_cases j
    · exact pshufb_at 8 rfl (by decide)
    · exact pshufb_at 9 rfl (by decide)
    · exact pshufb_at 10 rfl (by decide)
    · exact pshufb_at 11 rfl (by decide)
  have hP3 : ∀ j, j < 4 → pshufb (punpckl 8 T A) shB8091a2b345 (2 * j + 1) = T j := fun j hj => by
    interval_cases j
    · exact pshufb_at 0 rfl (by decide)
    · exact pshufb_at 1 rfl (by decide)
    · exact pshufb_at 2 rfl (by decide)
    · exact pshufb_at 3 rfl (by decide)
  have h8 : pshufb (punpckl 8 T A) shB8091a2b345 8 = T 4 := pshufb_at 4 rfl (by decide)
  have h9 : pshufb (punpckl 8 T A) shB8091a2b345 9 = T 5 := pshufb_at 5 rfl (by decide)
  generalize pshufb (punpckl 8 T A) shB8091a2b345 = P at *
  have two := fun (j : Nat) (hj : j < 4) => (hP2 j hj).trans (h2 j (by omega))
  have three := fun (j : Nat) (hj : j < 4) => (hP3 j hj).trans (h3 j (by omega))
  funext c k
  fin_cases k
  · fin_cases c
    · exact congrArg UInt8.ofBitVec (two 3 (by decide))
    · exact congrArg UInt8.ofBitVec (three 3 (by decide))
    · exact congrArg UInt8.ofBitVec (h8.trans (h3 4 (by decide)))
    · exact congrArg UInt8.ofBitVec (h9.trans (h3 5 (by decide)))
  · fin_cases c
    · exact congrArg UInt8.ofBitVec (two 2 (by decide))
    · exact congrArg UInt8.ofBitVec (three 2 (by decide))
    · exact congrArg UInt8.ofBitVec (two 3 (by decide))
    · exact congrArg UInt8.ofBitVec (three 3 (by decide))
  · fin_cases c
    · exact congrArg UInt8.ofBitVec (two 1 (by decide))
    · exact congrArg UInt8.ofBitVec (three 1 (by decide))
    · exact congrArg UInt8.ofBitVec (two 2 (by decide))
    · exact congrArg UInt8.ofBitVec (three 2 (by decide))
  · fin_cases c
    · exact congrArg UInt8.ofBitVec (two 0 (by decide))
    · exact congrArg UInt8.ofBitVec (three 0 (by decide))
    · exact congrArg UInt8.ofBitVec (two 1 (by decide))
    · exact congrArg UInt8.ofBitVec (three 1 (by decide))

theorem d207_eq (e : Edge 4 8) (r : Int → UInt8) : d207 (e.leftStorage r) = horizontalUp e := by
  have hl := fun (i : Nat) (h : i < 4) => bytesAt_left e r h
  have h4 : ∀ j, j < 4 → psrldq (punpckl 2 (punpckl 1 (movd (bytesAt (e.leftStorage r) 0)) (movd (bytesAt (e.leftStorage r) 0))) (punpckl 1 (movd (bytesAt (e.leftStorage r) 0)) (movd (bytesAt (e.leftStorage r) 0)))) 12 j = (e.left 3).toBitVec := fun j hj => by
    interval_cases j <;> exact hl 3 (by decide)
  have h0 : ∀ j : Nat, ∀ hj : j < 4, movd (bytesAt (e.leftStorage r) 0) j = (e.left ⟨j, hj⟩).toBitVec := fun j hj => by rw [movd, if_pos hj, hl j hj]
  unfold d207
  dsimp only
  generalize psrldq (punpckl 2 (punpckl 1 (movd (bytesAt (e.leftStorage r) 0)) (movd (bytesAt (e.leftStorage r) 0))) (punpckl 1 (movd (bytesAt (e.leftStorage r) 0)) (movd (bytesAt (e.leftStorage r) 0)))) 12 = D at *
  generalize movd (bytesAt (e.leftStorage r) 0) = L at *
  have hM : ∀ j, j < 8 → punpckl 4 L D j = (if h : j < 4 then e.left ⟨j, h⟩ else e.left 3).toBitVec := fun j hj => by
    unfold punpckl
    by_cases h : j < 4
    · rw [if_pos (by omega), dif_pos h, ← h0 j h]; congr 1; omega
    · rw [if_neg (by omega), dif_neg h]; exact h4 _ (by omega)
  have h3 := fun (j : Nat) (hj : j + 2 < 8) => taps3 hM (by decide) hj
  have h2 := fun (j : Nat) (hj : j + 1 < 8) => taps2 hM (by decide) hj
  generalize punpckl 4 L D = M at *
  generalize threeTap M (psrldq M 1) (psrldq M 2) = T at *
  generalize pavgb (psrldq M 1) M = A at *
  have s2 : A 3 = (e.left 3).toBitVec := (h2 3 (by decide)).trans (congrArg UInt8.toBitVec (avg2_self _))
  have s3 : T 3 = (e.left 3).toBitVec := (h3 3 (by decide)).trans (congrArg UInt8.toBitVec (avg3_self _))
  funext c k
  fin_cases k
  · fin_cases c
    · exact congrArg UInt8.ofBitVec (h2 0 (by decide))
    · exact congrArg UInt8.ofBitVec (h3 0 (by decide))
    · exact congrArg UInt8.ofBitVec (h2 1 (by decide))
    · exact congrArg UInt8.ofBitVec (h3 1 (by decide))
  · fin_cases c
    · exact congrArg UInt8.ofBitVec (h2 1 (by decide))
    · exact congrArg UInt8.ofBitVec (h3 1 (by decide))
    · exact congrArg UInt8.ofBitVec (h2 2 (by decide))
    · exact congrArg UInt8.ofBitVec (h3 2 (by decide))
  · fin_cases c
    · exact congrArg UInt8.ofBitVec (h2 2 (by decide))
    · exact congrArg UInt8.ofBitVec (h3 2 (by decide))
    · exact congrArg UInt8.ofBitVec s2
    · exact congrArg UInt8.ofBitVec s3
  · fin_cases c
    · exact congrArg UInt8.ofBitVec (h4 0 (by decide))
    · exact congrArg UInt8.ofBitVec (h4 1 (by decide))
    · exact congrArg UInt8.ofBitVec (h4 2 (by decide))
    · exact congrArg UInt8.ofBitVec (h4 3 (by decide))

end Alfalfa
