import Verif.Model.SseInter
import Verif.Proof.Sse
import Verif.Proof.Inter
import Mathlib.Tactic.IntervalCases
import Mathlib.Tactic.FinCases
import Mathlib.Tactic.Ring

/-! Lemmas about the six-tap filters with SSSE3. -/

namespace Alfalfa

open Sse

theorem toInt_saturate16 (x : Int) : (BitVec.ofInt 16 (saturate 16 x)).toInt = saturate 16 x :=
  toInt_ofInt16 (by unfold saturate; norm_num)

theorem clamp255_bits (v : Int) : (clamp255 v).toBitVec = BitVec.ofInt 8 (saturateU 8 v) := by
  rw [clamp255_eq]
  apply BitVec.eq_of_toNat_eq
  simp only [BitVec.toNat_ofInt, UInt8.toNat_toBitVec, UInt8.toNat_ofNat']
  unfold saturateU
  norm_num
  omega

/-- What a filter needs of its three sums of two products. -/
structure TapSums (a b c : Int) : Prop where
  a0 : 0 ≤ a
  a1 : a ≤ 5000
  b0 : -5000 ≤ b
  c0 : -5000 ≤ c
  ab : a + b + 64 ≤ 32767
  c1 : c + 64 ≤ 32767

/-- The three sums of a filter. -/
def sum05 (i : Fin 8) (x : Fin 6 → UInt8) : Int := (x 0).toNat * sixtapFilters i 0 + (x 5).toNat * sixtapFilters i 5
def sum24 (i : Fin 8) (x : Fin 6 → UInt8) : Int := (x 2).toNat * sixtapFilters i 2 + (x 4).toNat * sixtapFilters i 4
def sum13 (i : Fin 8) (x : Fin 6 → UInt8) : Int := (x 1).toNat * sixtapFilters i 1 + (x 3).toNat * sixtapFilters i 3

theorem sums (i : Fin 8) (x : Fin 6 → UInt8) : TapSums (sum05 i x) (sum24 i x) (sum13 i x) := by
  have h0 := (x 0).toNat_lt
  have h1 := (x 1).toNat_lt
  have h2 := (x 2).toNat_lt
  have h3 := (x 3).toNat_lt
  have h4 := (x 4).toNat_lt
  have h5 := (x 5).toNat_lt
  have hv : ∀ i : Fin 8, (sixtapFilters i 0 = 0 ∧ sixtapFilters i 1 = 0 ∧ sixtapFilters i 2 = 128 ∧ sixtapFilters i 3 = 0 ∧ sixtapFilters i 4 = 0 ∧ sixtapFilters i 5 = 0) ∨
      (sixtapFilters i 0 = 0 ∧ sixtapFilters i 1 = -6 ∧ sixtapFilters i 2 = 123 ∧ sixtapFilters i 3 = 12 ∧ sixtapFilters i 4 = -1 ∧ sixtapFilters i 5 = 0) ∨
      (sixtapFilters i 0 = 2 ∧ sixtapFilters i 1 = -11 ∧ sixtapFilters i 2 = 108 ∧ sixtapFilters i 3 = 36 ∧ sixtapFilters i 4 = -8 ∧ sixtapFilters i 5 = 1) ∨
      (sixtapFilters i 0 = 0 ∧ sixtapFilters i 1 = -9 ∧ sixtapFilters i 2 = 93 ∧ sixtapFilters i 3 = 50 ∧ sixtapFilters i 4 = -6 ∧ sixtapFilters i 5 = 0) ∨
      (sixtapFilters i 0 = 3 ∧ sixtapFilters i 1 = -16 ∧ sixtapFilters i 2 = 77 ∧ sixtapFilters i 3 = 77 ∧ sixtapFilters i 4 = -16 ∧ sixtapFilters i 5 = 3) ∨
      (sixtapFilters i 0 = 0 ∧ sixtapFilters i 1 = -6 ∧ sixtapFilters i 2 = 50 ∧ sixtapFilters i 3 = 93 ∧ sixtapFilters i 4 = -9 ∧ sixtapFilters i 5 = 0) ∨
      (sixtapFilters i 0 = 1 ∧ sixtapFilters i 1 = -8 ∧ sixtapFilters i 2 = 36 ∧ sixtapFilters i 3 = 108 ∧ sixtapFilters i 4 = -11 ∧ sixtapFilters i 5 = 2) ∨
      (sixtapFilters i 0 = 0 ∧ sixtapFilters i 1 = -1 ∧ sixtapFilters i 2 = 12 ∧ sixtapFilters i 3 = 123 ∧ sixtapFilters i 4 = -6 ∧ sixtapFilters i 5 = 0) := by decide
  unfold sum05 sum24 sum13
  rcases hv i with h | h | h | h | h | h | h | h <;> obtain ⟨e0, e1, e2, e3, e4, e5⟩ := h <;> rw [e0, e1, e2, e3, e4, e5] <;> constructor <;> omega

theorem sixtap_sums (i : Fin 8) (x : Fin 6 → UInt8) : (sixtap (sixtapFilters i) x).toBitVec =
    BitVec.ofInt 8 (saturateU 8 ((sum05 i x + sum24 i x + sum13 i x + 64) >>> 7)) := by
  unfold sixtap
  rw [clamp255_bits]
  unfold sum05 sum24 sum13
  congr 4
  ring

theorem shr7 (z : Int) : z >>> 7 = z / 128 := by rw [Int.shiftRight_eq_div_pow]; norm_num

theorem saturate_noop {x : Int} (h : -32768 ≤ x ∧ x ≤ 32767) : saturate 16 x = x := saturate_of_fits h

section
variable {a b c : Int} (h : TapSums a b c)
include h

theorem order_h8 : saturateU 8 (saturate 16 (saturate 16 (saturate 16 a + saturate 16 b) + saturate 16 (saturate 16 c + 64)) >>> 7) = saturateU 8 ((a + b + c + 64) >>> 7) := by
  obtain ⟨h1, h1', h2, h3, h4, h5⟩ := h
  rw [saturate_noop (x := a) (by omega), saturate_noop (x := b) (by omega), saturate_noop (x := c) (by omega), saturate_noop (x := a + b) (by omega),
    saturate_noop (x := c + 64) (by omega), shr7, shr7]
  unfold saturate saturateU
  norm_num
  omega

theorem order_h16 : saturateU 8 (saturate 16 (saturate 16 (saturate 16 (saturate 16 a + saturate 16 b) + saturate 16 c) + 64) >>> 7) = saturateU 8 ((a + b + c + 64) >>> 7) := by
  obtain ⟨h1, h1', h2, h3, h4, h5⟩ := h
  rw [saturate_noop (x := a) (by omega), saturate_noop (x := b) (by omega), saturate_noop (x := c) (by omega), saturate_noop (x := a + b) (by omega), shr7, shr7]
  unfold saturate saturateU
  norm_num
  omega

theorem order_h4 : saturateU 8 (saturate 16 (saturate 16 (saturate 16 (saturate 16 a + saturate 16 b) + 64) + saturate 16 c) >>> 7) = saturateU 8 ((a + b + c + 64) >>> 7) := by
  obtain ⟨h1, h1', h2, h3, h4, h5⟩ := h
  rw [saturate_noop (x := a) (by omega), saturate_noop (x := b) (by omega), saturate_noop (x := c) (by omega), saturate_noop (x := a + b) (by omega),
    saturate_noop (x := a + b + 64) (by omega), shr7, shr7]
  unfold saturate saturateU
  norm_num
  omega

theorem order_v6 : saturateU 8 (saturate 16 (saturate 16 (saturate 16 (saturate 16 c + saturate 16 b) + saturate 16 a) + 64) >>> 7) = saturateU 8 ((a + b + c + 64) >>> 7) := by
  obtain ⟨h1, h1', h2, h3, h4, h5⟩ := h
  rw [saturate_noop (x := a) (by omega), saturate_noop (x := b) (by omega), saturate_noop (x := c) (by omega), shr7, shr7]
  unfold saturate saturateU
  norm_num
  omega

theorem order_h4taps (h0 : a = 0) : saturateU 8 (saturate 16 (saturate 16 (saturate 16 b + 64) + saturate 16 c) >>> 7) = saturateU 8 ((a + b + c + 64) >>> 7) := by
  subst h0
  obtain ⟨h1, h1', h2, h3, h4, h5⟩ := h
  rw [saturate_noop (x := b) (by omega), saturate_noop (x := c) (by omega), saturate_noop (x := b + 64) (by omega), shr7, shr7]
  unfold saturate saturateU
  norm_num
  omega

theorem order_v4taps (h0 : a = 0) : saturateU 8 (saturate 16 (saturate 16 (saturate 16 c + saturate 16 b) + 64) >>> 7) = saturateU 8 ((a + b + c + 64) >>> 7) := by
  subst h0
  obtain ⟨h1, h1', h2, h3, h4, h5⟩ := h
  rw [saturate_noop (x := b) (by omega), saturate_noop (x := c) (by omega), shr7, shr7]
  unfold saturate saturateU
  norm_num
  omega

theorem order_v4taps' (h0 : a = 0) : saturateU 8 (saturate 16 (saturate 16 (saturate 16 c + 64) + saturate 16 b) >>> 7) = saturateU 8 ((a + b + c + 64) >>> 7) := by
  subst h0
  obtain ⟨h1, h1', h2, h3, h4, h5⟩ := h
  rw [saturate_noop (x := b) (by omega), saturate_noop (x := c) (by omega), saturate_noop (x := c + 64) (by omega), shr7, shr7]
  unfold saturate saturateU
  norm_num
  omega

end

theorem fourTaps_sum {i : Fin 8} (h : fourTaps i = true) (x : Fin 6 → UInt8) : sum05 i x = 0 := by
  unfold sum05
  have : sixtapFilters i 0 = 0 ∧ sixtapFilters i 5 = 0 := by
    revert h
    revert i
    decide +kernel
  rw [this.1, this.2]
  simp

/-- `pmaddubsw` with the constants for six taps. -/
theorem word_madd05 {i : Fin 8} {r : Reg} {j : Nat} {x : Fin 6 → UInt8} (h0 : r (2 * j) = (x 0).toBitVec) (h5 : r (2 * j + 1) = (x 5).toBitVec) :
    (word (pmaddubsw r (k0k5 i)) j).toInt = saturate 16 (sum05 i x) := by
  rw [word_pmaddubsw, toInt_saturate16, h0, h5]
  unfold k0k5 times8 sum05
  rw [if_pos (by omega), if_neg (by omega)]
  fin_cases i <;> rfl

theorem word_madd13 {i : Fin 8} {r : Reg} {j : Nat} {x : Fin 6 → UInt8} (h0 : r (2 * j) = (x 1).toBitVec) (h5 : r (2 * j + 1) = (x 3).toBitVec) :
    (word (pmaddubsw r (k1k3 i)) j).toInt = saturate 16 (sum13 i x) := by
  rw [word_pmaddubsw, toInt_saturate16, h0, h5]
  unfold k1k3 times8 sum13
  rw [if_pos (by omega), if_neg (by omega)]
  fin_cases i <;> rfl

theorem word_madd24 {i : Fin 8} (hi : i ≠ 0) {r : Reg} {j : Nat} {x : Fin 6 → UInt8} (h0 : r (2 * j) = (x 2).toBitVec) (h5 : r (2 * j + 1) = (x 4).toBitVec) :
    (word (pmaddubsw r (k2k4 i)) j).toInt = saturate 16 (sum24 i x) := by
  rw [word_pmaddubsw, toInt_saturate16, h0, h5]
  unfold k2k4 times8 sum24
  rw [if_pos (by omega), if_neg (by omega)]
  fin_cases i
  · exact absurd rfl hi
  all_goals rfl

theorem byte_pack {r : Reg} {j : Nat} (hj : j < 8) : packuswb (psraw r 7) (psraw r 7) j = BitVec.ofInt 8 (saturateU 8 ((word r j).toInt >>> 7)) := by
  unfold packuswb
  simp only [if_pos hj, word_psraw, BitVec.toInt_sshiftRight]

theorem byte_packMm {r : Reg} {j : Nat} (hj : j < 4) : packuswbMm (psraw r 7) (psraw r 7) j = BitVec.ofInt 8 (saturateU 8 ((word r j).toInt >>> 7)) := by
  unfold packuswbMm
  simp only [if_pos hj, word_psraw, BitVec.toInt_sshiftRight]

theorem toInt_paddsw (a b : Reg) (j : Nat) : (word (paddsw a b) j).toInt = saturate 16 ((word a j).toInt + (word b j).toInt) := by
  rw [word_paddsw, toInt_saturate16]

theorem toInt_rd (j : Nat) : (word rd j).toInt = 64 := by rw [rd, word_ofWords]; rfl

theorem reads_eq {load : Int → Option UInt8} {start : Int} {n : Nat} {x : Nat → UInt8} (h : ∀ k, k < n → load (start + k) = some (x k)) :
    ∃ r, reads load start n = some r ∧ ∀ j, j < n → r j = (x j).toBitVec := by
  refine ⟨fun j => if j < n then (x j).toBitVec else 0, ?_, fun j hj => by simp only [if_pos hj]⟩
  unfold reads
  rw [allSome_some (f := fun k : Fin n => load (start + k.val)) (g := fun k => x k.val) (fun k => h k.val k.isLt)]
  simp

theorem pshufb_at {X m : Reg} {j : Nat} (v : Nat) (h : m j = BitVec.ofNat 8 v) (hv : v < 16) : pshufb X m j = X v := by
  unfold pshufb
  rw [h, BitVec.toNat_ofNat, Nat.mod_eq_of_lt (by omega), if_pos (by omega), Nat.mod_eq_of_lt hv]

theorem shuffled {X : Reg} {x : Nat → UInt8} (hx : ∀ j, j < 8 → X (2 * j) = (x j).toBitVec ∧ X (2 * j + 1) = (x (j + 5)).toBitVec) {j : Nat} (hj : j < 8) :
    pshufb X shuf2bfrom1 (2 * j) = (x (j + 2)).toBitVec ∧ pshufb X shuf2bfrom1 (2 * j + 1) = (x (j + 4)).toBitVec ∧
    pshufb X shuf3bfrom1 (2 * j) = (x (j + 1)).toBitVec ∧ pshufb X shuf3bfrom1 (2 * j + 1) = (x (j + 3)).toBitVec := by
  have h0 := hx 0 (by omega)
  have h1 := hx 1 (by omega)
  have h2 := hx 2 (by omega)
  have h3 := hx 3 (by omega)
  have h4 := hx 4 (by omega)
  have h5 := hx 5 (by omega)
  have h6 := hx 6 (by omega)
  have h7 := hx 7 (by omega)
  simp at h0 h1 h2 h3 h4 h5 h6 h7
  interval_cases j
  · exact ⟨(pshufb_at 4 rfl (by decide)).trans h2.1, (pshufb_at 8 rfl (by decide)).trans h4.1, (pshufb_at 2 rfl (by decide)).trans h1.1, (pshufb_at 6 rfl (by decide)).trans h3.1⟩
  · exact ⟨(pshufb_at 6 rfl (by decide)).trans h3.1, (pshufb_at 1 rfl (by decide)).trans h0.2, (pshufb_at 4 rfl (by decide)).trans h2.1, (pshufb_at 8 rfl (by decide)).trans h4.1⟩
  · exact ⟨(pshufb_at 8 rfl (by decide)).trans h4.1, (pshufb_at 3 rfl (by decide)).trans h1.2, (pshufb_at 6 rfl (by decide)).trans h3.1, (pshufb_at 1 rfl (by decide)).trans h0.2⟩
  · exact ⟨(pshufb_at 1 rfl (by decide)).trans h0.2, (pshufb_at 5 rfl (by decide)).trans h2.2, (pshufb_at 8 rfl (by decide)).trans h4.1, (pshufb_at 3 rfl (by decide)).trans h1.2⟩
  · exact ⟨(pshufb_at 3 rfl (by decide)).trans h1.2, (pshufb_at 7 rfl (by decide)).trans h3.2, (pshufb_at 1 rfl (by decide)).trans h0.2, (pshufb_at 5 rfl (by decide)).trans h2.2⟩
  · exact ⟨(pshufb_at 5 rfl (by decide)).trans h2.2, (pshufb_at 9 rfl (by decide)).trans h4.2, (pshufb_at 3 rfl (by decide)).trans h1.2, (pshufb_at 7 rfl (by decide)).trans h3.2⟩
  · exact ⟨(pshufb_at 7 rfl (by decide)).trans h3.2, (pshufb_at 11 rfl (by decide)).trans h5.2, (pshufb_at 5 rfl (by decide)).trans h2.2, (pshufb_at 9 rfl (by decide)).trans h4.2⟩
  · exact ⟨(pshufb_at 9 rfl (by decide)).trans h4.2, (pshufb_at 13 rfl (by decide)).trans h6.2, (pshufb_at 7 rfl (by decide)).trans h3.2, (pshufb_at 11 rfl (by decide)).trans h5.2⟩

theorem interleaved {a b : Reg} {x y : Nat → UInt8} {n : Nat} (ha : ∀ j, j < n → a j = (x j).toBitVec) (hb : ∀ j, j < n → b j = (y j).toBitVec) {j : Nat} (hj : j < n) :
    punpckl 1 a b (2 * j) = (x j).toBitVec ∧ punpckl 1 a b (2 * j + 1) = (y j).toBitVec := by
  unfold punpckl
  constructor
  · rw [if_pos (by omega), ← ha j hj]; congr 1; omega
  · rw [if_neg (by omega), ← hb j hj]; congr 1; omega

/-- The filter for eight bytes in a line. -/
theorem h8_eq {load : Int → Option UInt8} {rsi : Int} {i : Fin 8} (hi : i ≠ 0) {x : Nat → UInt8} (h : ∀ k : Nat, k < 13 → load (rsi - 2 + k) = some (x k)) :
    ∃ r, h8 load rsi i = some r ∧ ∀ j, j < 8 → r j = (sixtap (sixtapFilters i) fun k => x (j + k.val)).toBitVec := by
  obtain ⟨r0, e0, b0⟩ := reads_eq (load := load) (start := rsi - 2) (n := 8) (x := x) (fun k hk => h k (by omega))
  obtain ⟨r2, e2, b2⟩ := reads_eq (load := load) (start := rsi + 3) (n := 8) (x := fun k => x (k + 5)) (fun k hk => by rw [← h (k + 5) (by omega)]; congr 1; push_cast; ring)
  have hx := fun j hj => interleaved b0 b2 (j := j) hj
  unfold h8
  rw [e0, e2]
  simp only [Option.bind_eq_bind, Option.bind_some]
  split
  · next ht =>
    refine ⟨_, rfl, fun j hj => ?_⟩
    obtain ⟨s1, s2, s3, s4⟩ := shuffled hx hj
    rw [byte_pack hj, toInt_paddsw, toInt_paddsw, toInt_rd, word_madd24 hi (x := fun k => x (j + k.val)) s1 s2, word_madd13 (x := fun k => x (j + k.val)) s3 s4,
      order_h4taps (sums i _) (fourTaps_sum ht _), sixtap_sums]
  · refine ⟨_, rfl, fun j hj => ?_⟩
    obtain ⟨s1, s2, s3, s4⟩ := shuffled hx hj
    rw [byte_pack hj, toInt_paddsw, toInt_paddsw, toInt_paddsw, toInt_rd, word_madd05 (x := fun k => x (j + k.val)) (hx j hj).1 (hx j hj).2,
      word_madd24 hi (x := fun k => x (j + k.val)) s1 s2, word_madd13 (x := fun k => x (j + k.val)) s3 s4, order_h8 (sums i _), sixtap_sums]

theorem h16Half_eq {r0 r2 : Reg} {i : Fin 8} (hi : i ≠ 0) {x : Nat → UInt8} (b0 : ∀ j, j < 8 → r0 j = (x j).toBitVec) (b2 : ∀ j, j < 8 → r2 j = (x (j + 5)).toBitVec) {j : Nat} (hj : j < 8) :
    h16Half r0 r2 i j = (sixtap (sixtapFilters i) fun k => x (j + k.val)).toBitVec := by
  have hx := fun j hj => interleaved b0 (y := fun k => x (k + 5)) b2 (j := j) hj
  obtain ⟨s1, s2, s3, s4⟩ := shuffled hx hj
  unfold h16Half
  rw [byte_pack hj, toInt_paddsw, toInt_paddsw, toInt_paddsw, toInt_rd, word_madd05 (x := fun k => x (j + k.val)) (hx j hj).1 (hx j hj).2,
      word_madd24 hi (x := fun k => x (j + k.val)) s1 s2, word_madd13 (x := fun k => x (j + k.val)) s3 s4, order_h16 (sums i _), sixtap_sums]

theorem joined {a b : Reg} {j : Nat} (hj : j < 16) : punpckl 8 a b j = if j < 8 then a j else b (j - 8) := by
  unfold punpckl
  by_cases h : j < 8
  · rw [if_pos (by omega), if_pos h]; congr 1; omega
  · rw [if_neg (by omega), if_neg h]; congr 1; omega

theorem h16_eq {load : Int → Option UInt8} {rsi : Int} {i : Fin 8} (hi : i ≠ 0) {x : Nat → UInt8} (h : ∀ k : Nat, k < 21 → load (rsi - 2 + k) = some (x k)) :
    ∃ r, h16 load rsi i = some r ∧ ∀ j, j < 16 → r j = (sixtap (sixtapFilters i) fun k => x (j + k.val)).toBitVec := by
  obtain ⟨r0, e0, b0⟩ := reads_eq (load := load) (start := rsi - 2) (n := 8) (x := x) (fun k hk => h k (by omega))
  obtain ⟨r2, e2, b2⟩ := reads_eq (load := load) (start := rsi + 3) (n := 8) (x := fun k => x (k + 5)) (fun k hk => by rw [← h (k + 5) (by omega)]; congr 1; push_cast; ring)
  obtain ⟨r3, e3, b3⟩ := reads_eq (load := load) (start := rsi + 6) (n := 8) (x := fun k => x (k + 8)) (fun k hk => by rw [← h (k + 8) (by omega)]; congr 1; push_cast; ring)
  obtain ⟨r4, e4, b4⟩ := reads_eq (load := load) (start := rsi + 11) (n := 8) (x := fun k => x (k + 5 + 8)) (fun k hk => by rw [← h (k + 5 + 8) (by omega)]; congr 1; push_cast; ring)
  unfold h16
  rw [e0, e2, e3, e4]
  refine ⟨_, rfl, fun j hj => ?_⟩
  rw [joined hj]
  split
  · exact h16Half_eq hi b0 b2 (by omega)
  · rw [h16Half_eq hi (x := fun k => x (k + 8)) b3 b4 (by omega)]
    congr 3
    funext k
    congr 1
    omega

/-- The filter for four bytes in a line, which needs nine bytes and reads sixteen. -/
theorem h4_eq {load : Int → Option UInt8} {rsi : Int} {i : Fin 8} (hi : i ≠ 0) {x : Nat → UInt8} (h : ∀ k : Nat, k < 16 → load (rsi - 2 + k) = some (x k)) :
    ∃ r, h4 load rsi i = some r ∧ ∀ j, j < 4 → r j = (sixtap (sixtapFilters i) fun k => x (j + k.val)).toBitVec := by
  obtain ⟨r0, e0, b0⟩ := reads_eq (load := load) (start := rsi - 2) (n := 16) (x := x) h
  have hs : ∀ j, j < 4 → pshufb r0 shuf1b (2 * j) = (x (j + 0)).toBitVec ∧ pshufb r0 shuf1b (2 * j + 1) = (x (j + 5)).toBitVec ∧
      pshufb r0 shuf2b (2 * j) = (x (j + 2)).toBitVec ∧ pshufb r0 shuf2b (2 * j + 1) = (x (j + 4)).toBitVec ∧
      pshufb r0 shuf3b (2 * j) = (x (j + 1)).toBitVec ∧ pshufb r0 shuf3b (2 * j + 1) = (x (j + 3)).toBitVec := fun j hj => by
    interval_cases j
    · exact ⟨(pshufb_at 0 rfl (by decide)).trans (b0 0 (by decide)), (pshufb_at 5 rfl (by decide)).trans (b0 5 (by decide)), (pshufb_at 2 rfl (by decide)).trans (b0 2 (by decide)), (pshufb_at 4 rfl (by decide)).trans (b0 4 (by decide)), (pshufb_at 1 rfl (by decide)).trans (b0 1 (by decide)), (pshufb_at 3 rfl (by decide)).trans (b0 3 (by decide))⟩
    · exact ⟨(pshufb_at 1 rfl (by decide)).trans (b0 1 (by decide)), (pshufb_at 6 rfl (by decide)).trans (b0 6 (by decide)), (pshufb_at 3 rfl (by decide)).trans (b0 3 (by decide)), (pshufb_at 5 rfl (by decide)).trans (b0 5 (by decide)), (pshufb_at 2 rfl (by decide)).trans (b0 2 (by decide)), (pshufb_at 4 rfl (by decide)).trans (b0 4 (by decide))⟩
    · exact ⟨(pshufb_at 2 rfl (by decide)).trans (b0 2 (by decide)), (pshufb_at 7 rfl (by decide)).trans (b0 7 (by decide)), (pshufb_at 4 rfl (by decide)).trans (b0 4 (by decide)), (pshufb_at 6 rfl (by decide)).trans (b0 6 (by decide)), (pshufb_at 3 rfl (by decide)).trans (b0 3 (by decide)), (pshufb_at 5 rfl (by decide)).trans (b0 5 (by decide))⟩
    · exact ⟨(pshufb_at 3 rfl (by decide)).trans (b0 3 (by decide)), (pshufb_at 8 rfl (by decide)).trans (b0 8 (by decide)), (pshufb_at 5 rfl (by decide)).trans (b0 5 (by decide)), (pshufb_at 7 rfl (by decide)).trans (b0 7 (by decide)), (pshufb_at 4 rfl (by decide)).trans (b0 4 (by decide)), (pshufb_at 6 rfl (by decide)).trans (b0 6 (by decide))⟩
  unfold h4
  rw [e0]
  simp only [Option.bind_eq_bind, Option.bind_some]
  split
  · next ht =>
    refine ⟨_, rfl, fun j hj => ?_⟩
    obtain ⟨-, -, s1, s2, s3, s4⟩ := hs j hj
    rw [byte_pack (by omega), toInt_paddsw, toInt_paddsw, toInt_rd, word_madd24 hi (x := fun k => x (j + k.val)) s1 s2, word_madd13 (x := fun k => x (j + k.val)) s3 s4,
      order_h4taps (sums i _) (fourTaps_sum ht _), sixtap_sums]
  · refine ⟨_, rfl, fun j hj => ?_⟩
    obtain ⟨s5, s6, s1, s2, s3, s4⟩ := hs j hj
    rw [byte_pack (by omega), toInt_paddsw, toInt_paddsw, toInt_paddsw, toInt_rd, word_madd05 (x := fun k => x (j + k.val)) s5 s6,
      word_madd24 hi (x := fun k => x (j + k.val)) s1 s2, word_madd13 (x := fun k => x (j + k.val)) s3 s4, order_h4 (sums i _), sixtap_sums]

/-- Six lines that can be read. -/
def Lines (load : Int → Option UInt8) (rsi pitch : Int) (n : Nat) (x : Nat → Nat → UInt8) : Prop := ∀ l k : Nat, l < 6 → k < n → load (rsi + pitch * l + k) = some (x l k)

theorem Lines.read {load : Int → Option UInt8} {rsi pitch : Int} {n : Nat} {x : Nat → Nat → UInt8} (h : Lines load rsi pitch n x) (l : Nat) (hl : l < 6) (start : Int) (hs : start = rsi + pitch * l) :
    ∃ r, reads load start n = some r ∧ ∀ j, j < n → r j = (x l j).toBitVec := by
  subst hs
  exact reads_eq fun k hk => h l k hl hk

theorem v6Eight_eq {load : Int → Option UInt8} {rsi pitch : Int} {i : Fin 8} (hi : i ≠ 0) {x : Nat → Nat → UInt8} (h : Lines load rsi pitch 8 x) :
    ∃ r, v6Eight load rsi pitch i = some r ∧ ∀ j, j < 8 → r j = (sixtap (sixtapFilters i) fun k => x k.val j).toBitVec := by
  obtain ⟨a, e0, b0⟩ := h.read 0 (by omega) rsi (by simp)
  obtain ⟨b, e1, b1⟩ := h.read 1 (by omega) (rsi + pitch) (by simp)
  obtain ⟨c, e2, b2⟩ := h.read 2 (by omega) (rsi + pitch * 2) (by simp)
  obtain ⟨d, e3, b3⟩ := h.read 3 (by omega) (rsi + pitch + pitch * 2) (by push_cast; ring)
  obtain ⟨e, e4, b4⟩ := h.read 4 (by omega) (rsi + pitch * 4) (by simp)
  obtain ⟨f, e5, b5⟩ := h.read 5 (by omega) (rsi + pitch + pitch * 4) (by push_cast; ring)
  unfold v6Eight
  rw [e0, e1, e2, e3, e4, e5]
  refine ⟨_, rfl, fun j hj => ?_⟩
  have i1 := interleaved b1 b3 hj
  have i2 := interleaved b2 b4 hj
  have i0 := interleaved b0 b5 hj
  rw [byte_pack hj, toInt_paddsw, toInt_paddsw, toInt_paddsw, toInt_rd, word_madd05 (x := fun k => x k.val j) i0.1 i0.2,
      word_madd24 hi (x := fun k => x k.val j) i2.1 i2.2, word_madd13 (x := fun k => x k.val j) i1.1 i1.2, order_v6 (sums i _), sixtap_sums]

theorem v4Pairs_eq {load : Int → Option UInt8} {rsi pitch : Int} {n : Nat} {x : Nat → Nat → UInt8} (h : Lines load rsi pitch n x) :
    ∃ bd ce, v4Pairs load rsi pitch n = some (bd, ce) ∧ ∀ j, j < n → (bd (2 * j) = (x 1 j).toBitVec ∧ bd (2 * j + 1) = (x 3 j).toBitVec) ∧
      ce (2 * j) = (x 2 j).toBitVec ∧ ce (2 * j + 1) = (x 4 j).toBitVec := by
  obtain ⟨b, e1, b1⟩ := h.read 1 (by omega) (rsi + pitch) (by simp)
  obtain ⟨c, e2, b2⟩ := h.read 2 (by omega) (rsi + pitch * 2) (by simp)
  obtain ⟨d, e3, b3⟩ := h.read 3 (by omega) (rsi + pitch + pitch * 2) (by push_cast; ring)
  obtain ⟨e, e4, b4⟩ := h.read 4 (by omega) (rsi + pitch * 4) (by simp)
  unfold v4Pairs
  rw [e1, e2, e3, e4]
  exact ⟨_, _, rfl, fun j hj => ⟨interleaved b1 b3 hj, interleaved b2 b4 hj⟩⟩

theorem v8_eq {load : Int → Option UInt8} {rsi pitch : Int} {i : Fin 8} (hi : i ≠ 0) {x : Nat → Nat → UInt8} (h : Lines load rsi pitch 8 x) :
    ∃ r, v8 load rsi pitch i = some r ∧ ∀ j, j < 8 → r j = (sixtap (sixtapFilters i) fun k => x k.val j).toBitVec := by
  unfold v8
  split
  · next ht =>
    obtain ⟨bd, ce, e, hp⟩ := v4Pairs_eq h
    rw [e]
    refine ⟨_, rfl, fun j hj => ?_⟩
    obtain ⟨i1, i2⟩ := hp j hj
    rw [byte_pack hj, toInt_paddsw, toInt_paddsw, toInt_rd, word_madd24 hi (x := fun k => x k.val j) i2.1 i2.2, word_madd13 (x := fun k => x k.val j) i1.1 i1.2,
      order_v4taps (sums i _) (fourTaps_sum ht _), sixtap_sums]
  · exact v6Eight_eq hi h

theorem Lines.right {load : Int → Option UInt8} {rsi pitch : Int} {x : Nat → Nat → UInt8} (h : Lines load rsi pitch 16 x) : Lines load (rsi + 8) pitch 8 fun l k => x l (k + 8) :=
  fun l k hl hk => by rw [← h l (k + 8) hl (by omega)]; congr 1; push_cast; ring

theorem Lines.left {load : Int → Option UInt8} {rsi pitch : Int} {x : Nat → Nat → UInt8} (h : Lines load rsi pitch 16 x) : Lines load rsi pitch 8 x :=
  fun l k hl hk => h l k hl (by omega)

theorem v16_eq {load : Int → Option UInt8} {rsi pitch : Int} {i : Fin 8} (hi : i ≠ 0) {x : Nat → Nat → UInt8} (h : Lines load rsi pitch 16 x) :
    ∃ r, v16 load rsi pitch i = some r ∧ ∀ j, j < 16 → r j = (sixtap (sixtapFilters i) fun k => x k.val j).toBitVec := by
  unfold v16
  split
  · next ht =>
    obtain ⟨bd, ce, e, hp⟩ := v4Pairs_eq h.left
    obtain ⟨bd', ce', e', hp'⟩ := v4Pairs_eq h.right
    rw [e, e']
    refine ⟨_, rfl, fun j hj => ?_⟩
    rw [joined hj]
    split
    · next hj =>
      obtain ⟨i1, i2⟩ := hp j hj
      rw [byte_pack hj, toInt_paddsw, toInt_paddsw, toInt_rd, word_madd24 hi (x := fun k => x k.val j) i2.1 i2.2, word_madd13 (x := fun k => x k.val j) i1.1 i1.2,
        order_v4taps' (sums i _) (fourTaps_sum ht _), sixtap_sums]
    · next hj' =>
      obtain ⟨i1, i2⟩ := hp' (j - 8) (by omega)
      rw [show j - 8 + 8 = j by omega] at i1 i2
      rw [byte_pack (by omega), toInt_paddsw, toInt_paddsw, toInt_rd, word_madd24 hi (x := fun k => x k.val j) i2.1 i2.2, word_madd13 (x := fun k => x k.val j) i1.1 i1.2,
        order_v4taps (sums i _) (fourTaps_sum ht _), sixtap_sums]
  · obtain ⟨r, e, hr⟩ := v6Eight_eq hi h.left
    obtain ⟨r', e', hr'⟩ := v6Eight_eq hi h.right
    rw [e, e']
    refine ⟨_, rfl, fun j hj => ?_⟩
    split
    · next hj => exact hr j hj
    · rw [hr' (j - 8) (by omega)]
      simp only [show j - 8 + 8 = j by omega]

theorem v4_eq {load : Int → Option UInt8} {rsi pitch : Int} {i : Fin 8} (hi : i ≠ 0) {x : Nat → Nat → UInt8} (h : Lines load rsi pitch 4 x) :
    ∃ r, v4 load rsi pitch i = some r ∧ ∀ j, j < 4 → r j = (sixtap (sixtapFilters i) fun k => x k.val j).toBitVec := by
  obtain ⟨bd, ce, e, hp⟩ := v4Pairs_eq h
  unfold v4
  rw [e]
  simp only [Option.bind_eq_bind, Option.bind_some]
  split
  · next ht =>
    refine ⟨_, rfl, fun j hj => ?_⟩
    obtain ⟨i1, i2⟩ := hp j hj
    rw [byte_packMm hj, toInt_paddsw, toInt_paddsw, toInt_rd, word_madd24 hi (x := fun k => x k.val j) i2.1 i2.2, word_madd13 (x := fun k => x k.val j) i1.1 i1.2,
      order_v4taps (sums i _) (fourTaps_sum ht _), sixtap_sums]
  · obtain ⟨a, e0, b0⟩ := h.read 0 (by omega) rsi (by simp)
    obtain ⟨f, e5, b5⟩ := h.read 5 (by omega) (rsi + pitch + pitch * 4) (by push_cast; ring)
    rw [e0, e5]
    refine ⟨_, rfl, fun j hj => ?_⟩
    obtain ⟨i1, i2⟩ := hp j hj
    have i0 := interleaved b0 b5 hj
    rw [byte_packMm hj, toInt_paddsw, toInt_paddsw, toInt_paddsw, toInt_rd, word_madd05 (x := fun k => x k.val j) i0.1 i0.2,
      word_madd24 hi (x := fun k => x k.val j) i2.1 i2.2, word_madd13 (x := fun k => x k.val j) i1.1 i1.2, order_v6 (sums i _), sixtap_sums]

end Alfalfa
