import Verif.Props.Transform
import Verif.Props.Quantizer
import Mathlib.Tactic.Linarith

/-! How far the inverse transforms of quantized coefficients are from what was transformed. -/

namespace Alfalfa

open TransformSpec

/-! ### Lines of four numbers -/

theorem cosine_bounds (x : Int) : 85627 * x - 65535 ≤ 65536 * cosine x ∧ 65536 * cosine x ≤ 85627 * x := by unfold cosine; omega
theorem sine_bounds (x : Int) : 35468 * x - 65535 ≤ 65536 * sine x ∧ 65536 * sine x ≤ 35468 * x := by unfold sine; omega

/-- Two numbers differ by at most `e`. -/
def OffBy (e x y : Int) : Prop := -e ≤ x - y ∧ x - y ≤ e

/-- The second loop of the forward transform and the first loop of the inverse one. -/
theorem dct_column {m c : Fin 4 → Int} {d a t : Int} (hm : ∀ i, -8160 ≤ m i ∧ m i ≤ 8160) (ht : 0 ≤ t ∧ t ≤ 1)
    (h0 : OffBy d (c 0) ((m 0 + m 3 + (m 1 + m 2) + 7) / 16))
    (h1 : OffBy a (c 1) (((m 1 - m 2) * 2217 + (m 0 - m 3) * 5352 + 12000) / 65536 + t))
    (h2 : OffBy a (c 2) ((m 0 + m 3 - (m 1 + m 2) + 7) / 16))
    (h3 : OffBy a (c 3) (((m 0 - m 3) * 2217 - (m 1 - m 2) * 5352 + 51000) / 65536)) (i : Fin 4) :
    OffBy (4 * (65536 * d + 186631 * a) + 65536 * 18) (65536 * (4 * line c i)) (65536 * m i) := by
  unfold OffBy at *
  have m0 := hm 0
  have m1 := hm 1
  have m2 := hm 2
  have m3 := hm 3
  have c1 := cosine_bounds (c 1)
  have c3 := cosine_bounds (c 3)
  have s1 := sine_bounds (c 1)
  have s3 := sine_bounds (c 3)
  generalize e0 : (m 0 + m 3 + (m 1 + m 2) + 7) / 16 = z0 at h0
  generalize e1 : ((m 1 - m 2) * 2217 + (m 0 - m 3) * 5352 + 12000) / 65536 = z1 at h1
  generalize e2 : (m 0 + m 3 - (m 1 + m 2) + 7) / 16 = z2 at h2
  generalize e3 : ((m 0 - m 3) * 2217 - (m 1 - m 2) * 5352 + 51000) / 65536 = z3 at h3
  have e0' : 16 * z0 ≤ m 0 + m 3 + (m 1 + m 2) + 7 ∧ m 0 + m 3 + (m 1 + m 2) + 7 ≤ 16 * z0 + 15 := by omega
  have e2' : 16 * z2 ≤ m 0 + m 3 - (m 1 + m 2) + 7 ∧ m 0 + m 3 - (m 1 + m 2) + 7 ≤ 16 * z2 + 15 := by omega
  have e1' : 65536 * z1 ≤ (m 1 - m 2) * 2217 + (m 0 - m 3) * 5352 + 12000 ∧ (m 1 - m 2) * 2217 + (m 0 - m 3) * 5352 + 12000 ≤ 65536 * z1 + 65535 := by omega
  have e3' : 65536 * z3 ≤ (m 0 - m 3) * 2217 - (m 1 - m 2) * 5352 + 51000 ∧ (m 0 - m 3) * 2217 - (m 1 - m 2) * 5352 + 51000 ≤ 65536 * z3 + 65535 := by omega
  clear e0 e1 e2 e3
  fin_cases i <;> simp only [line] <;> constructor <;> simp only [Fin.zero_eta, Fin.mk_one, Fin.reduceFinMk] <;> linarith

/-- The first loop of the forward transform and the second loop of the inverse one: `n` is about a quarter of the coefficients. -/
theorem dct_row {x n : Fin 4 → Int} {d a : Int} (hx : ∀ i, -255 ≤ x i ∧ x i ≤ 255)
    (h0 : OffBy d (65536 * (4 * n 0)) (65536 * ((x 0 + x 3) * 8 + (x 1 + x 2) * 8)))
    (h1 : OffBy a (65536 * (4 * n 1)) (65536 * (((x 1 - x 2) * 8 * 2217 + (x 0 - x 3) * 8 * 5352 + 14500) / 4096)))
    (h2 : OffBy a (65536 * (4 * n 2)) (65536 * ((x 0 + x 3) * 8 - (x 1 + x 2) * 8)))
    (h3 : OffBy a (65536 * (4 * n 3)) (65536 * (((x 0 - x 3) * 8 * 2217 - (x 1 - x 2) * 8 * 5352 + 7500) / 4096))) (i : Fin 4) :
    OffBy (65536 * d + 186631 * a + 65536 * 65536 * 8) (65536 * 65536 * (4 * line n i)) (65536 * 65536 * (32 * x i)) := by
  unfold OffBy at *
  have m0 := hx 0
  have m1 := hx 1
  have m2 := hx 2
  have m3 := hx 3
  have c1 := cosine_bounds (n 1)
  have c3 := cosine_bounds (n 3)
  have s1 := sine_bounds (n 1)
  have s3 := sine_bounds (n 3)
  generalize e1 : ((x 1 - x 2) * 8 * 2217 + (x 0 - x 3) * 8 * 5352 + 14500) / 4096 = z1 at h1
  generalize e3 : ((x 0 - x 3) * 8 * 2217 - (x 1 - x 2) * 8 * 5352 + 7500) / 4096 = z3 at h3
  have e1' : 4096 * z1 ≤ (x 1 - x 2) * 8 * 2217 + (x 0 - x 3) * 8 * 5352 + 14500 ∧ (x 1 - x 2) * 8 * 2217 + (x 0 - x 3) * 8 * 5352 + 14500 ≤ 4096 * z1 + 4095 := by omega
  have e3' : 4096 * z3 ≤ (x 0 - x 3) * 8 * 2217 - (x 1 - x 2) * 8 * 5352 + 7500 ∧ (x 0 - x 3) * 8 * 2217 - (x 1 - x 2) * 8 * 5352 + 7500 ≤ 4096 * z3 + 4095 := by omega
  clear e1 e3
  fin_cases i <;> simp only [line] <;> constructor <;> simp only [Fin.zero_eta, Fin.mk_one, Fin.reduceFinMk] <;> linarith

/-! ### Blocks -/

theorem fdctRow_eq {r : Fin 16 → Int} (h : ∀ i, |r i| ≤ 255) (i : Fin 4) :
    fdctRow r i 0 = (entry r 0 i + entry r 3 i) * 8 + (entry r 1 i + entry r 2 i) * 8 ∧
    fdctRow r i 1 = ((entry r 1 i - entry r 2 i) * 8 * 2217 + (entry r 0 i - entry r 3 i) * 8 * 5352 + 14500) / 4096 ∧
    fdctRow r i 2 = (entry r 0 i + entry r 3 i) * 8 - (entry r 1 i + entry r 2 i) * 8 ∧
    fdctRow r i 3 = ((entry r 0 i - entry r 3 i) * 8 * 2217 - (entry r 1 i - entry r 2 i) * 8 * 5352 + 7500) / 4096 := by
  have e : ∀ k : Fin 4, at16 r (4 * i + k) = entry r k i := fun k => by unfold at16 entry; rw [dif_pos (by omega)]
  have b : ∀ k : Fin 4, -255 ≤ entry r k i ∧ entry r k i ≤ 255 := fun k => abs_le.1 (h _)
  have e0 : at16 r (4 * i + 0) = entry r 0 i := e 0
  have e1 : at16 r (4 * i + 1) = entry r 1 i := e 1
  have e2 : at16 r (4 * i + 2) = entry r 2 i := e 2
  have e3 : at16 r (4 * i + 3) = entry r 3 i := e 3
  have b0 := b 0
  have b1 := b 1
  have b2 := b 2
  have b3 := b 3
  unfold fdctRow
  simp only [shr12, e0, e1, e2, e3]
  refine ⟨toInt16_of_fits ?_, toInt16_of_fits ?_, toInt16_of_fits ?_, toInt16_of_fits ?_⟩ <;> omega

theorem fdct_eq {r : Fin 16 → Int} (h : ∀ i, |r i| ≤ 255) (j : Fin 4) : ∃ t : Int, (0 ≤ t ∧ t ≤ 1) ∧
    entry (fdct r) j 0 = (fdctRow r 0 j + fdctRow r 3 j + (fdctRow r 1 j + fdctRow r 2 j) + 7) / 16 ∧
    entry (fdct r) j 1 = ((fdctRow r 1 j - fdctRow r 2 j) * 2217 + (fdctRow r 0 j - fdctRow r 3 j) * 5352 + 12000) / 65536 + t ∧
    entry (fdct r) j 2 = (fdctRow r 0 j + fdctRow r 3 j - (fdctRow r 1 j + fdctRow r 2 j) + 7) / 16 ∧
    entry (fdct r) j 3 = ((fdctRow r 0 j - fdctRow r 3 j) * 2217 - (fdctRow r 1 j - fdctRow r 2 j) * 5352 + 51000) / 65536 := by
  have hj := j.2
  have e : ∀ k, k < 4 → at16 (fdctIntermediate r) (j + 4 * k) = fdctRow r k j := fun k hk => by
    unfold at16 fdctIntermediate
    rw [dif_pos (by omega)]
    dsimp only
    rw [show (j.val + 4 * k) / 4 = k by omega, show (j.val + 4 * k) % 4 = j by omega]
  have b : ∀ k, k < 4 → -8160 ≤ fdctRow r k j ∧ fdctRow r k j ≤ 8160 := fun k hk => abs_le.1 (fdctRow_bound h hk hj)
  have e0 : at16 (fdctIntermediate r) (j + 0) = fdctRow r 0 j := e 0 (by decide)
  have e1 : at16 (fdctIntermediate r) (j + 4) = fdctRow r 1 j := e 1 (by decide)
  have e2 : at16 (fdctIntermediate r) (j + 8) = fdctRow r 2 j := e 2 (by decide)
  have e3 : at16 (fdctIntermediate r) (j + 12) = fdctRow r 3 j := e 3 (by decide)
  have b0 := b 0 (by decide)
  have b1 := b 1 (by decide)
  have b2 := b 2 (by decide)
  have b3 := b 3 (by decide)
  have ht : ∀ P : Prop, [Decidable P] → 0 ≤ (if P then (1 : Int) else 0) ∧ (if P then (1 : Int) else 0) ≤ 1 := fun P _ => by split <;> decide
  refine ⟨if fdctRow r 0 j - fdctRow r 3 j ≠ 0 then 1 else 0, ht _, ?_⟩
  have m : ∀ k : Nat, k < 4 → (4 * k + j.val) % 4 = j ∧ (4 * k + j.val) / 4 = k := fun k hk => by omega
  unfold entry fdct
  simp only [shr4, shr16, show ((0 : Fin 4) : Nat) = 0 from rfl, show ((1 : Fin 4) : Nat) = 1 from rfl, show ((2 : Fin 4) : Nat) = 2 from rfl,
    show ((3 : Fin 4) : Nat) = 3 from rfl, (m 0 (by decide)).1, (m 1 (by decide)).1, (m 2 (by decide)).1, (m 3 (by decide)).1,
    (m 0 (by decide)).2, (m 1 (by decide)).2, (m 2 (by decide)).2, (m 3 (by decide)).2, e0, e1, e2, e3]
  have := ht (fdctRow r 0 j - fdctRow r 3 j ≠ 0)
  refine ⟨toInt16_of_fits ?_, toInt16_of_fits ?_, toInt16_of_fits ?_, toInt16_of_fits ?_⟩ <;> omega

/-- The inverse transform of coefficients that are within `d` (the first) and `a` (the others) of those of a block. -/
theorem residue_close {r c : Fin 16 → Int} {d a : Int} (h : ∀ i, |r i| ≤ 255) (hd : OffBy d (c 0) (fdct r 0))
    (ha : ∀ i, i ≠ 0 → OffBy a (c i) (fdct r i)) (ha0 : 0 ≤ a) (x y : Fin 4) :
    OffBy (d + 14 * a + 24) (8 * residue c x y) (8 * entry r x y) := by
  have col : ∀ j k : Fin 4, OffBy (4 * (65536 * (if j = 0 then d else a) + 186631 * a) + 65536 * 18) (65536 * (4 * columns line c j k))
      (65536 * fdctRow r k j) := fun j k => by
    obtain ⟨t, ht, f0, f1, f2, f3⟩ := fdct_eq h j
    refine dct_column (m := fun i => fdctRow r i j) (c := fun i => entry c j i) (fun i => abs_le.1 (fdctRow_bound h i.2 j.2)) ht ?_ ?_ ?_ ?_ k
    · show OffBy _ _ ((fdctRow r 0 j + fdctRow r 3 j + (fdctRow r 1 j + fdctRow r 2 j) + 7) / 16)
      rw [← f0]
      split
      · rename_i hj; subst hj; exact hd
      · rename_i hj
        refine ha _ fun h => hj (Fin.ext ?_)
        have := congrArg Fin.val h
        simpa using this
    · show OffBy _ _ (((fdctRow r 1 j - fdctRow r 2 j) * 2217 + (fdctRow r 0 j - fdctRow r 3 j) * 5352 + 12000) / 65536 + t)
      rw [← f1]
      exact ha _ fun h => by have := congrArg Fin.val h; simp at this
    · show OffBy _ _ ((fdctRow r 0 j + fdctRow r 3 j - (fdctRow r 1 j + fdctRow r 2 j) + 7) / 16)
      rw [← f2]
      exact ha _ fun h => by have := congrArg Fin.val h; simp at this
    · show OffBy _ _ (((fdctRow r 0 j - fdctRow r 3 j) * 2217 - (fdctRow r 1 j - fdctRow r 2 j) * 5352 + 51000) / 65536)
      rw [← f3]
      exact ha _ fun h => by have := congrArg Fin.val h; simp at this
  obtain ⟨g0, g1, g2, g3⟩ := fdctRow_eq h y
  have c0 := col 0 y
  have c1 := col 1 y
  have c2 := col 2 y
  have c3 := col 3 y
  rw [if_pos rfl] at c0
  rw [if_neg (by decide)] at c1 c2 c3
  have row := dct_row (x := fun i => entry r i y) (n := fun i => columns line c i y) (fun i => abs_le.1 (h _))
    (g0 ▸ c0) (g1 ▸ c1) (g2 ▸ c2) (g3 ▸ c3) x
  unfold residue both
  unfold OffBy at *
  generalize line (fun i => columns line c i y) x = L at *
  generalize entry r x y = v at *
  omega

/-! ### The second-order transform -/

theorem walsh_column {m c : Fin 4 → Int} {d a : Int}
    (h0 : OffBy d (c 0) (whtRound (m 0 + m 2 + (m 1 + m 3)))) (h1 : OffBy a (c 1) (whtRound (m 0 - m 2 + (m 1 - m 3))))
    (h2 : OffBy a (c 2) (whtRound (m 0 - m 2 - (m 1 - m 3)))) (h3 : OffBy a (c 3) (whtRound (m 0 + m 2 - (m 1 + m 3)))) (i : Fin 4) :
    OffBy (4 + 2 * d + 6 * a) (2 * walshLine c i) (m i) := by
  have hr : ∀ z : Int, z - 4 ≤ 8 * whtRound z ∧ 8 * whtRound z ≤ z + 4 := fun z => by
    unfold whtRound; rw [shr3]; split <;> omega
  have r0 := hr (m 0 + m 2 + (m 1 + m 3))
  have r1 := hr (m 0 - m 2 + (m 1 - m 3))
  have r2 := hr (m 0 - m 2 - (m 1 - m 3))
  have r3 := hr (m 0 + m 2 - (m 1 + m 3))
  unfold OffBy at *
  fin_cases i <;> simp only [walshLine] <;> constructor <;> simp only [Fin.zero_eta, Fin.mk_one, Fin.reduceFinMk] <;> linarith

theorem whtRow_eq {r : Fin 16 → Int} (h : ∀ i, |r i| ≤ 2041) (i : Fin 4) : ∃ t : Int, (0 ≤ t ∧ t ≤ 1) ∧
    whtRow r i 0 = (entry r 0 i + entry r 2 i) * 4 + (entry r 1 i + entry r 3 i) * 4 + t ∧
    whtRow r i 1 = (entry r 0 i - entry r 2 i) * 4 + (entry r 1 i - entry r 3 i) * 4 ∧
    whtRow r i 2 = (entry r 0 i - entry r 2 i) * 4 - (entry r 1 i - entry r 3 i) * 4 ∧
    whtRow r i 3 = (entry r 0 i + entry r 2 i) * 4 - (entry r 1 i + entry r 3 i) * 4 := by
  have e : ∀ k : Fin 4, at16 r (4 * i + k) = entry r k i := fun k => by unfold at16 entry; rw [dif_pos (by omega)]
  have b : ∀ k : Fin 4, -2041 ≤ entry r k i ∧ entry r k i ≤ 2041 := fun k => abs_le.1 (h _)
  have e0 : at16 r (4 * i + 0) = entry r 0 i := e 0
  have e1 : at16 r (4 * i + 1) = entry r 1 i := e 1
  have e2 : at16 r (4 * i + 2) = entry r 2 i := e 2
  have e3 : at16 r (4 * i + 3) = entry r 3 i := e 3
  have b0 := b 0
  have b1 := b 1
  have b2 := b 2
  have b3 := b 3
  have ht : ∀ P : Prop, [Decidable P] → 0 ≤ (if P then (1 : Int) else 0) ∧ (if P then (1 : Int) else 0) ≤ 1 := fun P _ => by split <;> decide
  have := ht ((entry r 0 i + entry r 2 i) * 4 ≠ 0)
  refine ⟨_, this, ?_⟩
  unfold whtRow
  simp only [e0, e1, e2, e3]
  refine ⟨toInt16_of_fits ?_, toInt16_of_fits ?_, toInt16_of_fits ?_, toInt16_of_fits ?_⟩ <;> omega

theorem wht_eq {r : Fin 16 → Int} (h : ∀ i, |r i| ≤ 2041) (j : Fin 4) :
    entry (wht r) j 0 = whtRound (whtRow r 0 j + whtRow r 2 j + (whtRow r 1 j + whtRow r 3 j)) ∧
    entry (wht r) j 1 = whtRound (whtRow r 0 j - whtRow r 2 j + (whtRow r 1 j - whtRow r 3 j)) ∧
    entry (wht r) j 2 = whtRound (whtRow r 0 j - whtRow r 2 j - (whtRow r 1 j - whtRow r 3 j)) ∧
    entry (wht r) j 3 = whtRound (whtRow r 0 j + whtRow r 2 j - (whtRow r 1 j + whtRow r 3 j)) := by
  have hj := j.2
  have e : ∀ k, k < 4 → at16 (whtIntermediate r) (j + 4 * k) = whtRow r k j := fun k hk => by
    unfold at16 whtIntermediate
    rw [dif_pos (by omega)]
    dsimp only
    rw [show (j.val + 4 * k) / 4 = k by omega, show (j.val + 4 * k) % 4 = j by omega]
  have b : ∀ k, -32657 ≤ whtRow r k j ∧ whtRow r k j ≤ 32657 := fun k => abs_le.1 (whtRow_bound h hj)
  have e0 : at16 (whtIntermediate r) (j + 0) = whtRow r 0 j := e 0 (by decide)
  have e1 : at16 (whtIntermediate r) (j + 4) = whtRow r 1 j := e 1 (by decide)
  have e2 : at16 (whtIntermediate r) (j + 8) = whtRow r 2 j := e 2 (by decide)
  have e3 : at16 (whtIntermediate r) (j + 12) = whtRow r 3 j := e 3 (by decide)
  have b0 := b 0
  have b1 := b 1
  have b2 := b 2
  have b3 := b 3
  have m : ∀ k : Nat, k < 4 → (4 * k + j.val) % 4 = j ∧ (4 * k + j.val) / 4 = k := fun k hk => by omega
  unfold entry wht
  simp only [show ((0 : Fin 4) : Nat) = 0 from rfl, show ((1 : Fin 4) : Nat) = 1 from rfl, show ((2 : Fin 4) : Nat) = 2 from rfl,
    show ((3 : Fin 4) : Nat) = 3 from rfl, (m 0 (by decide)).1, (m 1 (by decide)).1, (m 2 (by decide)).1, (m 3 (by decide)).1,
    (m 0 (by decide)).2, (m 1 (by decide)).2, (m 2 (by decide)).2, (m 3 (by decide)).2, e0, e1, e2, e3]
  refine ⟨(whtRound_bound ?_).1, (whtRound_bound ?_).1, (whtRound_bound ?_).1, (whtRound_bound ?_).1⟩ <;> rw [abs_le] <;> omega

/-- The inverse Walsh transform of coefficients that are within `d` (the first) and `a` (the others) of those of `r`. -/
theorem walsh_close {r c : Fin 16 → Int} {d a : Int} (h : ∀ i, |r i| ≤ 2041) (hd : OffBy d (c 0) (wht r 0))
    (ha : ∀ i, i ≠ 0 → OffBy a (c i) (wht r i)) (x y : Fin 4) :
    OffBy (d + 15 * a + 12) (8 * walsh c x y) (8 * entry r x y) := by
  have col : ∀ j k : Fin 4, OffBy (4 + 2 * (if j = 0 then d else a) + 6 * a) (2 * columns walshLine c j k) (whtRow r k j) := fun j k => by
    obtain ⟨f0, f1, f2, f3⟩ := wht_eq h j
    refine walsh_column (m := fun i => whtRow r i j) (c := fun i => entry c j i) ?_ ?_ ?_ ?_ k
    · show OffBy _ _ (whtRound (whtRow r 0 j + whtRow r 2 j + (whtRow r 1 j + whtRow r 3 j)))
      rw [← f0]
      split
      · rename_i hj; subst hj; exact hd
      · rename_i hj
        refine ha _ fun h => hj (Fin.ext ?_)
        have := congrArg Fin.val h
        simpa using this
    · show OffBy _ _ (whtRound (whtRow r 0 j - whtRow r 2 j + (whtRow r 1 j - whtRow r 3 j)))
      rw [← f1]
      exact ha _ fun h => by have := congrArg Fin.val h; simp at this
    · show OffBy _ _ (whtRound (whtRow r 0 j - whtRow r 2 j - (whtRow r 1 j - whtRow r 3 j)))
      rw [← f2]
      exact ha _ fun h => by have := congrArg Fin.val h; simp at this
    · show OffBy _ _ (whtRound (whtRow r 0 j + whtRow r 2 j - (whtRow r 1 j + whtRow r 3 j)))
      rw [← f3]
      exact ha _ fun h => by have := congrArg Fin.val h; simp at this
  obtain ⟨t, ht, g0, g1, g2, g3⟩ := whtRow_eq h y
  have c0 := col 0 y
  have c1 := col 1 y
  have c2 := col 2 y
  have c3 := col 3 y
  rw [if_pos rfl] at c0
  rw [if_neg (by decide)] at c1 c2 c3
  have c0' := g0 ▸ c0
  have c1' := g1 ▸ c1
  have c2' := g2 ▸ c2
  have c3' := g3 ▸ c3
  clear c0 c1 c2 c3 g0 g1 g2 g3 col hd ha h
  unfold walsh both
  unfold OffBy at *
  fin_cases x <;> simp only [walshLine] <;> simp only [Fin.zero_eta, Fin.mk_one, Fin.reduceFinMk] <;> constructor <;> omega

end Alfalfa
