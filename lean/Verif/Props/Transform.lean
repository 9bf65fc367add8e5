import Verif.Proof.Transform
import Verif.Props.Intra
import Verif.Props.Quantizer

/-! C41: the inverse transforms. -/

namespace Alfalfa

open TransformSpec

theorem idctAdd_eq {c : Fin 16 → Int} {f : Fin 4 → Fin 4 → Int} (h : ∀ column row, idct c column row = f column row)
    {p : Plane} (hp : p.Full) {x y : Nat} (hx : x + 4 ≤ p.width) (hy : y + 4 ≤ p.height) : ∃ q : Plane, idctAdd c p x y = some q ∧
      p.Painted q x y fun column row : Fin 4 => UInt8.ofNat (IntraSpec.limited ((p.px (x + column) (y + row)).toNat + f column row)) := by
  unfold idctAdd
  rw [Plane.getSquare_spec hp hx hy, Option.bind_eq_bind, Option.bind_some]
  convert Plane.putSquare_spec hp _ hx hy using 5
  funext row
  rw [clamp255_eq, h]; rfl

/-- **C41** (cosine transform): for every picture, 4x4 block of it and coefficients, the residue as the format defines it is added to
the block with saturation and no other pixel changes, provided that the transformed columns fit in 16 bits. -/
theorem C41_idct {c : Fin 16 → Int} (h : Fits line c) {p : Plane} (hp : p.Full) {x y : Nat} (hx : x + 4 ≤ p.width) (hy : y + 4 ≤ p.height) :
    ∃ q : Plane, idctAdd c p x y = some q ∧
      p.Painted q x y fun column row : Fin 4 =>
        UInt8.ofNat (IntraSpec.limited ((p.px (x + column) (y + row)).toNat + residue c column row)) := idctAdd_eq (idct_eq h) hp hx hy

/-- **C41** (Walsh transform). -/
theorem C41_iwht {c : Fin 16 → Int} (h : Fits walshLine c) (column row : Fin 4) : iwht c column row = walsh c column row := iwht_eq h column row

/-- Only the first coefficient is not zero. -/
def dcOnly (dc : Int) (i : Fin 16) : Int := if i = 0 then dc else 0

theorem entry_dcOnly (dc : Int) (column row : Fin 4) : entry (dcOnly dc) column row = if column = 0 ∧ row = 0 then dc else 0 := by
  fin_cases column <;> fin_cases row <;> rfl

theorem columns_line_dcOnly (dc : Int) (column row : Fin 4) : columns line (dcOnly dc) column row = if column = 0 then dc else 0 := by
  unfold columns
  simp only [entry_dcOnly]
  fin_cases column <;> fin_cases row <;> simp [line, cosine, sine]

theorem columns_walsh_dcOnly (dc : Int) (column row : Fin 4) : columns walshLine (dcOnly dc) column row = if column = 0 then dc else 0 := by
  unfold columns
  simp only [entry_dcOnly]
  fin_cases column <;> fin_cases row <;> simp [walshLine]

theorem both_line_dcOnly (dc : Int) (column row : Fin 4) : both line (dcOnly dc) column row = dc := by
  unfold both
  simp only [columns_line_dcOnly]
  fin_cases column <;> simp [line, cosine, sine]

theorem both_walsh_dcOnly (dc : Int) (column row : Fin 4) : both walshLine (dcOnly dc) column row = dc := by
  unfold both
  simp only [columns_walsh_dcOnly]
  fin_cases column <;> simp [walshLine]

/-- **C41** (cosine transform, DC only): for every DC coefficient of 16 bits, the same number is added to all sixteen pixels. -/
theorem C41_idct_dc {dc : Int} (h : -32768 ≤ dc ∧ dc ≤ 32767) {p : Plane} (hp : p.Full) {x y : Nat} (hx : x + 4 ≤ p.width)
    (hy : y + 4 ≤ p.height) : ∃ q : Plane, idctAdd (dcOnly dc) p x y = some q ∧
      p.Painted q x y fun column row : Fin 4 =>
        UInt8.ofNat (IntraSpec.limited ((p.px (x + column) (y + row)).toNat + (dc + 4) / 8)) := by
  have hf : Fits line (dcOnly dc) := fun column row => by rw [columns_line_dcOnly]; split <;> omega
  obtain ⟨q, hq, hp⟩ := C41_idct hf hp hx hy
  refine ⟨q, hq, ?_⟩
  simpa only [residue, both_line_dcOnly] using hp

/-- **C41** (Walsh transform, DC only): for every DC coefficient of 16 bits, all sixteen blocks get the same DC coefficient. -/
theorem C41_iwht_dc {dc : Int} (h : -32768 ≤ dc ∧ dc ≤ 32767) (column row : Fin 4) : iwht (dcOnly dc) column row = (dc + 3) / 8 := by
  have hf : Fits walshLine (dcOnly dc) := fun column row => by rw [columns_walsh_dcOnly]; split <;> omega
  rw [C41_iwht hf, walsh, both_walsh_dcOnly]

theorem line_bound {v : Fin 4 → Int} {a b : Int} (h0 : |v 0| ≤ a) (h2 : |v 2| ≤ b) (h1 : |v 1| ≤ b) (h3 : |v 3| ≤ b)
    (hb : a + 3 * b ≤ 32765) (row : Fin 4) : -32768 ≤ line v row ∧ line v row ≤ 32767 := by
  rw [abs_le] at h0 h1 h2 h3
  fin_cases row <;> simp only [line, cosine, sine] <;> omega

theorem walshLine_bound {v : Fin 4 → Int} (h : |v 0| + |v 1| + |v 2| + |v 3| ≤ 32767) (row : Fin 4) :
    -32767 ≤ walshLine v row ∧ walshLine v row ≤ 32767 := by
  have h0 := neg_abs_le (v 0); have h0' := le_abs_self (v 0)
  have h1 := neg_abs_le (v 1); have h1' := le_abs_self (v 1)
  have h2 := neg_abs_le (v 2); have h2' := le_abs_self (v 2)
  have h3 := neg_abs_le (v 3); have h3' := le_abs_self (v 3)
  fin_cases row <;> simp only [walshLine] <;> omega

/-- **C41** (range): coefficients of 14 bits never overflow. -/
theorem C41_idct_range {c : Fin 16 → Int} (h : ∀ i, |c i| ≤ 8191) : Fits line c := fun _ row =>
  line_bound (h _) (h _) (h _) (h _) (by norm_num) row

theorem C41_iwht_range {c : Fin 16 → Int} (h : ∀ i, |c i| ≤ 8191) : Fits walshLine c := fun column row => by
  have := walshLine_bound (v := fun k => entry c column k) (by
    have h0 := h ⟨4 * (0 : Fin 4) + column, by omega⟩
    have h1 := h ⟨4 * (1 : Fin 4) + column, by omega⟩
    have h2 := h ⟨4 * (2 : Fin 4) + column, by omega⟩
    have h3 := h ⟨4 * (3 : Fin 4) + column, by omega⟩
    simp only [entry]; omega) row
  exact ⟨by unfold columns; omega, this.2⟩

/-- Beyond that range they may: 16-bit coefficients for which the code departs from the transform of the format. -/
theorem C41_idct_overflow : ∃ c : Fin 16 → Int, (∀ i, |c i| ≤ 16384) ∧ ¬ Fits line c ∧ idct c 0 0 ≠ residue c 0 0 := by
  refine ⟨fun i => if i = 0 ∨ i = 8 then 16384 else 0, by decide +kernel, fun h => ?_, by decide +kernel⟩
  exact absurd (h 0 0).2 (by decide +kernel)

/-- The hypotheses are met by coefficients of which none is zero. -/
example : let c : Fin 16 → Int := fun i => 300 - 37 * i
    Fits line c ∧ Fits walshLine c ∧ residue c 1 2 = 17 ∧ walsh c 3 1 = 0 ∧ residue c 0 0 = 116 :=
  ⟨C41_idct_range (by decide +kernel), C41_iwht_range (by decide +kernel), by decide +kernel, by decide +kernel, by decide +kernel⟩

/-! ### The encoder's own coefficients -/

theorem fdctRow_bound {input : Fin 16 → Int} (h : ∀ i, |input i| ≤ 255) {i k : Nat} (_ : i < 4) (hk : k < 4) :
    |fdctRow input i k| ≤ 8160 := by
  have hb : ∀ j, -255 ≤ at16 input j ∧ at16 input j ≤ 255 := fun j => by
    unfold at16
    split
    · exact abs_le.1 (h _)
    · omega
  have b0 := hb (4 * i + 0)
  have b1 := hb (4 * i + 1)
  have b2 := hb (4 * i + 2)
  have b3 := hb (4 * i + 3)
  unfold fdctRow
  simp only [shr12]
  generalize at16 input (4 * i + 0) = v0 at *
  generalize at16 input (4 * i + 1) = v1 at *
  generalize at16 input (4 * i + 2) = v2 at *
  generalize at16 input (4 * i + 3) = v3 at *
  split <;> rw [toInt16_of_fits (by omega), abs_le] <;> omega

theorem fdct_bound {input : Fin 16 → Int} (h : ∀ i, |input i| ≤ 255) (i : Fin 16) : |fdct input i| ≤ 2041 := by
  have hb : ∀ j, -8160 ≤ at16 (fdctIntermediate input) j ∧ at16 (fdctIntermediate input) j ≤ 8160 := fun j => by
    unfold at16
    split
    · exact abs_le.1 (fdctRow_bound h (by dsimp only; omega) (by dsimp only; omega))
    · omega
  have b0 := hb (i.val % 4 + 0)
  have b1 := hb (i.val % 4 + 4)
  have b2 := hb (i.val % 4 + 8)
  have b3 := hb (i.val % 4 + 12)
  unfold fdct
  simp only [shr4, shr16]
  generalize at16 (fdctIntermediate input) (i.val % 4 + 0) = v0 at *
  generalize at16 (fdctIntermediate input) (i.val % 4 + 4) = v1 at *
  generalize at16 (fdctIntermediate input) (i.val % 4 + 8) = v2 at *
  generalize at16 (fdctIntermediate input) (i.val % 4 + 12) = v3 at *
  have hi : i.val / 4 < 4 := by omega
  generalize i.val / 4 = k at *
  have ht : ∀ P : Prop, [Decidable P] → 0 ≤ (if P then (1 : Int) else 0) ∧ (if P then (1 : Int) else 0) ≤ 1 := fun P _ => by split <;> decide
  have := ht (v0 - v3 ≠ 0)
  split <;> rw [toInt16_of_fits (by omega), abs_le] <;> omega

/-- **C41** (encoder): the coefficients of every difference of two blocks of pixels have at most 12 bits. -/
theorem C41_forward_range (block prediction : Square 4) (i : Fin 16) : |subtractDct block prediction i| ≤ 2041 := by
  refine fdct_bound (fun i => ?_) i
  have h1 := (block ⟨i.val % 4, by omega⟩ ⟨i.val / 4, by omega⟩).toNat_lt
  have h2 := (prediction ⟨i.val % 4, by omega⟩ ⟨i.val / 4, by omega⟩).toNat_lt
  rw [abs_le]; omega

theorem whtRow_bound {input : Fin 16 → Int} (h : ∀ i, |input i| ≤ 2041) {i k : Nat} (hk : k < 4) : |whtRow input i k| ≤ 32657 := by
  have hb : ∀ j, -2041 ≤ at16 input j ∧ at16 input j ≤ 2041 := fun j => by
    unfold at16
    split
    · exact abs_le.1 (h _)
    · omega
  have b0 := hb (4 * i + 0)
  have b1 := hb (4 * i + 1)
  have b2 := hb (4 * i + 2)
  have b3 := hb (4 * i + 3)
  unfold whtRow
  generalize at16 input (4 * i + 0) = v0 at *
  generalize at16 input (4 * i + 1) = v1 at *
  generalize at16 input (4 * i + 2) = v2 at *
  generalize at16 input (4 * i + 3) = v3 at *
  have ht : ∀ P : Prop, [Decidable P] → 0 ≤ (if P then (1 : Int) else 0) ∧ (if P then (1 : Int) else 0) ≤ 1 := fun P _ => by split <;> decide
  have := ht ((v0 + v2) * 4 ≠ 0)
  split <;> rw [toInt16_of_fits (by omega), abs_le] <;> omega

theorem whtRound_bound {a : Int} (h : |a| ≤ 130628) : toInt16 (whtRound a) = whtRound a ∧ 8 * |whtRound a| ≤ |a| + 3 := by
  unfold whtRound
  rw [shr3]
  rw [abs_le] at h
  refine ⟨toInt16_of_fits (by split <;> omega), ?_⟩
  split
  · rw [abs_of_neg (by omega : a < 0), abs_of_nonpos (by omega)]; omega
  · rw [abs_of_nonneg (by omega : 0 ≤ a), abs_of_nonneg (by omega)]; omega

theorem walsh_sum {v0 v1 v2 v3 m : Int} (h0 : |v0| ≤ m) (h1 : |v1| ≤ m) (h2 : |v2| ≤ m) (h3 : |v3| ≤ m) :
    |v0 + v2 + (v1 + v3)| + |v0 - v2 + (v1 - v3)| + |v0 - v2 - (v1 - v3)| + |v0 + v2 - (v1 + v3)| ≤ 8 * m := by
  rw [abs_le] at h0 h1 h2 h3
  rcases abs_cases (v0 + v2 + (v1 + v3)) with ⟨e1, _⟩ | ⟨e1, _⟩ <;> rcases abs_cases (v0 - v2 + (v1 - v3)) with ⟨e2, _⟩ | ⟨e2, _⟩ <;>
  rcases abs_cases (v0 - v2 - (v1 - v3)) with ⟨e3, _⟩ | ⟨e3, _⟩ <;> rcases abs_cases (v0 + v2 - (v1 + v3)) with ⟨e4, _⟩ | ⟨e4, _⟩ <;>
  rw [e1, e2, e3, e4] <;> omega

/-- The sum of the magnitudes of a column of coefficients of the Walsh transform. -/
theorem wht_sum {input : Fin 16 → Int} (h : ∀ i, |input i| ≤ 2041) (column : Fin 4) :
    |entry (wht input) column 0| + |entry (wht input) column 1| + |entry (wht input) column 2| + |entry (wht input) column 3| ≤ 32658 := by
  have hb : ∀ j, |at16 (whtIntermediate input) j| ≤ 32657 := fun j => by
    unfold at16
    split
    · exact whtRow_bound h (by dsimp only; omega)
    · decide
  have hc := column.2
  have b0 := hb (column + 0)
  have b1 := hb (column + 4)
  have b2 := hb (column + 8)
  have b3 := hb (column + 12)
  have e : ∀ k : Fin 4, entry (wht input) column k = toInt16 (whtRound (match k.val with
    | 0 => at16 (whtIntermediate input) (column + 0) + at16 (whtIntermediate input) (column + 8) +
        (at16 (whtIntermediate input) (column + 4) + at16 (whtIntermediate input) (column + 12))
    | 1 => at16 (whtIntermediate input) (column + 0) - at16 (whtIntermediate input) (column + 8) +
        (at16 (whtIntermediate input) (column + 4) - at16 (whtIntermediate input) (column + 12))
    | 2 => at16 (whtIntermediate input) (column + 0) - at16 (whtIntermediate input) (column + 8) -
        (at16 (whtIntermediate input) (column + 4) - at16 (whtIntermediate input) (column + 12))
    | _ => at16 (whtIntermediate input) (column + 0) + at16 (whtIntermediate input) (column + 8) -
        (at16 (whtIntermediate input) (column + 4) + at16 (whtIntermediate input) (column + 12)))) := fun k => by
    fin_cases column <;> fin_cases k <;> rfl
  generalize at16 (whtIntermediate input) (column + 0) = v0 at *
  generalize at16 (whtIntermediate input) (column + 4) = v1 at *
  generalize at16 (whtIntermediate input) (column + 8) = v2 at *
  generalize at16 (whtIntermediate input) (column + 12) = v3 at *
  have hs := walsh_sum b0 b1 b2 b3
  rw [abs_le] at b0 b1 b2 b3
  have r0 := whtRound_bound (a := v0 + v2 + (v1 + v3)) (by rw [abs_le]; omega)
  have r1 := whtRound_bound (a := v0 - v2 + (v1 - v3)) (by rw [abs_le]; omega)
  have r2 := whtRound_bound (a := v0 - v2 - (v1 - v3)) (by rw [abs_le]; omega)
  have r3 := whtRound_bound (a := v0 + v2 - (v1 + v3)) (by rw [abs_le]; omega)
  have e0 := e 0
  have e1 := e 1
  have e2 := e 2
  have e3 := e 3
  simp only [Fin.val_zero, Fin.val_one, Fin.val_two, show ((3 : Fin 4).val) = 3 from rfl] at e0 e1 e2 e3
  rw [e0, e1, e2, e3, r0.1, r1.1, r2.1, r3.1]
  omega

/-- What the encoder keeps of some coefficients: quantized and dequantized. -/
def kept (dc ac : Nat) (c : Fin 16 → Int) : Option (Fin 16 → Int) := (quantize dc ac c).map (dequantize dc ac)

theorem kept_smaller {dc ac : Nat} (hd : 0 < dc) (ha : 0 < ac) {c : Fin 16 → Int} (hc : ∀ i, -32768 ≤ c i ∧ c i ≤ 32767) :
    ∃ k, kept dc ac c = some k ∧ ∀ i, |k i| ≤ |c i| := by
  obtain ⟨k, hk, _, h0, hi⟩ := C42_error hd ha hc
  refine ⟨_, by rw [kept, hk]; rfl, fun i => ?_⟩
  by_cases h : i = 0
  · subst h; exact h0.smaller
  · exact (hi i h).smaller

/-- **C41** (encoder, blocks with their own DC coefficient): for every block, prediction and step sizes, the reconstruction from the
encoder's quantized coefficients does not overflow. -/
theorem C41_encoder (block prediction : Square 4) {dc ac : Nat} (hd : 0 < dc) (ha : 0 < ac) :
    ∃ k, kept dc ac (subtractDct block prediction) = some k ∧ Fits line k := by
  have hb := C41_forward_range block prediction
  obtain ⟨k, hk, hs⟩ := kept_smaller hd ha (c := subtractDct block prediction) (fun i => by have := abs_le.1 (hb i); omega)
  exact ⟨k, hk, C41_idct_range fun i => (hs i).trans ((hb i).trans (by norm_num))⟩

/-- **C41** (encoder, sixteen luma blocks with a Walsh transform of their DC coefficients): the second-order coefficients neither
overflow when they are transformed back, nor do they make the blocks overflow. -/
theorem C41_encoder_walsh {input : Fin 16 → Int} (hi : ∀ i, |input i| ≤ 2041) {dc ac : Nat} (hd : 0 < dc) (ha : 0 < ac) :
    ∃ k, kept dc ac (wht input) = some k ∧ Fits walshLine k ∧
      ∀ column row, ∀ c : Fin 16 → Int, c 0 = iwht k column row → (∀ i, i ≠ 0 → |c i| ≤ 2041) → Fits line c := by
  have hw := wht_sum hi
  have hall : ∀ i, -32768 ≤ wht input i ∧ wht input i ≤ 32767 := fun i => by
    have h := hw ⟨i.val % 4, by omega⟩
    have e : ∃ r : Fin 4, wht input i = entry (wht input) ⟨i.val % 4, by omega⟩ r := ⟨⟨i.val / 4, by omega⟩, by
      unfold entry; congr 1; apply Fin.ext; dsimp only; omega⟩
    obtain ⟨r, hr⟩ := e
    rw [hr]
    have a0 := abs_nonneg (entry (wht input) ⟨i.val % 4, by omega⟩ 0)
    have a1 := abs_nonneg (entry (wht input) ⟨i.val % 4, by omega⟩ 1)
    have a2 := abs_nonneg (entry (wht input) ⟨i.val % 4, by omega⟩ 2)
    have a3 := abs_nonneg (entry (wht input) ⟨i.val % 4, by omega⟩ 3)
    have hb : |entry (wht input) ⟨i.val % 4, by omega⟩ r| ≤ 32658 := by
      fin_cases r <;> dsimp only at h a0 a1 a2 a3 ⊢ <;> simp only [Fin.zero_eta, Fin.mk_one, Fin.reduceFinMk] <;> omega
    rw [abs_le] at hb; omega
  obtain ⟨k, hk, hs⟩ := kept_smaller hd ha hall
  have hcol : ∀ column, |entry k column 0| + |entry k column 1| + |entry k column 2| + |entry k column 3| ≤ 32658 := fun column => by
    have h := hw column
    have a0 : |entry k column 0| ≤ |entry (wht input) column 0| := hs _
    have a1 : |entry k column 1| ≤ |entry (wht input) column 1| := hs _
    have a2 : |entry k column 2| ≤ |entry (wht input) column 2| := hs _
    have a3 : |entry k column 3| ≤ |entry (wht input) column 3| := hs _
    omega
  have hf : ∀ column row, -32767 ≤ columns walshLine k column row ∧ columns walshLine k column row ≤ 32767 := fun column row =>
    walshLine_bound (by have := hcol column; omega) row
  have hfits : Fits walshLine k := fun column row => by have := hf column row; omega
  refine ⟨k, hk, hfits, fun column row c h0 hc => ?_⟩
  rw [iwht_eq hfits] at h0
  have hdc : |c 0| ≤ 16384 := by
    have f0 := hf 0 row
    have f1 := hf 1 row
    have f2 := hf 2 row
    have f3 := hf 3 row
    rw [h0, abs_le]
    unfold walsh both
    fin_cases column <;> simp only [walshLine] <;> omega
  have ha : ∀ i, |c i| ≤ 16384 := fun i => by
    by_cases h : i = 0
    · subst h; exact hdc
    · exact (hc i h).trans (by norm_num)
  refine fun column row => line_bound (a := 16384) (b := 2041) (ha _) (hc _ ?_) (hc _ ?_) (hc _ ?_) (by norm_num) row
  · intro h; have := congrArg Fin.val h; dsimp only at this; simp at this
  · intro h; have := congrArg Fin.val h; dsimp only at this; simp at this
  · intro h; have := congrArg Fin.val h; dsimp only at this; simp at this

end Alfalfa
