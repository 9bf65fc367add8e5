import Verif.Spec.Quantizer
import Verif.Proof.Transform

/-! C42: the error of quantization.  C43: the choice of the quantizers. -/

namespace Alfalfa

open QuantizerSpec

/-! ### C43 -/

theorem clampQ_eq {q : Int} (h : -32768 ≤ q ∧ q ≤ 32767) : clampQ q = index q := by
  unfold clampQ index
  rw [toInt16_of_fits h]
  dsimp only
  split
  · omega
  · split <;> omega

theorem index_le (q : Int) : index q ≤ 127 := by unfold index; omega

theorem index_cast (q : Int) : index (index q : Int) = index q := by unfold index; omega

theorem ac_index (q : Int) : ac (index q) = ac q := by unfold ac; rw [index_cast]
theorem dc_index (q : Int) : dc (index q) = dc q := by unfold dc; rw [index_cast]

theorem acLookup_eq : ∀ q : Fin 128, acLookup[q.val]? = some (ac (q.val : Int)) := by decide +kernel
theorem dcLookup_eq : ∀ q : Fin 128, dcLookup[q.val]? = some (dc (q.val : Int)) := by decide +kernel

theorem lookup_ac {q : Int} (h : -32768 ≤ q ∧ q ≤ 32767) : lookup acLookup q = some (ac q) := by
  unfold lookup
  rw [clampQ_eq h, if_pos (Int.natCast_nonneg _), Int.toNat_natCast, ← ac_index]
  exact acLookup_eq ⟨index q, by have := index_le q; omega⟩

theorem lookup_dc {q : Int} (h : -32768 ≤ q ∧ q ≤ 32767) : lookup dcLookup q = some (dc q) := by
  unfold lookup
  rw [clampQ_eq h, if_pos (Int.natCast_nonneg _), Int.toNat_natCast, ← dc_index]
  exact dcLookup_eq ⟨index q, by have := index_le q; omega⟩

/-- **C43** (a quantizer from its indices): for every index of eight bits and all differences, no lookup is out of the tables, and the
steps are those that the format prescribes for the indices limited to 0 .. 127. -/
theorem C43_quantizer {i : QuantIndices} (hq : i.yAcQi ≤ 255) (hd : Differences i) : quantizer i = some (prescribed i.yAcQi i) := by
  obtain ⟨h1, h2, h3, h4, h5⟩ := hd
  unfold quantizer prescribed
  rw [lookup_ac (by omega), lookup_dc (by omega), lookup_ac (by omega), lookup_dc (by omega), lookup_ac (by omega), lookup_dc (by omega)]
  simp only [Option.bind_eq_bind, Option.bind_some, Option.pure_def]
  refine congrArg some (Quantizer.ext rfl rfl ?_ ?_ rfl ?_) <;> dsimp only
  · rw [Nat.mul_comm]; split <;> omega
  · exact Nat.mul_comm _ _
  · split <;> omega

theorem ac_range : ∀ q : Fin 128, 4 ≤ ac (q.val : Int) ∧ ac (q.val : Int) ≤ 284 := by decide +kernel
theorem dc_range : ∀ q : Fin 128, 4 ≤ dc (q.val : Int) ∧ dc (q.val : Int) ≤ 157 := by decide +kernel

theorem ac_bounds (q : Int) : 4 ≤ ac q ∧ ac q ≤ 284 := by
  rw [← ac_index]; exact ac_range ⟨index q, by have := index_le q; omega⟩

theorem dc_bounds (q : Int) : 4 ≤ dc q ∧ dc q ≤ 157 := by
  rw [← dc_index]; exact dc_range ⟨index q, by have := index_le q; omega⟩

/-- The steps that the format allows. -/
structure Quantizer.InRange (q : Quantizer) : Prop where
  yAc : 4 ≤ q.yAc ∧ q.yAc ≤ 284
  yDc : 4 ≤ q.yDc ∧ q.yDc ≤ 157
  y2Ac : 8 ≤ q.y2Ac ∧ q.y2Ac ≤ 440
  y2Dc : 8 ≤ q.y2Dc ∧ q.y2Dc ≤ 314
  uvAc : 4 ≤ q.uvAc ∧ q.uvAc ≤ 284
  uvDc : 4 ≤ q.uvDc ∧ q.uvDc ≤ 132

/-- **C43** (the range): all steps are positive and have at most nine bits. -/
theorem C43_range {i : QuantIndices} (hq : i.yAcQi ≤ 255) (hd : Differences i) {q : Quantizer} (h : quantizer i = some q) : q.InRange := by
  rw [C43_quantizer hq hd] at h
  injection h with h
  subst h
  have a1 := ac_bounds i.yAcQi
  have a2 := dc_bounds (i.yAcQi + i.yDc.getD 0)
  have a3 := ac_bounds (i.yAcQi + i.y2Ac.getD 0)
  have a4 := dc_bounds (i.yAcQi + i.y2Dc.getD 0)
  have a5 := ac_bounds (i.yAcQi + i.uvAc.getD 0)
  have a6 := dc_bounds (i.yAcQi + i.uvDc.getD 0)
  constructor <;> simp only [prescribed] <;> omega

/-- The index that the format prescribes for a segment. -/
def segmentIndex (s : Segmentation) (i : QuantIndices) (k : Fin 4) : Int := if s.absolute then s.quantizer k else i.yAcQi + s.quantizer k

theorem segmentIndices_eq (s : Segmentation) (i : QuantIndices) (k : Fin 4) (h : 0 ≤ segmentIndex s i k ∧ segmentIndex s i k ≤ 255) :
    ((segmentIndices s i k).yAcQi : Int) = segmentIndex s i k := by
  unfold segmentIndices toUInt8
  unfold segmentIndex at h ⊢
  dsimp only
  split at h <;> simp_all <;> omega

/-- **C43** (segments), for adjusted indices that are not negative.  The full statement, that
`segmentQuantizer s i k = some (prescribed (segmentIndex s i k) i)` for all adjustments, is false: see
`C43_segment_deviation`. -/
theorem C43_segment_partial {s : Segmentation} {i : QuantIndices} {k : Fin 4} (hq : i.yAcQi ≤ 127) (hs : s.quantizer k ≤ 127)
    (hd : Differences i) (h : 0 ≤ segmentIndex s i k) : segmentQuantizer s i k = some (prescribed (segmentIndex s i k) i) := by
  have hb : segmentIndex s i k ≤ 255 := by unfold segmentIndex; split <;> omega
  have e := segmentIndices_eq s i k ⟨h, hb⟩
  unfold segmentQuantizer
  rw [C43_quantizer (by omega) (by exact ⟨hd.yDc, hd.y2Dc, hd.y2Ac, hd.uvDc, hd.uvAc⟩), e]
  rfl

/-- **C43** (deviation): a negative adjusted index, which the format limits to 0, goes through an unsigned type of eight bits and
gets the coarsest quantizer in place of the finest. -/
theorem C43_segment_deviation {s : Segmentation} {i : QuantIndices} {k : Fin 4} (hd : Differences i)
    (h : segmentIndex s i k < 0) (hb : -127 ≤ segmentIndex s i k) : (∃ q, segmentQuantizer s i k = some q ∧ q.yAc = 284) ∧
      (prescribed (segmentIndex s i k) i).yAc = 4 ∧ segmentQuantizer s i k ≠ some (prescribed (segmentIndex s i k) i) := by
  have e : (segmentIndices s i k).yAcQi = segmentIndex s i k + 256 := by
    unfold segmentIndices toUInt8
    unfold segmentIndex at h hb ⊢
    dsimp only
    split at h <;> simp_all <;> omega
  have h1 : segmentQuantizer s i k = some (prescribed (segmentIndex s i k + 256) i) := by
    unfold segmentQuantizer
    rw [C43_quantizer (by omega) (by exact ⟨hd.yDc, hd.y2Dc, hd.y2Ac, hd.uvDc, hd.uvAc⟩), e]
    rfl
  have h2 : (prescribed (segmentIndex s i k + 256) i).yAc = 284 := by
    show ac _ = 284
    unfold ac
    rw [show index (segmentIndex s i k + 256) = 127 by unfold index; omega]
    rfl
  have h3 : (prescribed (segmentIndex s i k) i).yAc = 4 := by
    show ac _ = 4
    unfold ac
    rw [show index (segmentIndex s i k) = 0 by unfold index; omega]
    rfl
  refine ⟨⟨_, h1, h2⟩, h3, fun hh => ?_⟩
  rw [h1] at hh
  injection hh with hh
  rw [hh, h3] at h2
  cases h2

/-- In every case the lookups are in the tables. -/
theorem C43_segment_total {s : Segmentation} {i : QuantIndices} {k : Fin 4} (hd : Differences i) :
    ∃ q, segmentQuantizer s i k = some q ∧ q.InRange := by
  have hb : (segmentIndices s i k).yAcQi ≤ 255 := by unfold segmentIndices toUInt8; dsimp only; omega
  have hd' : Differences (segmentIndices s i k) := ⟨hd.yDc, hd.y2Dc, hd.y2Ac, hd.uvDc, hd.uvAc⟩
  exact ⟨_, C43_quantizer hb hd', C43_range hb hd' (C43_quantizer hb hd')⟩

/-- The hypotheses are met: a header with differences, and segments with adjusted indices within, above and below the table. -/
example : let i : QuantIndices := ⟨100, some (-15), none, some 15, some (-3), none⟩
    let s : Segmentation := { absolute := false, quantizer := ![-40, 60, -110, 0], filter := fun _ => 0, mapWidth := 1, mapHeight := 1, map := [0] }
    quantizer i = some ⟨167, 79, 348, 196, 167, 93⟩ ∧ (segmentQuantizer s i 0).map Quantizer.yAc = some 70 ∧
      (segmentQuantizer s i 1).map Quantizer.yAc = some 284 ∧ segmentIndex s i 2 = -10 ∧
      (segmentQuantizer s i 2).map Quantizer.yAc = some 284 := by decide +kernel

/-! ### C42 -/

/-- The value `d` is `c` quantized with a step of `f`. -/
structure Near (f : Nat) (c d : Int) : Prop where
  /-- it is a multiple of the step, -/
  multiple : (f : Int) ∣ d
  /-- it has the sign of `c`, or is zero, -/
  sign : 0 ≤ c * d
  /-- it is no larger in magnitude, -/
  smaller : |d| ≤ |c|
  /-- and it is less than a step away from `c`. -/
  close : |c - d| < f

theorem near_tdiv (c : Int) {f : Nat} (hf : 0 < f) : Near f c (c.tdiv f * f) := by
  have key : ∀ a : Nat, Near f a (((a / f : Nat) : Int) * f) := fun a => by
    have h1 := Nat.div_mul_le_self a f
    have h2 : a < a / f * f + f := by
      have := Nat.div_add_mod a f
      have := Nat.mod_lt a hf
      have := Nat.mul_comm f (a / f)
      omega
    have h1' : ((a / f : Nat) : Int) * f ≤ a := by exact_mod_cast h1
    have h2' : (a : Int) < ((a / f : Nat) : Int) * f + f := by exact_mod_cast h2
    have h0 : (0 : Int) ≤ ((a / f : Nat) : Int) * f := by positivity
    refine ⟨Dvd.intro_left _ rfl, mul_nonneg (by positivity) h0, ?_, ?_⟩
    · rw [abs_of_nonneg h0, abs_of_nonneg (by positivity)]; exact h1'
    · rw [abs_of_nonneg (by omega)]; omega
  rcases Int.le_total 0 c with h | h
  · obtain ⟨a, rfl⟩ := Int.eq_ofNat_of_zero_le h
    have := key a
    rw [Int.natCast_div] at this
    rw [Int.tdiv_eq_ediv_of_nonneg (by omega)]
    exact this
  · obtain ⟨a, ha⟩ := Int.eq_ofNat_of_zero_le (show 0 ≤ -c by omega)
    have hc : c = -a := by omega
    subst hc
    have k := key a
    rw [Int.natCast_div] at k
    rw [Int.neg_tdiv, Int.tdiv_eq_ediv_of_nonneg (by omega), Int.neg_mul]
    obtain ⟨k1, k2, k3, k4⟩ := k
    refine ⟨(Int.dvd_neg).2 k1, by rw [neg_mul_neg]; exact k2, by rw [abs_neg, abs_neg]; exact k3, ?_⟩
    rw [show -(a : Int) - -((a : Int) / f * f) = -(a - a / f * f) by ring, abs_neg]; exact k4

theorem near_fits {f : Nat} {c d : Int} (hc : -32768 ≤ c ∧ c ≤ 32767) (h : Near f c d) : -32768 ≤ d ∧ d ≤ 32767 := by
  have h1 := h.smaller
  have h2 := h.sign
  rcases lt_trichotomy c 0 with h0 | h0 | h0
  · have : d ≤ 0 := by
      by_contra hd
      have := mul_neg_of_neg_of_pos h0 (show 0 < d by omega)
      omega
    rw [abs_of_nonpos this, abs_of_neg h0] at h1
    omega
  · subst h0; rw [abs_zero] at h1; have := abs_nonneg d; have := abs_eq_zero.1 (le_antisymm h1 this); omega
  · have : 0 ≤ d := by
      by_contra hd
      have := mul_neg_of_pos_of_neg h0 (show d < 0 by omega)
      omega
    rw [abs_of_nonneg this, abs_of_pos h0] at h1
    omega

theorem tdiv_fits {f : Nat} (hf : 0 < f) {c : Int} (hc : -32768 ≤ c ∧ c ≤ 32767) : -32768 ≤ c.tdiv f ∧ c.tdiv f ≤ 32767 := by
  have h := near_fits hc (near_tdiv c hf)
  have e : (c.tdiv f).natAbs * f = (c.tdiv f * f).natAbs := by rw [Int.natAbs_mul]; rfl
  have h1 : (c.tdiv f).natAbs ≤ (c.tdiv f).natAbs * f := Nat.le_mul_of_pos_right _ hf
  rcases Int.le_total 0 (c.tdiv f) with h0 | h0
  · have : 0 ≤ c.tdiv f * f := mul_nonneg h0 (by positivity)
    omega
  · have : c.tdiv f * f ≤ 0 := mul_nonpos_of_nonpos_of_nonneg h0 (by positivity)
    omega

/-- **C42**: for all coefficients of 16 bits and all steps but zero, quantization succeeds, what dequantization then gives is `Near` the
coefficients, and quantizing that again gives the same. -/
theorem C42_error {dc ac : Nat} (hd : 0 < dc) (ha : 0 < ac) {c : Fin 16 → Int} (hc : ∀ i, -32768 ≤ c i ∧ c i ≤ 32767) :
    ∃ k, quantize dc ac c = some k ∧ quantize dc ac (dequantize dc ac k) = some k ∧
      Near dc (c 0) (dequantize dc ac k 0) ∧ ∀ i, i ≠ 0 → Near ac (c i) (dequantize dc ac k i) := by
  set f : Fin 16 → Nat := fun i => if i = 0 then dc else ac with hf
  have hpos : ∀ i, 0 < f i := fun i => by rw [hf]; dsimp only; split <;> assumption
  have hq : ∀ c, quantize dc ac c = some fun i => toInt16 ((c i).tdiv (f i)) := fun c => by
    unfold quantize; rw [if_neg (by omega)]
  have e1 : ∀ i, toInt16 ((c i).tdiv (f i)) = (c i).tdiv (f i) := fun i => toInt16_of_fits (tdiv_fits (hpos i) (hc i))
  have e2 : dequantize dc ac (fun i => toInt16 ((c i).tdiv (f i))) = fun i => (c i).tdiv (f i) * f i := by
    funext i
    show toInt16 (toInt16 _ * _) = _
    rw [e1]
    exact toInt16_of_fits (near_fits (hc i) (near_tdiv (c i) (hpos i)))
  refine ⟨_, hq c, ?_, ?_, fun i hi => ?_⟩
  · rw [e2, hq]
    refine congrArg some (funext fun i => ?_)
    rw [Int.mul_tdiv_cancel _ (by have := hpos i; omega)]
  · rw [e2]; exact near_tdiv _ (hpos 0)
  · rw [e2]
    have : f i = ac := if_neg hi
    dsimp only
    rw [this]; exact near_tdiv _ ha

/-- The three kinds of blocks use their own steps, for every quantizer there is. -/
theorem C42_kinds {i : QuantIndices} (hq : i.yAcQi ≤ 255) (hd : Differences i) {c : Fin 16 → Int} (hc : ∀ i, -32768 ≤ c i ∧ c i ≤ 32767) :
    ∃ q, quantizer i = some q ∧
      (∃ k, q.quantizeY c = some k ∧ q.quantizeY (q.dequantizeY k) = some k ∧
        Near q.yDc (c 0) (q.dequantizeY k 0) ∧ ∀ i, i ≠ 0 → Near q.yAc (c i) (q.dequantizeY k i)) ∧
      (∃ k, q.quantizeY2 c = some k ∧ q.quantizeY2 (q.dequantizeY2 k) = some k ∧
        Near q.y2Dc (c 0) (q.dequantizeY2 k 0) ∧ ∀ i, i ≠ 0 → Near q.y2Ac (c i) (q.dequantizeY2 k i)) ∧
      (∃ k, q.quantizeUV c = some k ∧ q.quantizeUV (q.dequantizeUV k) = some k ∧
        Near q.uvDc (c 0) (q.dequantizeUV k 0) ∧ ∀ i, i ≠ 0 → Near q.uvAc (c i) (q.dequantizeUV k i)) := by
  have h := C43_quantizer hq hd
  have hr := C43_range hq hd h
  refine ⟨_, h, C42_error ?_ ?_ hc, C42_error ?_ ?_ hc, C42_error ?_ ?_ hc⟩
  · have := hr.yDc.1; omega
  · have := hr.yAc.1; omega
  · have := hr.y2Dc.1; omega
  · have := hr.y2Ac.1; omega
  · have := hr.uvDc.1; omega
  · have := hr.uvAc.1; omega

/-- The hypotheses are met, and the bounds are the best: a remainder one below the step, and a negative coefficient. -/
example : let c : Fin 16 → Int := ![-1007, 399, -399, 32767, -32768, 0, 0, 0, 0, 0, 0, 0, 0, 0, 0, 0]
    ∃ k, quantize 8 100 c = some k ∧ (List.finRange 16).map k = [-125, 3, -3, 327, -327, 0, 0, 0, 0, 0, 0, 0, 0, 0, 0, 0] ∧
      (List.finRange 16).map (dequantize 8 100 k) = [-1000, 300, -300, 32700, -32700, 0, 0, 0, 0, 0, 0, 0, 0, 0, 0, 0] :=
  ⟨_, rfl, by decide +kernel, by decide +kernel⟩

/-- The other way round the product may not fit: a coefficient that can be coded, with a step from the table, changes its sign. -/
theorem C42_dequantize_overflow : ∃ c : Fin 16 → Int, (∀ i, c i = if i = 0 then 2048 else 0) ∧ dequantize 157 4 c 0 = -6144 := 
  ⟨fun i => if i = 0 then 2048 else 0, fun _ => rfl, by decide +kernel⟩

end Alfalfa
