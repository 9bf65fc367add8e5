import Verif.Proof.Fidelity
import Verif.Proof.Reencode
import Verif.Props.Encode
import Verif.Props.SecondPass
import Verif.Spec.SseRender
import Verif.Spec.Fidelity

/-! What either pass over a key frame keeps of the coefficients of a block. -/

namespace Alfalfa

open RenderSpec TransformSpec

theorem line_range {v : Fin 4 → Int} {a b : Int} (h0 : |v 0| ≤ a) (h1 : |v 1| ≤ b) (h2 : |v 2| ≤ b) (h3 : |v 3| ≤ b) (row : Fin 4) :
    1000 * |line v row| ≤ 1000 * a + 2849 * b + 2000 := by
  have e : ∀ x : Int, 1000 * |x| ≤ 1000 * a + 2849 * b + 2000 ↔ -(1000 * a + 2849 * b + 2000) ≤ 1000 * x ∧ 1000 * x ≤ 1000 * a + 2849 * b + 2000 := fun x => by
    rcases abs_cases x with ⟨e, _⟩ | ⟨e, _⟩ <;> rw [e] <;> omega
  rw [e]
  rw [abs_le] at h0 h1 h2 h3
  fin_cases row <;> simp only [line, cosine, sine] <;> omega

/-- Coefficients as they come out of the encoder's transforms do not overflow in either pass, even if the DC coefficient comes from the Walsh transform. -/
theorem both_range {c : Fin 16 → Int} (h0 : |c 0| ≤ 3800) (h : ∀ i, i ≠ 0 → |c i| ≤ 2041) :
    (∀ i, -32768 ≤ c i ∧ c i ≤ 32767) ∧ Fits line c ∧ ∀ column row, -32768 ≤ both line c column row + 4 ∧ both line c column row + 4 ≤ 32767 := by
  have hne : ∀ (column row : Fin 4), column ≠ 0 ∨ row ≠ 0 → |entry c column row| ≤ 2041 := fun column row hn => h _ (by
    intro he
    have := congrArg Fin.val he
    dsimp only at this
    simp at this
    rcases hn with hn | hn <;> exact hn (Fin.ext (by simp; omega)))
  have he : ∀ column, |entry c column 0| ≤ if column = 0 then 3800 else 2041 := fun column => by
    split
    · rename_i hc; subst hc; exact h0
    · exact hne _ _ (Or.inl ‹_›)
  have hcol : ∀ column row, |columns line c column row| ≤ if column = 0 then 9618 else 7859 := fun column row => by
    have := line_range (v := fun k => entry c column k) (he column) (hne _ 1 (Or.inr (by decide))) (hne _ 2 (Or.inr (by decide))) (hne _ 3 (Or.inr (by decide))) row
    unfold columns
    by_cases hc : column = 0
    · subst hc; simp only [if_true] at this ⊢; omega
    · simp only [hc, if_false] at this ⊢; omega
  refine ⟨fun i => ?_, fun column row => ?_, fun column row => ?_⟩
  · by_cases hi : i = 0
    · subst hi; have := abs_le.mp h0; omega
    · have := abs_le.mp (h i hi); omega
  · have := hcol column row
    split at this <;> have := abs_le.mp this <;> omega
  · have := line_range (v := fun k => columns line c k row) (hcol 0 row) (hcol 1 row) (hcol 2 row) (hcol 3 row) column
    have e : 1000 * |both line c column row| ≤ 1000 * 9618 + 2849 * 7859 + 2000 := this
    have := abs_le.mp (show |both line c column row| ≤ 32010 by omega)
    omega

/-- What is kept of a block by plain division. -/
theorem quantize_scaled {dc ac : Nat} {c z : Fin 16 → Int} (hc : ∀ i, |c i| ≤ 32767) (h : quantize dc ac c = some z) :
    scaled dc ac (codedBlock z) = dequantize dc ac z ∧ ∀ i, |scaled dc ac (codedBlock z) i| ≤ |c i| := by
  unfold quantize at h
  split at h
  · exact nomatch h
  next hn =>
  cases h
  have key : ∀ i, |scaled dc ac (codedBlock fun i => toInt16 ((c i).tdiv (if i = 0 then dc else ac : Nat))) i| ≤ |c i| := fun i => by
    unfold scaled codedBlock
    dsimp only
    obtain ⟨f, hf⟩ : ∃ f : Nat, f = if i = 0 then dc else ac := ⟨_, rfl⟩
    rw [← hf]
    have hd : |(c i).tdiv f| ≤ |c i| := by
      rw [Int.abs_eq_natAbs, Int.abs_eq_natAbs, Int.natAbs_tdiv, Int.natAbs_natCast]
      exact_mod_cast Nat.div_le_self _ _
    have := abs_le.1 (hd.trans (hc i))
    rw [toInt16_of_fits (by omega)]
    rw [Int.abs_eq_natAbs, Int.abs_eq_natAbs, Int.natAbs_mul, Int.natAbs_tdiv, Int.natAbs_natCast]
    exact_mod_cast Nat.div_mul_le_self _ _
  refine ⟨?_, key⟩
  funext i
  have := abs_le.1 ((key i).trans (hc i))
  exact (toInt16_of_fits (by omega)).symm

/-- One step towards zero from what plain division gives. -/
theorem oneStep_scaled {c v : Int} {f : Nat} (hf : 0 < f) (h : OneStep (c.tdiv f) v) : |v * f| ≤ |c| ∧ |v * f - c| ≤ 2 * f - 1 := by
  have hm := Int.mul_tdiv_add_tmod c f
  have ht : (c.tmod f).natAbs < f := by rw [Int.natAbs_tmod]; exact Nat.mod_lt _ hf
  have hp : 0 ≤ c → 0 ≤ c.tdiv f ∧ 0 ≤ c.tmod f := fun h => ⟨Int.tdiv_nonneg h (by omega), Int.tmod_nonneg _ h⟩
  have hn : c ≤ 0 → c.tdiv f ≤ 0 ∧ c.tmod f ≤ 0 := fun h => by
    have h1 := Int.tdiv_nonneg (a := -c) (b := f) (by omega) (by omega)
    have h2 := Int.tmod_nonneg (a := -c) f (by omega)
    rw [Int.neg_tdiv] at h1
    rw [Int.neg_tmod] at h2
    omega
  generalize c.tdiv f = q at *
  generalize c.tmod f = r at *
  have hq : 0 ≤ q → 0 ≤ (f : Int) * q := fun h => mul_nonneg (by omega) h
  have hq' : q ≤ 0 → (f : Int) * q ≤ 0 := fun h => mul_nonpos_of_nonneg_of_nonpos (by omega) h
  have hq1 : 0 < q → (f : Int) ≤ f * q := fun h => le_mul_of_one_le_right (by omega) (by omega)
  have hq2 : q < 0 → (f : Int) * q ≤ -f := fun h => by nlinarith
  have e : v * f = f * q ∨ (0 < q ∧ v * f = f * q - f) ∨ (q < 0 ∧ v * f = f * q + f) := by
    rcases h with rfl | ⟨h, rfl⟩ | ⟨h, rfl⟩
    · left; ring
    · right; left; exact ⟨h, by ring⟩
    · right; right; exact ⟨h, by ring⟩
  generalize v * f = w at *
  generalize (f : Int) * q = u at *
  rcases le_total 0 c with h0 | h0
  · obtain ⟨a, b⟩ := hp h0
    have := hq a
    rw [abs_of_nonneg h0, abs_le, abs_le]
    omega
  · obtain ⟨a, b⟩ := hn h0
    have := hq' a
    rw [abs_of_nonpos h0, abs_le, abs_le]
    omega

/-- What either pass keeps of a block whose DC coefficient is its own or has been moved. -/
theorem compress_scaled {pass : Option SecondPass} {mb : Nat} {b : Fin 25} {q : Quantizer} {type : BlockType} {c z : Fin 16 → Int}
    (hc : ∀ i, |c i| ≤ 32767) (hq : 0 < (q.factors type).1 ∧ 0 < (q.factors type).2) (ht : type = .yAfterY2 → c 0 = 0) (h : compress pass mb b q type c = some z) :
    scaled (q.factors type).1 (q.factors type).2 (codedBlock z) = dequantize (q.factors type).1 (q.factors type).2 z ∧
    ∀ i, |scaled (q.factors type).1 (q.factors type).2 (codedBlock z) i| ≤ |c i| ∧
      OffBy (2 * (if i = 0 then (q.factors type).1 else (q.factors type).2 : Nat) - 1) (scaled (q.factors type).1 (q.factors type).2 (codedBlock z) i) (c i) := by
  have hplain : quantize (q.factors type).1 (q.factors type).2 c = some fun i => (c i).tdiv (if i = 0 then (q.factors type).1 else (q.factors type).2 : Nat) := by
    unfold quantize
    rw [if_neg (by omega)]
    refine congrArg some (funext fun i => toInt16_of_fits ?_)
    have hd : |(c i).tdiv (if i = 0 then (q.factors type).1 else (q.factors type).2 : Nat)| ≤ |c i| := by
      rw [Int.abs_eq_natAbs, Int.abs_eq_natAbs, Int.natAbs_tdiv, Int.natAbs_natCast]
      exact_mod_cast Nat.div_le_self _ _
    have := abs_le.1 (hd.trans (hc i))
    omega
  have hnear : ∀ i, OneStep ((c i).tdiv (if i = 0 then (q.factors type).1 else (q.factors type).2 : Nat)) (z i) := by
    cases pass with
    | none =>
      obtain rfl : z = _ := Option.some.inj (h.symm.trans hplain)
      exact fun i => Or.inl rfl
    | some s =>
      obtain ⟨hn, -, h0⟩ := C47_near (type := type) h hplain
      intro j
      obtain ⟨i, rfl, hi⟩ := zigzag_onto j
      by_cases hf : type.first ≤ i.val
      · exact hn.tokens i hf
      · have e : type = .yAfterY2 ∧ i.val = 0 := by
          cases type
          · exact ⟨rfl, by simp only [BlockType.first] at hf; omega⟩
          all_goals exact absurd (Nat.zero_le _) hf
        obtain ⟨rfl, e⟩ := e
        have hz : z 0 = 0 := by
          rcases h0 rfl with h | h
          · rw [h, ht rfl]
          · exact h
        rw [hi.1 e, hz, ht rfl, Int.zero_tdiv]
        exact Or.inl rfl
  have key : ∀ i, |scaled (q.factors type).1 (q.factors type).2 (codedBlock z) i| ≤ |c i| ∧
      OffBy (2 * (if i = 0 then (q.factors type).1 else (q.factors type).2 : Nat) - 1) (scaled (q.factors type).1 (q.factors type).2 (codedBlock z) i) (c i) := fun i => by
    obtain ⟨a, b⟩ := oneStep_scaled (by split; exacts [hq.1, hq.2]) (hnear i)
    have := abs_le.1 b
    exact ⟨a, by unfold OffBy; show _ ≤ z i * _ - c i ∧ z i * _ - c i ≤ _; omega⟩
  refine ⟨?_, key⟩
  funext i
  have := abs_le.1 ((key i).1.trans (hc i))
  exact (toInt16_of_fits (by omega)).symm

/-- The type that a block of the second pass is taken to have is the right one. -/
def TypeKept (pass : Option SecondPass) (mb : Nat) (choice : IntraChoice) : Prop :=
  ∀ s, pass = some s → choice.yMode.val = B_PRED → s.staleType mb = .yWithoutY2

/-- A block of coefficients as the cosine transform of a difference of pixels can give. -/
def SmallBlock (dc ac : Nat) (b : Block) : Prop := ∀ i, |scaled dc ac b i| ≤ 2041

/-- Coefficients as the Walsh transform of sixteen such can give. -/
structure WalshFits (c : Fin 16 → Int) : Prop where
  each : ∀ i, -32768 ≤ c i ∧ c i ≤ 32767
  fits : Fits walshLine c
  sums : ∀ column row, -30160 ≤ 8 * walsh c column row ∧ 8 * walsh c column row ≤ 30160

theorem quantize_small {dc ac : Nat} {c z : Fin 16 → Int} (hc : ∀ i, |c i| ≤ 2041) (h : quantize dc ac c = some z) : SmallBlock dc ac (codedBlock z) :=
  fun i => ((quantize_scaled (fun i => (hc i).trans (by norm_num)) h).2 i).trans (hc i)

theorem compress_small {pass : Option SecondPass} {mb : Nat} {b : Fin 25} {q : Quantizer} {type : BlockType} {c z : Fin 16 → Int} (hc : ∀ i, |c i| ≤ 2041)
    (hq : 0 < (q.factors type).1 ∧ 0 < (q.factors type).2) (ht : type = .yAfterY2 → c 0 = 0) (h : compress pass mb b q type c = some z) :
    SmallBlock (q.factors type).1 (q.factors type).2 (codedBlock z) :=
  fun i => ((compress_scaled (fun i => (hc i).trans (by norm_num)) hq ht h).2 i).1.trans (hc i)

theorem walshFits_empty (dc ac : Nat) : WalshFits (scaled dc ac {}) := by
  have e : scaled dc ac {} = fun _ => 0 := by
    funext i
    exact Int.zero_mul _
  rw [e]
  refine ⟨by decide, by unfold Fits; decide, by decide⟩

/-- The Y2 block of sixteen blocks. -/
theorem wht_fits {pass : Option SecondPass} {mb : Nat} {q : Quantizer} (hq : q.InRange) {c : Fin 16 → Int} (hc : ∀ i, |c i| ≤ 2041) {z : Fin 16 → Int}
    (hz : compressY2 pass mb q (wht c) = some z) : WalshFits (scaled q.y2Dc q.y2Ac (codedBlock z)) := by
  have b2 := hq.y2Dc
  have b3 := hq.y2Ac
  have hsmall : ∀ i, |wht c i| ≤ 16335 := fun i => by
    rw [Int.abs_eq_natAbs]
    have := wht_small (input := c) (fun k => by have := hc k; rw [Int.abs_eq_natAbs] at this; omega) i
    omega
  have hpos : 0 < (q.factors .y2).1 ∧ 0 < (q.factors .y2).2 := ⟨by show 0 < q.y2Dc; omega, by show 0 < q.y2Ac; omega⟩
  have key : ∀ {pass : Option SecondPass}, compress pass mb 24 q .y2 (wht c) = some z → WalshFits (scaled q.y2Dc q.y2Ac (codedBlock z)) := fun {pass} hz => by
    obtain ⟨-, s2⟩ := compress_scaled (type := .y2) (fun i => (hsmall i).trans (by norm_num)) hpos (fun h => nomatch h) hz
    have s3 : ∀ i, |scaled q.y2Dc q.y2Ac (codedBlock z) i| ≤ |wht c i| := fun i => (s2 i).1
    have s4 : OffBy (2 * q.y2Dc - 1) (scaled q.y2Dc q.y2Ac (codedBlock z) 0) (wht c 0) := (s2 0).2
    have s5 : ∀ i, i ≠ 0 → OffBy (2 * q.y2Ac - 1) (scaled q.y2Dc q.y2Ac (codedBlock z) i) (wht c i) := fun i hi => by
      have := (s2 i).2
      rw [if_neg hi] at this
      exact this
    refine ⟨fun i => by have := abs_le.1 ((s3 i).trans (hsmall i)); omega, fun column row => ?_, fun column row => ?_⟩
    · have h := wht_sum hc column
      have a0 : |entry (scaled q.y2Dc q.y2Ac (codedBlock z)) column 0| ≤ |entry (wht c) column 0| := s3 _
      have a1 : |entry (scaled q.y2Dc q.y2Ac (codedBlock z)) column 1| ≤ |entry (wht c) column 1| := s3 _
      have a2 : |entry (scaled q.y2Dc q.y2Ac (codedBlock z)) column 2| ≤ |entry (wht c) column 2| := s3 _
      have a3 : |entry (scaled q.y2Dc q.y2Ac (codedBlock z)) column 3| ≤ |entry (wht c) column 3| := s3 _
      have := walshLine_bound (v := fun k => entry (scaled q.y2Dc q.y2Ac (codedBlock z)) column k) (by omega) row
      unfold columns
      omega
    · have := walsh_close (r := c) hc s4 s5 column row
      have hr : |entry c column row| ≤ 2041 := hc _
      have := abs_le.mp hr
      unfold OffBy at *
      omega
  cases pass with
  | none => exact key (pass := none) hz
  | some s =>
    have hz : compress (some s) mb 24 q .y2 (checkResetY2 q.y2Dc q.y2Ac (wht c)) = some z := hz
    rcases C47_reset q.y2Dc q.y2Ac (wht c) with e | ⟨e, -⟩
    · rw [e] at hz; exact key hz
    · rw [e] at hz
      have hzero := (compress_scaled (type := .y2) (fun i => by decide) hpos (fun h => nomatch h) hz).2
      have hempty : scaled q.y2Dc q.y2Ac (codedBlock z) = scaled q.y2Dc q.y2Ac {} := funext fun i => by
        have h0 : |scaled q.y2Dc q.y2Ac (codedBlock z) i| ≤ |0| := (hzero i).1
        rw [abs_zero, abs_nonpos_iff] at h0
        rw [h0]
        exact (Int.zero_mul _).symm
      rw [hempty]
      exact walshFits_empty _ _

theorem staleType_kept {pass : Option SecondPass} {mb : Nat} {choice : IntraChoice} (hk : TypeKept pass mb choice) (hB : choice.yMode.val = B_PRED) :
    (pass.map (·.staleType mb)).getD .yWithoutY2 = .yWithoutY2 := by
  cases pass with
  | none => rfl
  | some s => exact hk s rfl hB

theorem typeKept_second {d : KeyChoices} (hd : d.TypesKept) {e : SecondChoices} (h2 : d.second = some e) (k : Nat) :
    TypeKept (some { costs := e.costs, contexts := e.contexts,
                     staleType := fun k => if (d.modes k).yMode.val = B_PRED then .yWithoutY2 else .yAfterY2 }) k (e.modes k) := fun s hs hB => by
  cases hs
  exact if_pos (hd e h2 k hB)

theorem TypeKept.first (mb : Nat) (choice : IntraChoice) : TypeKept none mb choice := fun _ h => nomatch h

/-! ### How much a pass loses -/

/-- `Q` has the steps that bound the loss of a pass. -/
def Coarse (q : Quantizer) : Option SecondPass → Quantizer → Prop
  | none, Q => Q = q
  | some _, Q => Q = FidelitySpec.twice q

theorem Coarse.factors {q Q : Quantizer} {s : SecondPass} (h : Coarse q (some s) Q) (type : BlockType) :
    Q.factors type = (2 * (q.factors type).1, 2 * (q.factors type).2) := by
  cases h
  cases type <;> rfl

theorem Coarse.pos {q Q : Quantizer} {pass : Option SecondPass} (h : Coarse q pass Q) (hq : q.InRange) (type : BlockType) :
    0 < (Q.factors type).1 ∧ 0 < (Q.factors type).2 := by
  have h1 := hq.yDc
  have h2 := hq.yAc
  have h3 := hq.uvDc
  have h4 := hq.uvAc
  have h5 := hq.y2Dc
  have h6 := hq.y2Ac
  cases pass <;> cases h <;> cases type <;> simp only [Quantizer.factors, FidelitySpec.twice] <;> omega

/-- What dequantization gives back. -/
theorem dequantized_close {dc ac : Nat} (hd : 0 < dc) (ha : 0 < ac) {c z : Fin 16 → Int} (hc : ∀ i, -32768 ≤ c i ∧ c i ≤ 32767)
    (h : quantize dc ac c = some z) : OffBy (dc - 1) (dequantize dc ac z 0) (c 0) ∧ (∀ i, i ≠ 0 → OffBy (ac - 1) (dequantize dc ac z i) (c i)) ∧
      ∀ i, |dequantize dc ac z i| ≤ |c i| := by
  obtain ⟨k, k1, -, k2, k3⟩ := C42_error hd ha hc
  rw [h] at k1
  cases k1
  refine ⟨?_, fun i hi => ?_, fun i => ?_⟩
  · have := abs_lt.1 k2.close; unfold OffBy; omega
  · have := abs_lt.1 (k3 i hi).close; unfold OffBy; omega
  · by_cases hi : i = 0
    · subst hi; exact k2.smaller
    · exact (k3 i hi).smaller

theorem compress_close {pass : Option SecondPass} {mb : Nat} {b : Fin 25} {q Q : Quantizer} (hQ : Coarse q pass Q) {type : BlockType} {c z : Fin 16 → Int}
    (hc : ∀ i, |c i| ≤ 32767) (hq : 0 < (q.factors type).1 ∧ 0 < (q.factors type).2) (ht : type = .yAfterY2 → c 0 = 0) (h : compress pass mb b q type c = some z) :
    OffBy ((Q.factors type).1 - 1) (dequantize (q.factors type).1 (q.factors type).2 z 0) (c 0) ∧
      (∀ i, i ≠ 0 → OffBy ((Q.factors type).2 - 1) (dequantize (q.factors type).1 (q.factors type).2 z i) (c i)) ∧
      ∀ i, |dequantize (q.factors type).1 (q.factors type).2 z i| ≤ |c i| := by
  cases pass with
  | none =>
    cases hQ
    exact dequantized_close hq.1 hq.2 (fun i => by have := abs_le.1 (hc i); omega) h
  | some s =>
    obtain ⟨e, k⟩ := compress_scaled hc hq ht h
    rw [e] at k
    rw [hQ.factors]
    refine ⟨?_, fun i hi => ?_, fun i => (k i).1⟩
    · have := (k 0).2
      rw [if_pos rfl] at this
      push_cast
      exact this
    · have := (k i).2
      rw [if_neg hi] at this
      push_cast
      exact this

theorem walshLine_sum (v : Fin 4 → Int) (row : Fin 4) : |walshLine v row| ≤ |v 0| + |v 1| + |v 2| + |v 3| := by
  have h0 := neg_abs_le (v 0); have h0' := le_abs_self (v 0)
  have h1 := neg_abs_le (v 1); have h1' := le_abs_self (v 1)
  have h2 := neg_abs_le (v 2); have h2' := le_abs_self (v 2)
  have h3 := neg_abs_le (v 3); have h3' := le_abs_self (v 3)
  rw [abs_le]
  fin_cases row <;> simp only [walshLine] <;> omega

/-- Coefficients whose sum is small have a small transform. -/
theorem walsh_of_sum {c : Fin 16 → Int} {m : Nat} (h : ((List.finRange 16).map fun i => (c i).natAbs).sum < m) (column row : Fin 4) :
    |both walshLine c column row| ≤ m := by
  have h1 := walshLine_sum (fun k => columns walshLine c k row) column
  have h2 : ∀ k, |columns walshLine c k row| ≤ |entry c k 0| + |entry c k 1| + |entry c k 2| + |entry c k 3| := fun k => walshLine_sum _ _
  have a0 := h2 0
  have a1 := h2 1
  have a2 := h2 2
  have a3 := h2 3
  have e : ((List.finRange 16).map fun i => (c i).natAbs).sum = (c 0).natAbs + (c 1).natAbs + (c 2).natAbs + (c 3).natAbs + (c 4).natAbs + (c 5).natAbs + (c 6).natAbs +
      (c 7).natAbs + (c 8).natAbs + (c 9).natAbs + (c 10).natAbs + (c 11).natAbs + (c 12).natAbs + (c 13).natAbs + (c 14).natAbs + (c 15).natAbs := by
    simp only [show List.finRange 16 = [0, 1, 2, 3, 4, 5, 6, 7, 8, 9, 10, 11, 12, 13, 14, 15] from rfl, List.map_cons, List.map_nil, List.sum_cons, List.sum_nil]
    omega
  rw [e] at h
  simp only [Int.abs_eq_natAbs, entry] at a0 a1 a2 a3 h1 ⊢
  change _ ≤ ((c 0).natAbs : Int) + (c 4).natAbs + (c 8).natAbs + (c 12).natAbs at a0
  change _ ≤ ((c 1).natAbs : Int) + (c 5).natAbs + (c 9).natAbs + (c 13).natAbs at a1
  change _ ≤ ((c 2).natAbs : Int) + (c 6).natAbs + (c 10).natAbs + (c 14).natAbs at a2
  change _ ≤ ((c 3).natAbs : Int) + (c 7).natAbs + (c 11).natAbs + (c 15).natAbs at a3
  change ((both walshLine c column row).natAbs : Int) ≤ _ at h1
  omega

/-- What either pass keeps of the DC coefficients of sixteen blocks. -/
theorem compressY2_close {pass : Option SecondPass} {mb : Nat} {q Q : Quantizer} (hQ : Coarse q pass Q) (hq : q.InRange) {r : Fin 16 → Int} (hr : ∀ i, |r i| ≤ 2041)
    {z : Fin 16 → Int} (hz : compressY2 pass mb q (wht r) = some z) (x y : Fin 4) :
    OffBy (Q.y2Dc + 15 * Q.y2Ac - 4) (8 * walsh (dequantize q.y2Dc q.y2Ac z) x y) (8 * entry r x y) := by
  have b2 := hq.y2Dc
  have b3 := hq.y2Ac
  have hsmall : ∀ i, |wht r i| ≤ 32767 := fun i => by
    rw [Int.abs_eq_natAbs]
    have := wht_small (input := r) (fun k => by have := hr k; rw [Int.abs_eq_natAbs] at this; omega) i
    omega
  have hpos : 0 < (q.factors .y2).1 ∧ 0 < (q.factors .y2).2 := ⟨by show 0 < q.y2Dc; omega, by show 0 < q.y2Ac; omega⟩
  have key : compress pass mb 24 q .y2 (wht r) = some z → OffBy (Q.y2Dc + 15 * Q.y2Ac - 4) (8 * walsh (dequantize q.y2Dc q.y2Ac z) x y) (8 * entry r x y) := fun hz => by
    obtain ⟨e1, e2, -⟩ := compress_close hQ (type := .y2) hsmall hpos (fun h => nomatch h) hz
    have e1 : OffBy (Q.y2Dc - 1) (dequantize q.y2Dc q.y2Ac z 0) (wht r 0) := e1
    have e2 : ∀ i, i ≠ 0 → OffBy (Q.y2Ac - 1) (dequantize q.y2Dc q.y2Ac z i) (wht r i) := e2
    have := walsh_close hr e1 e2 x y
    unfold OffBy at this ⊢
    omega
  cases pass with
  | none => exact key hz
  | some s =>
    have hz : compress (some s) mb 24 q .y2 (checkResetY2 q.y2Dc q.y2Ac (wht r)) = some z := hz
    rcases C47_reset q.y2Dc q.y2Ac (wht r) with e | ⟨e, -, hsum⟩
    · rw [e] at hz; exact key hz
    · rw [e] at hz
      have hzero := (compress_close hQ (type := .y2) (fun i => by decide) hpos (fun h => nomatch h) hz).2.2
      have hempty : dequantize q.y2Dc q.y2Ac z = fun _ => 0 := funext fun i => by
        have h0 : |dequantize q.y2Dc q.y2Ac z i| ≤ |0| := hzero i
        rwa [abs_zero, abs_nonpos_iff] at h0
      rw [hempty, show walsh (fun _ => 0) x y = 0 by clear key; revert x y; decide]
      have h1 := walsh_close (r := r) (c := wht r) (d := 0) (a := 0) hr (by unfold OffBy; omega) (fun i _ => by unfold OffBy; omega) x y
      have h2 := abs_le.1 (walsh_of_sum hsum x y)
      unfold walsh OffBy at *
      cases hQ
      unfold FidelitySpec.twice
      dsimp only
      push_cast
      omega

end Alfalfa
