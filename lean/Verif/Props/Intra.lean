import Verif.Proof.Intra
import Verif.Props.Inter
import Mathlib.Algebra.Order.BigOperators.Group.Finset

/-! C38: intra prediction. -/

namespace Alfalfa

open IntraSpec

theorem subRange_some {T : Type} {g : Grid T} {n x y : Nat} (hx : x + n ≤ g.width) (hy : y + n ≤ g.height) : g.subRange n x y = some () := by
  unfold Grid.subRange; rw [if_pos ⟨hx, hy⟩]

/-- **C38** (luma macroblocks): for every picture, macroblock of it and mode, prediction succeeds, each pixel of the macroblock is
computed from the row above and the column to the left as the format defines, with 127 above and 129 left of the picture, and no
other pixel changes. -/
theorem C38_luma {p : Plane} (hp : p.Full) {mode column row : Nat} (hm : mode ≤ TM_PRED) (hx : 16 * column + 16 ≤ p.width)
    (hy : 16 * row + 16 ≤ p.height) : ∃ q : Plane, intraPredict16 p mode column row = some q ∧
      p.Painted q (16 * column) (16 * row) fun c r : Fin 16 =>
        UInt8.ofNat (whole 16 mode (decide (0 < row)) (decide (0 < column)) (edge p 16 column row) c r) := by
  obtain ⟨e, he, hi⟩ := leftAndAbove_eq hp (by decide : 0 < 16) hx hy
  unfold intraPredict16
  rw [subRange_some hx hy, he, Option.bind_eq_bind, Option.bind_some, Option.bind_eq_bind, Option.bind_some,
    intraSquare_eq hi (Nat.le_refl 16) (by decide : 16 = 2 ^ 4) (by decide) hm]
  exact Plane.putSquare_spec hp _ hx hy

/-- **C38** (chroma macroblocks). -/
theorem C38_chroma {p : Plane} (hp : p.Full) {mode column row : Nat} (hm : mode ≤ TM_PRED) (hx : 8 * column + 8 ≤ p.width)
    (hy : 8 * row + 8 ≤ p.height) : ∃ q : Plane, intraPredict8 p mode column row = some q ∧
      p.Painted q (8 * column) (8 * row) fun c r : Fin 8 =>
        UInt8.ofNat (whole 8 mode (decide (0 < row)) (decide (0 < column)) (edge p 8 column row) c r) := by
  obtain ⟨e, he, hi⟩ := leftAndAbove_eq hp (by decide : 0 < 8) hx hy
  unfold intraPredict8
  rw [subRange_some hx hy, he, Option.bind_eq_bind, Option.bind_some, Option.bind_eq_bind, Option.bind_some,
    intraSquare_eq hi (Nat.le_refl 8) (by decide : 8 = 2 ^ 3) (by decide) hm]
  exact Plane.putSquare_spec hp _ hx hy

/-- **C38** (4x4 luma blocks), for planes of whole macroblocks. -/
theorem C38_subblock {p : Plane} (hp : p.Full) (h16 : 16 ∣ p.width) {mode column row : Nat} (hm : mode ≤ B_HU_PRED)
    (hx : 4 * column + 4 ≤ p.width) (hy : 4 * row + 4 ≤ p.height) : ∃ q : Plane, intraPredict4 p mode column row = some q ∧
      p.Painted q (4 * column) (4 * row) fun c r : Fin 4 => UInt8.ofNat (sub mode (IntraSpec.edge4 p column row) c r) := by
  obtain ⟨e, he, hi⟩ := edge4_eq hp h16 hx hy
  unfold intraPredict4
  rw [subRange_some hx hy, he, Option.bind_eq_bind, Option.bind_some, Option.bind_eq_bind, Option.bind_some, intraSquare4_eq hi hm]
  exact Plane.putSquare_spec hp _ hx hy

/-! ### The range -/

theorem limited_le (v : Int) : limited v ≤ 255 := by unfold limited; omega

theorem framed_le (p : Plane) (x y : Int) : framed p x y ≤ 255 := by
  unfold framed
  split
  · decide
  · split
    · decide
    · have := (p.px x.toNat y.toNat).toNat_lt; omega

theorem mean_le {n : Nat} (hn : 0 < n) (above left : Bool) {e : Int → Nat} (he : ∀ i, e i ≤ 255) : mean n above left e ≤ 255 := by
  have hs : ∀ f : Fin n → Int, ∑ i, e (f i) ≤ n * 255 := fun f =>
    (Finset.sum_le_sum fun i _ => he (f i)).trans (by simp)
  have h1 := hs fun i => 1 + i
  have h2 := hs fun i => -1 - i
  unfold mean
  cases above <;> cases left <;> dsimp only
  · decide
  · rw [← Nat.lt_succ_iff, Nat.div_lt_iff_lt_mul hn]; omega
  · rw [← Nat.lt_succ_iff, Nat.div_lt_iff_lt_mul hn]; omega
  · rw [← Nat.lt_succ_iff, Nat.div_lt_iff_lt_mul (by omega)]; omega

theorem ite_le {c : Prop} [Decidable c] {a b m : Nat} (ha : a ≤ m) (hb : b ≤ m) : (if c then a else b) ≤ m := by split <;> assumption

theorem ite_same {c : Prop} [Decidable c] {a b m : Nat} (ha : a = m) (hb : b = m) : (if c then a else b) = m := by split <;> assumption

theorem mean2_le {e : Int → Nat} (he : ∀ i, e i ≤ 255) (i : Int) : mean2 e i ≤ 255 := by
  have h1 := he i
  have h2 := he (i + 1)
  unfold mean2; omega

theorem mean3_le {e : Int → Nat} (he : ∀ i, e i ≤ 255) (i : Int) : mean3 e i ≤ 255 := by
  have h1 := he (i - 1)
  have h2 := he i
  have h3 := he (i + 1)
  unfold mean3; omega

/-- **C38** (range): what the format defines is a pixel value, so that the conversions to a byte above change nothing. -/
theorem C38_range_whole {n : Nat} (hn : 0 < n) (mode : Nat) (above left : Bool) {e : Int → Nat} (he : ∀ i, e i ≤ 255) (c r : Nat) :
    whole n mode above left e c r ≤ 255 := by
  unfold whole
  repeat' split
  · exact mean_le hn _ _ he
  · exact he _
  · exact he _
  · exact limited_le _

theorem C38_range_sub (mode : Nat) {e : Int → Nat} (he : ∀ i, e i ≤ 255) (c r : Nat) : sub mode e c r ≤ 255 := by
  have hd : ∀ i, (fun i : Int => e (max (-4) (min i 8))) i ≤ 255 := fun i => he _
  unfold sub
  dsimp only
  repeat' apply ite_le
  all_goals first
    | exact mean_le (by decide) _ _ hd
    | exact limited_le _
    | exact mean2_le hd _
    | exact mean3_le hd _

/-- The edges of `C38_luma`, `C38_chroma` and `C38_subblock` are in the range. -/
theorem C38_range_edge (p : Plane) (n column row : Nat) (i : Int) : edge p n column row i ≤ 255 ∧ IntraSpec.edge4 p column row i ≤ 255 := by
  unfold IntraSpec.edge4 IntraSpec.edge
  constructor <;> (repeat' split) <;> exact framed_le _ _ _

/-! ### Flat areas -/

/-- **C38** (flat areas): an edge of one value predicts that value, in every mode. -/
theorem C38_flat_whole {n : Nat} (hn : 0 < n) (mode : Nat) (above left : Bool) (ha : above = true ∨ left = true) {v : Nat} (hv : v ≤ 255) (c r : Nat) :
    whole n mode above left (fun _ => v) c r = v := by
  have hm : mean n above left (fun _ => v) = v := by
    unfold mean
    simp only [Finset.sum_const, Finset.card_univ, Fintype.card_fin, smul_eq_mul]
    rcases above <;> rcases left <;> simp only [Bool.false_eq_true, or_self] at ha ⊢
    · rw [Nat.add_comm, Nat.add_mul_div_left _ _ hn, Nat.div_eq_of_lt (by omega), Nat.zero_add]
    · rw [Nat.add_comm, Nat.add_mul_div_left _ _ hn, Nat.div_eq_of_lt (by omega), Nat.zero_add]
    · rw [← Nat.two_mul, ← Nat.mul_assoc, Nat.add_comm, Nat.add_mul_div_left _ _ (by omega), Nat.div_eq_of_lt (by omega), Nat.zero_add]
  unfold whole limited
  rw [hm]
  repeat' apply ite_same
  all_goals first | rfl | omega | (dsimp only; omega)

theorem C38_flat_sub (mode : Nat) {v : Nat} (hv : v ≤ 255) (c r : Nat) : sub mode (fun _ => v) c r = v := by
  have hm := C38_flat_whole (by decide : 0 < 4) DC_PRED true true (.inl rfl) hv 0 0
  rw [whole, if_pos rfl] at hm
  unfold sub limited mean2 mean3
  dsimp only
  rw [hm]
  repeat' apply ite_same
  all_goals first | rfl | omega

/-! ### The hypotheses are met -/

/-- A picture of 32 by 32 pixels that is not constant. -/
def ramp : Plane := { width := 32, height := 32, cells := (List.range 1024).map fun k => UInt8.ofNat (k % 32 * 5 + k / 32 * 2) }

theorem ramp_full : ramp.Full := ⟨by decide, by decide, by decide, by decide +kernel⟩

/-- The lower right macroblock is predicted from its neighbours. -/
example : ∃ q, intraPredict16 ramp TM_PRED 1 1 = some q ∧ q.px 31 31 = ramp.px 31 31 ∧ q.px 0 0 = ramp.px 0 0 := by
  obtain ⟨q, h, hp⟩ := C38_luma ramp_full (mode := TM_PRED) (column := 1) (row := 1) (by decide) (by decide) (by decide)
  exact ⟨q, h, (hp.inside 15 15).trans (by decide +kernel), hp.outside 0 0 (by decide) (by decide) (by decide)⟩

/-- A chroma block at the top edge has only its left column to take the mean of. -/
example : ∃ q, intraPredict8 ramp DC_PRED 1 0 = some q ∧ q.px 8 0 = 42 := by
  obtain ⟨q, h, hp⟩ := C38_chroma ramp_full (mode := DC_PRED) (column := 1) (row := 0) (by decide) (by decide) (by decide)
  exact ⟨q, h, (hp.inside 0 0).trans (by decide +kernel)⟩

/-- A 4x4 block on the right edge of a macroblock takes the pixels to its upper right from the row above the macroblock. -/
example : ∃ q, intraPredict4 ramp B_LD_PRED 3 5 = some q ∧ q.px 15 23 = 124 := by
  obtain ⟨q, h, hp⟩ := C38_subblock ramp_full (by decide) (mode := B_LD_PRED) (column := 3) (row := 5) (by decide) (by decide) (by decide)
  exact ⟨q, h, (hp.inside 3 3).trans (by decide +kernel)⟩

end Alfalfa
