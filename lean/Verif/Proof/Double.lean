import Verif.Spec.Double
import Mathlib.Tactic.Linarith
import Mathlib.Tactic.NormNum
import Mathlib.Tactic.Positivity
import Mathlib.Tactic.FieldSimp
import Mathlib.Tactic.Ring

/-! Rounding to `double` keeps the order and is near. -/

namespace Alfalfa

theorem nearestEven_cases (z : ℚ) : nearestEven z = ⌊z⌋ ∧ z - ⌊z⌋ ≤ 1 / 2 ∨ nearestEven z = ⌊z⌋ + 1 ∧ 1 / 2 ≤ z - ⌊z⌋ := by
  unfold nearestEven
  split
  · rename_i h; exact .inl ⟨rfl, le_of_lt h⟩
  · rename_i h
    split
    · rename_i h'; exact .inr ⟨rfl, le_of_lt h'⟩
    · rename_i h'
      split
      · exact .inl ⟨rfl, not_lt.mp h'⟩
      · exact .inr ⟨rfl, not_lt.mp h⟩

theorem nearestEven_near (z : ℚ) : (nearestEven z : ℚ) ≤ z + 1 / 2 ∧ z - 1 / 2 ≤ (nearestEven z : ℚ) := by
  rcases nearestEven_cases z with ⟨h, h'⟩ | ⟨h, h'⟩
  · rw [h]
    have := Int.floor_le z
    constructor <;> linarith
  · rw [h]
    have := Int.lt_floor_add_one z
    push_cast
    constructor <;> linarith

theorem nearestEven_int (n : Int) : nearestEven (n : ℚ) = n := by
  unfold nearestEven
  rw [Int.floor_intCast, if_pos]
  norm_num

theorem nearestEven_mono {z w : ℚ} (h : z ≤ w) : nearestEven z ≤ nearestEven w := by
  have hf : ⌊z⌋ ≤ ⌊w⌋ := Int.floor_mono h
  rcases lt_or_eq_of_le hf with hlt | heq
  · have h1 : nearestEven z ≤ ⌊z⌋ + 1 := by rcases nearestEven_cases z with ⟨e, _⟩ | ⟨e, _⟩ <;> omega
    have h2 : ⌊w⌋ ≤ nearestEven w := by rcases nearestEven_cases w with ⟨e, _⟩ | ⟨e, _⟩ <;> omega
    omega
  · unfold nearestEven
    rw [heq]
    have : z - ⌊w⌋ ≤ w - ⌊w⌋ := by linarith
    split_ifs <;> first | omega | (exfalso; linarith)

theorem spacing_mono {x y : ℚ} (hx : 0 < x) (h : x ≤ y) : spacing x ≤ spacing y := by
  have := Int.log_mono_right (b := 2) hx h
  unfold spacing
  omega

/-- A power of two that is not below the spacing is a multiple of it. -/
theorem two_multiple {s e : Int} (h : s ≤ e) : ∃ n : Int, (2 : ℚ) ^ e = 2 ^ s * n := by
  obtain ⟨k, rfl⟩ := Int.le.dest h
  refine ⟨2 ^ k, ?_⟩
  rw [zpow_add₀ (by norm_num)]
  push_cast
  rw [zpow_natCast]

theorem round_mono_pos {x y : ℚ} (hx : 0 < x) (h : x ≤ y) :
    2 ^ spacing x * (nearestEven (x / 2 ^ spacing x) : ℚ) ≤ 2 ^ spacing y * (nearestEven (y / 2 ^ spacing y) : ℚ) := by
  have hs := spacing_mono hx h
  rcases lt_or_eq_of_le hs with hlt | heq
  · -- the power of two at the beginning of the range of y
    have hy : 0 < y := lt_of_lt_of_le hx h
    have hey : spacing y = Int.log 2 y - 52 := by
      unfold spacing at hlt ⊢; omega
    have hxy : Int.log 2 x < Int.log 2 y := by
      unfold spacing at hlt; omega
    have h1 : x ≤ 2 ^ Int.log 2 y := by
      have hl := Int.lt_zpow_succ_log_self (b := 2) (by norm_num) x
      have hp : ((2 : ℕ) : ℚ) ^ (Int.log 2 x + 1) ≤ 2 ^ Int.log 2 y := by
        push_cast
        exact zpow_le_zpow_right₀ (by norm_num) (by omega)
      linarith
    have h2 : (2 : ℚ) ^ Int.log 2 y ≤ y := by
      have := Int.zpow_log_le_self (b := 2) (r := y) (by norm_num) hy
      exact_mod_cast this
    obtain ⟨m, hm⟩ := two_multiple (s := spacing x) (e := Int.log 2 y) (by omega)
    obtain ⟨n, hn⟩ := two_multiple (s := spacing y) (e := Int.log 2 y) (by omega)
    have px : (0 : ℚ) < 2 ^ spacing x := zpow_pos (by norm_num) _
    have py : (0 : ℚ) < 2 ^ spacing y := zpow_pos (by norm_num) _
    have a1 : nearestEven (x / 2 ^ spacing x) ≤ m := by
      rw [← nearestEven_int m]
      apply nearestEven_mono
      rw [div_le_iff₀ px, mul_comm, ← hm]
      exact h1
    have a2 : n ≤ nearestEven (y / 2 ^ spacing y) := by
      rw [← nearestEven_int n]
      apply nearestEven_mono
      rw [le_div_iff₀ py, mul_comm, ← hn]
      exact h2
    have b1 : 2 ^ spacing x * (nearestEven (x / 2 ^ spacing x) : ℚ) ≤ 2 ^ Int.log 2 y := by
      rw [hm]; exact mul_le_mul_of_nonneg_left (by exact_mod_cast a1) px.le
    have b2 : (2 : ℚ) ^ Int.log 2 y ≤ 2 ^ spacing y * (nearestEven (y / 2 ^ spacing y) : ℚ) := by
      rw [hn]; exact mul_le_mul_of_nonneg_left (by exact_mod_cast a2) py.le
    exact b1.trans b2
  · rw [heq]
    have py : (0 : ℚ) < 2 ^ spacing y := zpow_pos (by norm_num) _
    refine mul_le_mul_of_nonneg_left ?_ py.le
    exact_mod_cast nearestEven_mono (div_le_div_of_nonneg_right h py.le)

theorem round_zero : roundDouble 0 = 0 := by
  unfold roundDouble
  rw [if_pos le_rfl, zero_div]
  have := nearestEven_int 0
  rw [Int.cast_zero] at this
  rw [this]; norm_num

theorem round_nonneg {x : ℚ} (h : 0 ≤ x) : 0 ≤ roundDouble x := by
  unfold roundDouble
  rw [if_pos h]
  have px : (0 : ℚ) < 2 ^ spacing x := zpow_pos (by norm_num) _
  have : nearestEven 0 ≤ nearestEven (x / 2 ^ spacing x) := nearestEven_mono (div_nonneg h px.le)
  have h0 := nearestEven_int 0
  rw [Int.cast_zero] at h0
  rw [h0] at this
  exact mul_nonneg px.le (by exact_mod_cast this)

theorem round_neg (x : ℚ) : roundDouble (-x) = -roundDouble x := by
  rcases lt_trichotomy x 0 with h | h | h
  · unfold roundDouble
    rw [if_pos (by linarith), if_neg (by linarith), neg_neg]
  · subst h; rw [neg_zero, round_zero, neg_zero]
  · unfold roundDouble
    rw [if_neg (by linarith), if_pos h.le, neg_neg]

theorem round_mono {x y : ℚ} (h : x ≤ y) : roundDouble x ≤ roundDouble y := by
  have key : ∀ {x y : ℚ}, 0 ≤ x → x ≤ y → roundDouble x ≤ roundDouble y := by
    intro x y hx h
    rcases lt_or_eq_of_le hx with h0 | h0
    · have := round_mono_pos h0 h
      unfold roundDouble
      rwa [if_pos hx, if_pos (hx.trans h)]
    · subst h0; rw [round_zero]; exact round_nonneg h
  rcases le_total 0 x with hx | hx
  · exact key hx h
  · rcases le_total 0 y with hy | hy
    · have h1 := round_nonneg (x := -x) (by linarith)
      rw [round_neg] at h1
      have h2 := round_nonneg hy
      linarith
    · have := key (x := -y) (y := -x) (by linarith) (by linarith)
      rw [round_neg, round_neg] at this
      linarith

/-- Rounding changes a number by half of the spacing at most. -/
theorem round_near {x : ℚ} (h : 0 ≤ x) : roundDouble x ≤ x + 2 ^ spacing x / 2 ∧ x - 2 ^ spacing x / 2 ≤ roundDouble x := by
  unfold roundDouble
  rw [if_pos h]
  have px : (0 : ℚ) < 2 ^ spacing x := zpow_pos (by norm_num) _
  obtain ⟨h1, h2⟩ := nearestEven_near (x / 2 ^ spacing x)
  have e : x = 2 ^ spacing x * (x / 2 ^ spacing x) := by field_simp
  have m1 := mul_le_mul_of_nonneg_left h1 px.le
  have m2 := mul_le_mul_of_nonneg_left h2 px.le
  rw [mul_add, ← e] at m1
  rw [mul_sub, ← e] at m2
  constructor <;> linarith

/-- Half of the spacing is one part in 2^53, or next to nothing. -/
theorem spacing_small {x : ℚ} (h : 0 < x) : (2 : ℚ) ^ spacing x / 2 ≤ x / 2 ^ 53 + 1 / 2 ^ 1075 := by
  have hl : (2 : ℚ) ^ Int.log 2 x ≤ x := by
    have := Int.zpow_log_le_self (b := 2) (r := x) (by norm_num) h
    exact_mod_cast this
  unfold spacing
  rcases le_total (-1022) (Int.log 2 x) with hc | hc
  · rw [max_eq_left hc, zpow_sub₀ (by norm_num)]
    have e : (2 : ℚ) ^ Int.log 2 x / 2 ^ (52 : Int) / 2 = 2 ^ Int.log 2 x / 2 ^ 53 := by
      rw [div_div]; norm_num
    rw [e]
    have p : (0 : ℚ) ≤ 1 / 2 ^ 1075 := one_div_nonneg.2 (pow_nonneg (by norm_num) _)
    have := div_le_div_of_nonneg_right hl (by positivity : (0 : ℚ) ≤ 2 ^ 53)
    linarith
  · rw [max_eq_right hc]
    have e : (2 : ℚ) ^ ((-1022 : Int) - 52) / 2 = 1 / 2 ^ 1075 := by
      rw [show (-1022 : Int) - 52 = -(1074 : ℕ) by norm_num, zpow_neg, zpow_natCast, pow_succ (2 : ℚ) 1074, one_div, mul_inv, div_eq_mul_inv]
    rw [e]
    have : 0 ≤ x / 2 ^ 53 := by positivity
    linarith

end Alfalfa
