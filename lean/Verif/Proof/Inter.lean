import Verif.Model.Inter
import Verif.Spec.Inter
import Verif.Proof.Pixels
import Mathlib.Tactic.Ring

/-! Lemmas about inter prediction. -/

namespace Alfalfa

open InterSpec

theorem clamp255_eq (v : Int) : clamp255 v = UInt8.ofNat (max 0 (min 255 v)).toNat := by
  unfold clamp255
  split
  · rw [show max 0 (min 255 v) = 0 by omega]; rfl
  · split
    · rw [show max 0 (min 255 v) = 255 by omega]; rfl
    · rw [show max 0 (min 255 v) = v by omega]

theorem sixtapFilters_eq (m : Fin 8) (k : Fin 6) : sixtapFilters m k = (taps.getD m []).getD k 0 := by
  revert m k; decide +kernel

theorem sixtap_eq (m : Fin 8) (x : Fin 6 → UInt8) : sixtap (sixtapFilters m) x = UInt8.ofNat (between m x) := by
  unfold sixtap between rounded
  rw [clamp255_eq, Int.shiftRight_eq_div_pow, Fin.sum_univ_six]
  simp only [sixtapFilters_eq]
  congr 6
  simp only [Int.mul_comm]

theorem nearestIndex_lt (v : Int) {n : Nat} (h : 0 < n) : nearestIndex v n < n := by unfold nearestIndex; omega

theorem nearestIndex_self {v : Int} {n : Nat} (h0 : 0 ≤ v) (h : v < n) : nearestIndex v n = v.toNat := by unfold nearestIndex; omega

theorem edgeExtended_eq {p : Plane} (hp : p.Full) (x y : Int) : edgeExtended p x y = some (extended p x y) := by
  have hw := hp.width
  have hh := hp.height
  unfold edgeExtended extended
  dsimp only
  rw [← Plane.px_eq hp (nearestIndex_lt x hw) (nearestIndex_lt y hh)]
  congr 1
  · unfold nearestIndex; split <;> split <;> omega
  · unfold nearestIndex; split <;> split <;> omega

theorem extended_in {p : Plane} {x y : Int} (hx : 0 ≤ x) (hx' : x < p.width) (hy : 0 ≤ y) (hy' : y < p.height) :
    extended p x y = p.px x.toNat y.toNat := by
  unfold extended; rw [nearestIndex_self hx hx', nearestIndex_self hy hy']

theorem load_extended {p : Plane} (hp : p.Full) {x y i : Int} (hx : 0 ≤ x) (hx' : x < p.width) (hy : 0 ≤ y) (hy' : y < p.height)
    (hi : i = y * p.width + x) : p.load i = some (extended p x y) := by
  rw [extended_in hx hx' hy hy']
  refine Plane.load_eq hp (by omega) (by omega) ?_
  rw [hi]; push_cast; rw [Int.toNat_of_nonneg hx, Int.toNat_of_nonneg hy]

theorem between_zero (x : Fin 6 → UInt8) : between 0 x = (x 2).toNat := by
  have h := (x 2).toNat_lt
  unfold between rounded
  rw [Fin.sum_univ_six]
  simp [taps]
  omega

theorem between_const (m : Fin 8) (v : UInt8) : between m (fun _ => v) = v.toNat := by
  have h := v.toNat_lt
  unfold between rounded
  rw [← Finset.sum_mul]
  have : ∑ k : Fin 6, ((taps.getD m []).getD k 0) = 128 := by revert m; decide +kernel
  rw [this]; omega

theorem ofNat_toNat (v : UInt8) : UInt8.ofNat v.toNat = v := by simp

theorem fraction_val (v : Int) : (fraction v).val = (v % 8).toNat := rfl

theorem between_le (m : Nat) (x : Fin 6 → UInt8) : between m x ≤ 255 := by unfold between rounded; omega

theorem toNat_between (m : Nat) (x : Fin 6 → UInt8) : (UInt8.ofNat (between m x)).toNat = between m x := by
  have := between_le m x
  simp [UInt8.toNat_ofNat']; omega

/-- Between whole pixels there is nothing to interpolate. -/
theorem interpolated_whole (p : Plane) {x y : Int} (hx : x % 8 = 0) (hy : y % 8 = 0) :
    interpolated p x y = (extended p (x / 8) (y / 8)).toNat := by
  unfold interpolated
  rw [hx, hy]
  simp only [Int.toNat_zero, between_zero, ofNat_toNat]
  congr 2 <;> simp

theorem interpolated_eq (p : Plane) (x y : Int) : UInt8.ofNat (interpolated p x y) =
    sixtap (sixtapFilters (fraction y)) fun k => sixtap (sixtapFilters (fraction x)) fun j =>
      extended p (x / 8 + (j.val : Int) - 2) (y / 8 + (k.val : Int) - 2) := by
  rw [sixtap_eq]; simp only [sixtap_eq]; rfl

theorem safeInterPredict_eq {p : Plane} (hp : p.Full) (n : Nat) (mv : MotionVector) (sc sr : Int) :
    safeInterPredict n (edgeExtended p) mv sc sr = some fun c r =>
      UInt8.ofNat (interpolated p (8 * (sc + c.val) + mv.x % 8) (8 * (sr + r.val) + mv.y % 8)) := by
  unfold safeInterPredict
  have fx : ∀ a b : Int, fraction (8 * a + b % 8) = fraction b := fun a b => Fin.ext (by simp only [fraction_val]; omega)
  have dx : ∀ a b : Int, (8 * a + b % 8) / 8 = a := fun a b => by omega
  split
  · next h =>
    refine allSome_some fun c => allSome_some fun r => ?_
    rw [edgeExtended_eq hp, interpolated_whole p (by omega) (by omega), ofNat_toNat, dx, dx]
  · rw [allSome_some (g := fun r c => sixtap (sixtapFilters (fraction mv.x)) fun k => extended p (sc + c.val - 2 + k.val) (sr + r.val - 2))
      fun r => allSome_some fun c => by
        rw [allSome_some fun k : Fin 6 => edgeExtended_eq hp (sc + c.val - 2 + k.val) (sr + r.val - 2)]; rfl]
    rw [Option.bind_eq_bind, Option.bind_some]
    refine congrArg some (funext fun c => funext fun r => ?_)
    rw [interpolated_eq, fx, fx, dx, dx]
    refine congrArg _ (funext fun k => congrArg _ (funext fun j => ?_))
    exact congrArg₂ _ (by omega) (by push_cast; omega)

theorem unsafeInterPredict_eq {p : Plane} (hp : p.Full) (n : Nat) (mv : MotionVector) {sc sr : Int}
    (h1 : 0 ≤ sc - 2) (h2 : sc + n + 3 ≤ p.width) (h3 : 0 ≤ sr - 2) (h4 : sr + n + 3 ≤ p.height) :
    unsafeInterPredict n p p.width mv sc sr = some fun c r =>
      UInt8.ofNat (interpolated p (8 * (sc + c.val) + mv.x % 8) (8 * (sr + r.val) + mv.y % 8)) := by
  unfold unsafeInterPredict
  have fx : ∀ a b : Int, fraction (8 * a + b % 8) = fraction b := fun a b => Fin.ext (by simp only [fraction_val]; omega)
  have dx : ∀ a b : Int, (8 * a + b % 8) / 8 = a := fun a b => by omega
  rw [if_neg (by simp)]
  split
  · next h =>
    rw [Grid.address_eq hp (by omega) (by omega)]
    refine allSome_some fun c => allSome_some fun r => ?_
    have hc := c.2
    have hr := r.2
    rw [interpolated_whole p (by omega) (by omega), ofNat_toNat, dx, dx]
    refine load_extended hp (by omega) (by omega) (by omega) (by omega) ?_
    push_cast
    rw [Int.toNat_of_nonneg (by omega : 0 ≤ sc), Int.toNat_of_nonneg (by omega : 0 ≤ sr)]
    ring
  · rw [Grid.address_eq hp (by omega) (by omega)]
    rw [Option.bind_eq_bind, Option.bind_some]
    rw [allSome_some (g := fun r c => sixtap (sixtapFilters (fraction mv.x)) fun k => extended p (sc + c.val - 2 + k.val) (sr + r.val - 2))
      fun r => allSome_some fun c => by
        have hc := c.2
        have hr := r.2
        rw [allSome_some (g := fun k : Fin 6 => extended p (sc + c.val - 2 + k.val) (sr + r.val - 2)) fun k => by
          have hk := k.2
          refine load_extended hp (by omega) (by omega) (by omega) (by omega) ?_
          push_cast
          rw [Int.toNat_of_nonneg (by omega : 0 ≤ sc - 2), Int.toNat_of_nonneg (by omega : 0 ≤ sr - 2)]
          ring]
        rfl]
    rw [Option.bind_eq_bind, Option.bind_some]
    refine congrArg some (funext fun c => funext fun r => ?_)
    rw [interpolated_eq, fx, fx, dx, dx]
    refine congrArg _ (funext fun k => congrArg _ (funext fun j => ?_))
    exact congrArg₂ _ (by omega) (by push_cast; omega)

theorem interSquare_eq {p : Plane} (hp : p.Full) (n : Nat) (mv : MotionVector) (column row : Nat) :
    interSquare n p p.width mv column row = some fun (c r : Fin n) =>
      UInt8.ofNat (interpolated p (8 * ((n * column + c : Nat) : Int) + mv.x) (8 * ((n * row + r : Nat) : Int) + mv.y)) := by
  have e : ∀ (a v : Int) (i : Nat), (8 : Int) * (a + v >>> 3 + (i : Int)) + v % 8 = 8 * (a + (i : Int)) + v := fun a v i => by
    rw [Int.shiftRight_eq_div_pow]; omega
  unfold interSquare
  dsimp only
  split
  · rw [safeInterPredict_eq hp]; simp only [e]
    congr 1; funext c r; push_cast; simp only [Int.mul_comm]
  · next h =>
    simp only [not_or, not_lt] at h
    rw [unsafeInterPredict_eq hp n mv (by omega) (by omega) (by omega) (by omega)]
    simp only [e]
    congr 1; funext c r; push_cast; simp only [Int.mul_comm]

end Alfalfa
