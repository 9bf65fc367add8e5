import Verif.Model.Intra
import Verif.Spec.Intra
import Verif.Proof.Inter
import Mathlib.Tactic.IntervalCases
import Mathlib.Tactic.FinCases

/-! Lemmas about intra prediction. -/

namespace Alfalfa

open IntraSpec

/-- The edge of the model holds the pixels of the edge of the specification. -/
structure Edge.Is {n m : Nat} (e : Edge n m) (s : Int → Nat) : Prop where
  left : ∀ i, (e.left i).toNat = s (-1 - i.val)
  above : ∀ i, (e.above i).toNat = s (1 + i.val)
  corner : e.corner.toNat = s 0

theorem framed_in (p : Plane) (x y : Nat) : framed p x y = (p.px x y).toNat := by
  unfold framed; rw [if_neg (by omega), if_neg (by omega)]; simp

theorem framed_above (p : Plane) (x : Int) : framed p x (-1) = 127 := rfl

theorem framed_left (p : Plane) {y : Int} (h : 0 ≤ y) : framed p (-1) y = 129 := by
  unfold framed; rw [if_neg (by omega), if_pos (by omega)]

theorem leftAndAbove_eq {p : Plane} (hp : p.Full) {n column row : Nat} (hn : 0 < n) (hx : n * column + n ≤ p.width)
    (hy : n * row + n ≤ p.height) : ∃ e, leftAndAbove p n column row = some e ∧ e.Is (IntraSpec.edge p n column row) := by
  have hc : 0 < column → n ≤ n * column := fun h => Nat.le_mul_of_pos_right n h
  have hr : 0 < row → n ≤ n * row := fun h => Nat.le_mul_of_pos_right n h
  obtain ⟨l, hl, hl'⟩ : ∃ l, leftColumn p n column row = some l ∧ ∀ i, (l i).toNat = IntraSpec.edge p n column row (-1 - i.val) := by
    unfold leftColumn
    split
    · next h =>
      have := hc h
      refine ⟨fun i => p.px (n * column - 1) (n * row + i), allSome_some fun i => Plane.px_eq hp (by omega) (by omega), fun i => ?_⟩
      unfold IntraSpec.edge
      rw [if_pos (by omega), ← framed_in]
      exact congrArg₂ _ (by omega) (by push_cast; omega)
    · next h =>
      refine ⟨_, rfl, fun i => ?_⟩
      unfold IntraSpec.edge
      have : column = 0 := by omega
      subst this
      rw [if_pos (by omega)]
      simp only [Nat.cast_zero, mul_zero, zero_sub]
      rw [framed_left p (by omega)]; rfl
  obtain ⟨a, ha, ha'⟩ : ∃ a, rowAbove p n column row = some a ∧ ∀ i, (a i).toNat = IntraSpec.edge p n column row (1 + i.val) := by
    unfold rowAbove
    split
    · next h =>
      have := hr h
      refine ⟨fun i => p.px (n * column + i) (n * row - 1), ?_, fun i => ?_⟩
      · rw [Grid.address_eq hp (by omega) (by omega)]
        exact allSome_some fun i => Plane.load_eq hp (by omega) (by omega) (by push_cast; omega)
      · unfold IntraSpec.edge
        rw [if_neg (by omega), ← framed_in]
        exact congrArg₂ _ (by push_cast; omega) (by omega)
    · next h =>
      refine ⟨_, rfl, fun i => ?_⟩
      unfold IntraSpec.edge
      have : row = 0 := by omega
      subst this
      rw [if_neg (by omega)]
      simp only [Nat.cast_zero, mul_zero, zero_sub]
      rw [framed_above]; rfl
  obtain ⟨k, hk, hk'⟩ : ∃ k, cornerPixel p n column row = some k ∧ k.toNat = IntraSpec.edge p n column row 0 := by
    unfold cornerPixel IntraSpec.edge
    rw [if_pos (by omega : (0 : Int) ≤ 0)]
    split
    · next h =>
      have := hc h.1
      have := hr h.2
      refine ⟨_, Plane.px_eq hp (by omega) (by omega), ?_⟩
      rw [← framed_in]
      exact congrArg₂ _ (by omega) (by omega)
    · split
      · next h h' =>
        have := hr h'
        have : column = 0 := by omega
        subst this
        refine ⟨_, rfl, ?_⟩
        simp only [Nat.cast_zero, mul_zero, zero_sub]
        rw [framed_left p (by push_cast at *; omega)]; rfl
      · next h h' =>
        have : row = 0 := by omega
        subst this
        refine ⟨_, rfl, ?_⟩
        simp only [Nat.cast_zero, mul_zero, zero_sub, sub_zero]
        rw [framed_above]; rfl
  refine ⟨⟨l, a, k⟩, ?_, hl', ha', hk'⟩
  unfold leftAndAbove
  rw [hl, ha, hk]; rfl

theorem aboveRight_eq {p : Plane} (hp : p.Full) (h16 : 16 ∣ p.width) {column row : Nat} (hx : 4 * column + 4 ≤ p.width)
    (hy : 4 * row + 4 ≤ p.height) : ∃ f, aboveRight p column row = some f ∧ ∀ i, (f i).toNat = IntraSpec.edge4 p column row (5 + i.val) := by
  unfold aboveRight
  have hs : ∀ i : Fin 4, IntraSpec.edge4 p column row (5 + i.val) =
      framed p (min (4 * column + 4 + i.val) (p.width - 1)) (if column % 4 = 3 then 16 * (row / 4 : Nat) - 1 else 4 * row - 1) := fun i => by
    unfold IntraSpec.edge4; rw [if_neg (by omega)]; congr 2; omega
  simp only [hs]
  split
  · next h =>
    subst h
    refine ⟨_, rfl, fun i => ?_⟩
    simp only [Nat.zero_div, Nat.cast_zero, mul_zero, zero_sub, ite_self]; rw [framed_above]; rfl
  · split
    · next h =>
      have hc : column % 4 = 3 := by omega
      simp only [if_pos hc]
      split
      · next h4 =>
        rw [Plane.px_eq hp (by omega) (by omega)]
        refine ⟨_, rfl, fun i => ?_⟩
        rw [← framed_in]
        exact congrArg₂ _ (by omega) (by push_cast; omega)
      · refine ⟨_, rfl, fun i => ?_⟩
        rw [show row / 4 = 0 by omega]
        simp only [Nat.cast_zero, mul_zero, zero_sub]; rw [framed_above]; rfl
    · split
      · next h h' =>
        simp only [if_pos h'.1]
        split
        · rw [Grid.address_eq hp (by omega) (by omega)]
          refine ⟨_, allSome_some fun i => Plane.load_eq hp (x := 4 * (column + 1) + i) (y := 4 * (row / 4 * 4) - 1) (by omega) (by omega)
            (by push_cast; omega), fun i => ?_⟩
          rw [← framed_in]
          exact congrArg₂ _ (by push_cast; omega) (by push_cast; omega)
        · refine ⟨_, rfl, fun i => ?_⟩
          rw [show row / 4 = 0 by omega]
          simp only [Nat.cast_zero, mul_zero, zero_sub]; rw [framed_above]; rfl
      · next h h' =>
        rw [Grid.address_eq hp (by omega) (by omega)]
        refine ⟨_, allSome_some fun i => Plane.load_eq hp (x := 4 * (column + 1) + i) (y := 4 * row - 1) (by omega) (by omega)
          (by push_cast; omega), fun i => ?_⟩
        rw [← framed_in]
        refine congrArg₂ _ (by push_cast; omega) ?_
        split <;> (push_cast; omega)

theorem edge4_eq {p : Plane} (hp : p.Full) (h16 : 16 ∣ p.width) {column row : Nat} (hx : 4 * column + 4 ≤ p.width)
    (hy : 4 * row + 4 ≤ p.height) : ∃ e, edge4 p column row = some e ∧ e.Is (IntraSpec.edge4 p column row) := by
  obtain ⟨e, he, hl, ha, hk⟩ := leftAndAbove_eq hp (by decide : 0 < 4) hx hy
  obtain ⟨f, hf, hf'⟩ := aboveRight_eq hp h16 hx hy
  have hs : ∀ i : Int, i ≤ 4 → IntraSpec.edge4 p column row i = IntraSpec.edge p 4 column row i := fun i hi => by
    unfold IntraSpec.edge4; rw [if_pos hi]
  refine ⟨_, by unfold edge4; rw [he, hf]; rfl, fun i => ?_, fun i => ?_, ?_⟩
  · rw [hs _ (by omega)]; exact hl i
  · dsimp only
    split
    · rw [hs _ (by omega)]; exact ha _
    · rw [hf']; congr 1; dsimp only; omega
  · rw [hs _ (by omega)]; exact hk

/-! ### The modes -/

theorem pixelSum_eq {n : Nat} (f : Fin n → UInt8) : pixelSum f = ∑ i, (f i).toNat := by
  unfold pixelSum
  rw [← List.foldl_map (f := UInt8.toNat) (g := fun (s x : Nat) => s + x), ← List.sum_eq_foldl, List.map_ofFn, List.sum_ofFn]; rfl

theorem toUInt8_limited (v : Int) : clamp255 v = UInt8.ofNat (limited v) := clamp255_eq v

variable {n m : Nat} {e : Edge n m} {s : Int → Nat}

theorem Edge.Is.up (he : e.Is s) (h : n ≤ m) (i : Fin n) : (e.up h i).toNat = s (1 + i.val) := he.above _

theorem trueMotion_eq (he : e.Is s) (h : n ≤ m) (c r : Fin n) : trueMotion h e c r = UInt8.ofNat (limited (s (-1 - r) + s (1 + c) - s 0)) := by
  unfold trueMotion; rw [toUInt8_limited, he.left, he.up, he.corner]

theorem horizontal_eq (he : e.Is s) (c r : Fin n) : horizontal e c r = UInt8.ofNat (s (-1 - r)) := by
  rw [← he.left]; simp [horizontal]

theorem vertical_eq (he : e.Is s) (h : n ≤ m) (c r : Fin n) : vertical h e c r = UInt8.ofNat (s (1 + c)) := by
  rw [← he.up h]; simp [vertical]

theorem dcSimple_eq (he : e.Is s) (h : n ≤ m) {log2 : Nat} (hl : n = 2 ^ log2) (c r : Fin n) :
    dcSimple h log2 e c r = UInt8.ofNat (mean n true true s) := by
  unfold dcSimple mean
  simp only [pixelSum_eq, he.left, he.up h, Nat.shiftRight_eq_div_pow, Nat.one_shiftLeft]
  rw [← hl, Nat.pow_succ, ← hl, Nat.mul_comm n 2]

theorem dcPredict_eq (he : e.Is s) (h : n ≤ m) {log2 : Nat} (hl : n = 2 ^ log2) (hl0 : 0 < log2) (column row : Nat) (c r : Fin n) :
    dcPredict h log2 column row e c r = UInt8.ofNat (mean n (decide (0 < row)) (decide (0 < column)) s) := by
  have h2 : n / 2 = 2 ^ (log2 - 1) := by
    obtain ⟨k, rfl⟩ : ∃ k, log2 = k + 1 := ⟨log2 - 1, by omega⟩
    rw [hl, Nat.pow_succ]; simp
  unfold dcPredict
  split
  · next h' => rw [dcSimple_eq he h hl, decide_eq_true (by omega), decide_eq_true (by omega)]
  · split
    · next h' h'' =>
      rw [decide_eq_true (by omega), decide_eq_false (by omega)]
      simp only [mean, pixelSum_eq, he.up h, Nat.shiftRight_eq_div_pow, Nat.one_shiftLeft]
      rw [← hl, h2]
    · split
      · rw [decide_eq_false (by omega), decide_eq_true (by omega)]
        simp only [mean, pixelSum_eq, he.left, Nat.shiftRight_eq_div_pow, Nat.one_shiftLeft]
        rw [← hl, h2]
      · rw [decide_eq_false (by omega), decide_eq_false (by omega)]; rfl

theorem intraSquare_eq (he : e.Is s) (h : n ≤ m) {log2 : Nat} (hl : n = 2 ^ log2) (hl0 : 0 < log2) {mode : Nat} (hm : mode ≤ TM_PRED)
    (column row : Nat) : intraSquare h log2 mode column row e =
      some fun c r : Fin n => UInt8.ofNat (whole n mode (decide (0 < row)) (decide (0 < column)) s c r) := by
  have hm' : mode ≤ 3 := hm
  unfold intraSquare
  interval_cases mode
  · exact congrArg some (funext fun c => funext fun r => dcPredict_eq he h hl hl0 column row c r)
  · exact congrArg some (funext fun c => funext fun r => vertical_eq he h c r)
  · exact congrArg some (funext fun c => funext fun r => horizontal_eq he c r)
  · exact congrArg some (funext fun c => funext fun r => trueMotion_eq he h c r)

/-! ### The modes of 4x4 blocks -/

theorem avg3_eq (x y z : UInt8) : avg3 x y z = UInt8.ofNat ((x.toNat + 2 * y.toNat + z.toNat + 2) / 4) := by
  unfold avg3; rw [Nat.shiftRight_eq_div_pow]

theorem avg2_eq (x y : UInt8) : avg2 x y = UInt8.ofNat ((x.toNat + y.toNat + 1) / 2) := by
  unfold avg2; rw [Nat.shiftRight_eq_div_pow]

section
variable {e : Edge 4 8} {s : Int → Nat}

/-- The edge beyond whose ends the last pixel is repeated. -/
def Edge.line (e : Edge 4 8) (i : Int) : UInt8 := e.east ⟨(max (-4) (min i 8) + 4).toNat, by omega⟩

theorem Edge.Is.line (he : e.Is s) (i : Int) : (e.line i).toNat = s (max (-4) (min i 8)) := by
  unfold Edge.line Edge.east
  dsimp only
  split
  · rw [he.left]; congr 1; dsimp only; omega
  · split
    · rw [he.corner]; congr 1; omega
    · rw [he.above]; congr 1; dsimp only; omega

/-- A 4x4 block is right when all its pixels are. -/
theorem square4 {f g : Square 4} (h : ∀ c r : Fin 4, f c r = g c r) : some f = some g := by
  rw [show f = g from funext fun c => funext fun r => h c r]

theorem line3 (he : e.Is s) {x y z : UInt8} {i : Int} (h1 : x = e.line (i - 1)) (h2 : y = e.line i) (h3 : z = e.line (i + 1)) :
    avg3 x y z = UInt8.ofNat (mean3 (fun i => s (max (-4) (min i 8))) i) := by
  rw [avg3_eq, h1, h2, h3]; unfold mean3; simp only [he.line]

theorem line2 (he : e.Is s) {x y : UInt8} {i : Int} (h1 : x = e.line i) (h2 : y = e.line (i + 1)) :
    avg2 x y = UInt8.ofNat (mean2 (fun i => s (max (-4) (min i 8))) i) := by
  rw [avg2_eq, h1, h2]; unfold mean2; simp only [he.line]

/-- A value of the edge beyond the end of the column to the left. -/
theorem lineEnd (he : e.Is s) {i : Int} (h : i ≤ -5) : e.left 3 = UInt8.ofNat (mean2 (fun i => s (max (-4) (min i 8))) i) := by
  have h3 := he.left 3
  have hl := (e.left 3).toNat_lt
  unfold mean2
  dsimp only
  rw [show max (-4) (min i 8) = -1 - ((3 : Fin 4).val : Int) by rw [show (3 : Fin 4).val = 3 from rfl]; omega,
    show max (-4) (min (i + 1) 8) = -1 - ((3 : Fin 4).val : Int) by rw [show (3 : Fin 4).val = 3 from rfl]; omega, ← h3,
    show ((e.left 3).toNat + (e.left 3).toNat + 1) / 2 = (e.left 3).toNat by omega]
  simp

theorem lineEnd3 (he : e.Is s) {i : Int} (h : i ≤ -5) : e.left 3 = UInt8.ofNat (mean3 (fun i => s (max (-4) (min i 8))) i) := by
  have h3 := he.left 3
  have hl := (e.left 3).toNat_lt
  unfold mean3
  dsimp only
  rw [show max (-4) (min (i - 1) 8) = -1 - ((3 : Fin 4).val : Int) by rw [show (3 : Fin 4).val = 3 from rfl]; omega,
    show max (-4) (min i 8) = -1 - ((3 : Fin 4).val : Int) by rw [show (3 : Fin 4).val = 3 from rfl]; omega,
    show max (-4) (min (i + 1) 8) = -1 - ((3 : Fin 4).val : Int) by rw [show (3 : Fin 4).val = 3 from rfl]; omega, ← h3,
    show ((e.left 3).toNat + 2 * (e.left 3).toNat + (e.left 3).toNat + 2) / 4 = (e.left 3).toNat by omega]
  simp

theorem Edge.Is.clamped (he : e.Is s) : e.Is fun i => s (max (-4) (min i 8)) where
  left i := by rw [he.left]; congr 1; omega
  above i := by rw [he.above]; congr 1; omega
  corner := he.corner

/-- The same in the other direction. -/
theorem line3' (he : e.Is s) {x y z : UInt8} {i : Int} (h1 : x = e.line (i + 1)) (h2 : y = e.line i) (h3 : z = e.line (i - 1)) :
    avg3 x y z = UInt8.ofNat (mean3 (fun i => s (max (-4) (min i 8))) i) := by
  rw [← line3 he h3 h2 h1, avg3_eq, avg3_eq]; congr 2; omega

theorem line2' (he : e.Is s) {x y : UInt8} {i : Int} (h1 : x = e.line (i + 1)) (h2 : y = e.line i) :
    avg2 x y = UInt8.ofNat (mean2 (fun i => s (max (-4) (min i 8))) i) := by
  rw [← line2 he h2 h1, avg2_eq, avg2_eq]; congr 2; omega

theorem verticalSmoothed_eq (he : e.Is s) (c r : Fin 4) : verticalSmoothed e c r = UInt8.ofNat (sub 2 s c r) := by
  fin_cases c <;> exact line3 he rfl rfl rfl

theorem horizontalSmoothed_eq (he : e.Is s) (c r : Fin 4) : horizontalSmoothed e c r = UInt8.ofNat (sub 3 s c r) := by
  fin_cases r <;> exact line3' he rfl rfl rfl

theorem leftDown_eq (he : e.Is s) (c r : Fin 4) : leftDown e c r = UInt8.ofNat (sub 4 s c r) := by
  fin_cases c <;> fin_cases r <;> exact line3 he rfl rfl rfl

theorem rightDown_eq (he : e.Is s) (c r : Fin 4) : rightDown e c r = UInt8.ofNat (sub 5 s c r) := by
  fin_cases c <;> fin_cases r <;> exact line3 he rfl rfl rfl

theorem verticalRight_eq (he : e.Is s) (c r : Fin 4) : verticalRight e c r = UInt8.ofNat (sub 6 s c r) := by
  fin_cases c <;> fin_cases r <;> first | exact line3 he rfl rfl rfl | exact line2 he rfl rfl

theorem verticalLeft_eq (he : e.Is s) (c r : Fin 4) : verticalLeft e c r = UInt8.ofNat (sub 7 s c r) := by
  fin_cases c <;> fin_cases r <;> first | exact line3 he rfl rfl rfl | exact line2 he rfl rfl

theorem horizontalDown_eq (he : e.Is s) (c r : Fin 4) : horizontalDown e c r = UInt8.ofNat (sub 8 s c r) := by
  fin_cases c <;> fin_cases r <;> first | exact line3 he rfl rfl rfl | exact line2 he rfl rfl

theorem horizontalUp_eq (he : e.Is s) (c r : Fin 4) : horizontalUp e c r = UInt8.ofNat (sub 9 s c r) := by
  fin_cases c <;> fin_cases r
  · exact line2' he rfl rfl
  · exact line2' he rfl rfl
  · exact line2' he rfl rfl
  · exact lineEnd he (by decide)
  · exact line3' he rfl rfl rfl
  · exact line3' he rfl rfl rfl
  · exact line3' he rfl rfl rfl
  · exact lineEnd3 he (by decide)
  · exact line2' he rfl rfl
  · exact line2' he rfl rfl
  · exact lineEnd he (by decide)
  · exact lineEnd he (by decide)
  · exact line3' he rfl rfl rfl
  · exact line3' he rfl rfl rfl
  · exact lineEnd3 he (by decide)
  · exact lineEnd3 he (by decide)

theorem intraSquare4_eq (he : e.Is s) {mode : Nat} (hm : mode ≤ B_HU_PRED) :
    intraSquare4 mode e = some fun c r : Fin 4 => UInt8.ofNat (sub mode s c r) := by
  have hm' : mode ≤ 9 := hm
  unfold intraSquare4
  interval_cases mode
  · exact square4 fun c r => dcSimple_eq he.clamped (by decide) rfl c r
  · exact square4 fun c r => trueMotion_eq he.clamped (by decide) c r
  · exact square4 fun c r => verticalSmoothed_eq he c r
  · exact square4 fun c r => horizontalSmoothed_eq he c r
  · exact square4 fun c r => leftDown_eq he c r
  · exact square4 fun c r => rightDown_eq he c r
  · exact square4 fun c r => verticalRight_eq he c r
  · exact square4 fun c r => verticalLeft_eq he c r
  · exact square4 fun c r => horizontalDown_eq he c r
  · exact square4 fun c r => horizontalUp_eq he c r

end

end Alfalfa
