import Verif.Proof.SseFilterPlanes

/-! The loop filter in vector code on pictures: vertical edges, and the edges of subblocks in a block of sixteen lines. -/

namespace Alfalfa

open LoopFilterSpec Sse

variable {f : LoopFilter} {p u v : Plane} {x y t x' y' t' : Nat} {src src' : Int}

theorem lineOffsets_eq (stride : Int) (i : Fin 8) : lineOffsets stride i = i.val * stride := by
  fin_cases i <;> simp [lineOffsets] <;> ring

theorem blockOffsets_eq (stride : Int) (i : Fin 16) : blockOffsets stride i = i.val * stride := by
  fin_cases i <;> simp [blockOffsets] <;> ring

theorem lineLoads_px (hp : p.Full) (hs : src = ((y * p.width + x : Nat) : Int)) (hx : x + 8 ≤ p.width) (hy : y + 8 ≤ p.height) :
    lineLoads p src p.width = some fun i => rowReg p x (y + i.val) 8 := by
  unfold lineLoads
  refine allSome_some fun i => ?_
  exact reads_px hp (by rw [lineOffsets_eq, hs]; push_cast; ring) hx (by omega)

theorem blockLoads_px (hp : p.Full) (hs : src = ((y * p.width + x : Nat) : Int)) (hx : x + 16 ≤ p.width) (hy : y + 16 ≤ p.height) :
    (allSome fun k : Fin 16 => reads p.load (src + blockOffsets p.width k) 16) = some fun i => rowReg p x (y + i.val) 16 := by
  refine allSome_some fun i => ?_
  exact reads_px hp (by rw [blockOffsets_eq, hs]; push_cast; ring) hx (by omega)

/-- The rows, addresses and registers of `lineWrites`. -/
def lineList (y : Nat) (rsi stride : Int) (o : Fin 8 → Reg) : List (Nat × Int × Reg) := (List.finRange 8).map fun i => (y + i.val, rsi + lineOffsets stride i, o i)

theorem lineWrites_eq (y : Nat) (rsi stride : Int) (n : Nat) (o : Fin 8 → Reg) (p : Plane) :
    lineWrites rsi stride n o p = (lineList y rsi stride o).foldlM (fun p e => writes p e.2.1 n e.2.2) p := by
  unfold lineWrites lineList
  rw [List.foldlM_map]

theorem mem_lineList (y : Nat) (rsi stride : Int) (o : Fin 8 → Reg) (r : Nat) : r ∈ (lineList y rsi stride o).map (·.1) ↔ y ≤ r ∧ r < y + 8 := by
  unfold lineList
  rw [List.map_map, List.mem_map]
  constructor
  · rintro ⟨i, -, rfl⟩
    show y ≤ y + i.val ∧ y + i.val < y + 8
    omega
  · intro h
    exact ⟨⟨r - y, by omega⟩, List.mem_finRange _, by show y + (r - y) = r; omega⟩

theorem lineList_right {w h n : Nat} {rsi : Int} {o : Fin 8 → Reg} (T : Nat → Nat → UInt8) (hs : rsi = ((y * w + x : Nat) : Int)) (hy : y + 8 ≤ h)
    (ho : ∀ (i : Fin 8) (k : Nat), k < n → o i k = (T (x + k) (y + i.val)).toBitVec) :
    ∀ e ∈ lineList y rsi w o, e.1 < h ∧ e.2.1 = ((e.1 * w + x : Nat) : Int) ∧ ∀ k, k < n → e.2.2 k = (T (x + k) e.1).toBitVec := by
  intro e he
  unfold lineList at he
  rw [List.mem_map] at he
  obtain ⟨i, -, rfl⟩ := he
  exact ⟨by show y + i.val < h; omega, by show rsi + lineOffsets w i = _; rw [lineOffsets_eq, hs]; push_cast; ring, ho i⟩

/-- Eight lines are written to one plane. -/
theorem lineWrites_shows {n : Nat} {o : Fin 8 → Reg} {stride : Int} (T : Nat → Nat → UInt8) (hp : p.Full) (hst : stride = p.width) (hs : src = ((y * p.width + x : Nat) : Int))
    (hx : x + n ≤ p.width) (hy : y + 8 ≤ p.height) (ho : ∀ (i : Fin 8) (k : Nat), k < n → o i k = (T (x + k) (y + i.val)).toBitVec)
    (hT : ∀ a b, ¬ ((x ≤ a ∧ a < x + n) ∧ (y ≤ b ∧ b < y + 8)) → T a b = p.px a b) :
    ∃ q, lineWrites src stride n o p = some q ∧ p.Shows q T := by
  rw [lineWrites_eq y, hst]
  exact writeAll_target hp T hx _ (lineList_right T hs hy ho) fun a b h => hT a b fun h' => h ⟨h'.1, (mem_lineList _ _ _ _ _).mpr h'.2⟩

/-! ### The edges of macroblocks -/

theorem bothLines_low (a b : Fin 8 → Reg) (i : Fin 8) : bothLines a b ⟨i.val, by omega⟩ = a i := by
  unfold bothLines; rw [dif_pos i.isLt]

theorem bothLines_high (a b : Fin 8 → Reg) (i : Fin 8) : bothLines a b ⟨8 + i.val, by omega⟩ = b i := by
  unfold bothLines; rw [dif_neg (by simp)]
  congr 1
  exact Fin.ext (by show 8 + i.val - 8 = i.val; omega)

theorem turned_low (a b : Fin 8 → Reg) (i j : Fin 8) : transpose16x8 (bothLines a b) j i.val = a i j := by
  have := transpose16x8_at (bothLines a b) j ⟨i.val, by omega⟩
  rw [bothLines_low] at this
  exact this

theorem turned_high (a b : Fin 8 → Reg) (i j : Fin 8) : transpose16x8 (bothLines a b) j (8 + i.val) = b i j := by
  have := transpose16x8_at (bothLines a b) j ⟨8 + i.val, by omega⟩
  rw [bothLines_high] at this
  exact this

theorem pixels_turned_low (p : Plane) (t y : Nat) (b : Fin 8 → Reg) (i : Fin 8) :
    pixels (transpose16x8 (bothLines (fun i => rowReg p t (y + i.val) 8) b)) i.val = fun j : Fin 8 => p.px (t + j) (y + i.val) := by
  funext j
  unfold pixels
  rw [turned_low]
  unfold rowReg
  rw [if_pos j.isLt]

theorem pixels_turned_high (p : Plane) (t y : Nat) (a : Fin 8 → Reg) (i : Fin 8) :
    pixels (transpose16x8 (bothLines a (fun i => rowReg p t (y + i.val) 8))) (8 + i.val) = fun j : Fin 8 => p.px (t + j) (y + i.val) := by
  funext j
  unfold pixels
  rw [turned_high]
  unfold rowReg
  rw [if_pos j.isLt]

theorem mbLines_low (hf : f.Fits) (p : Plane) (t y n : Nat) (hn : 8 ≤ n) (b : Fin 8 → Reg) (i : Fin 8) (k : Nat) (hk : k < 8) :
    let r := transpose16x8 (bothLines (fun i => rowReg p t (y + i.val) 8) b)
    mbvLines (mbAcross (lfvMasks r f.limits f.macroblockLimits f.thresholds) r) ⟨i.val, by omega⟩ k = (acrossVertical f.mb n (t + 4) y p.px (t + k) (y + i.val)).toBitVec := by
  intro r
  have h1 := mbvLines_at (mbAcross (lfvMasks r f.limits f.macroblockLimits f.thresholds) r) ⟨i.val, by omega⟩ ⟨k, hk⟩
  refine h1.trans ((mbAcross_lane (lfvMasks_right r hf.interior hf.macroblockLimit hf.hevThreshold i.val) (by omega) ⟨k, hk⟩).trans ?_)
  rw [show t + k = t + (⟨k, hk⟩ : Fin 8).val from rfl, acrossVertical_at _ _ _ _ _ (show i.val < n by omega), pixels_turned_low]

theorem mbLines_high (hf : f.Fits) (p : Plane) (t y n s : Nat) (hn : s + 8 ≤ n) (a : Fin 8 → Reg) (i : Fin 8) (k : Nat) (hk : k < 8) :
    let r := transpose16x8 (bothLines a (fun i => rowReg p t (y + s + i.val) 8))
    mbvLines (mbAcross (lfvMasks r f.limits f.macroblockLimits f.thresholds) r) ⟨8 + i.val, by omega⟩ k =
      (acrossVertical f.mb n (t + 4) y p.px (t + k) (y + s + i.val)).toBitVec := by
  intro r
  have h1 := mbvLines_at (mbAcross (lfvMasks r f.limits f.macroblockLimits f.thresholds) r) ⟨8 + i.val, by omega⟩ ⟨k, hk⟩
  refine h1.trans ((mbAcross_lane (lfvMasks_right r hf.interior hf.macroblockLimit hf.hevThreshold (8 + i.val)) (by omega) ⟨k, hk⟩).trans ?_)
  rw [show t + k = t + (⟨k, hk⟩ : Fin 8).val from rfl, Nat.add_assoc y s i.val, acrossVertical_at _ _ _ _ _ (show s + i.val < n by omega), pixels_turned_high]
  simp only [Nat.add_assoc]

theorem sseMbVertical_shows (hf : f.Fits) (hp : p.Full) (hs : src = ((y * p.width + (t + 4) : Nat) : Int)) (hx : t + 8 ≤ p.width) (hy : y + 16 ≤ p.height) :
    ∃ q, sseMbVertical f src p.width p = some q ∧ p.Shows q (acrossVertical f.mb 16 (t + 4) y p.px) := by
  have h4 : src - 4 = ((y * p.width + t : Nat) : Int) := by rw [hs]; push_cast; ring
  have h8 : src - 4 + p.width * 8 = (((y + 8) * p.width + t : Nat) : Int) := by rw [h4]; push_cast; ring
  have la := lineLoads_px hp h4 hx (by omega)
  have lb := lineLoads_px hp h8 hx (by omega)
  obtain ⟨q, hq, hsh⟩ := writeAll_target hp (x := t) (n := 8) (acrossVertical f.mb 16 (t + 4) y p.px) hx
    (lineList y (src - 4) p.width (fun i => mbvLines (mbAcross (lfvMasks (transpose16x8 (bothLines (fun i => rowReg p t (y + i.val) 8)
        (fun i => rowReg p t (y + 8 + i.val) 8))) f.limits f.macroblockLimits f.thresholds) (transpose16x8 (bothLines (fun i => rowReg p t (y + i.val) 8)
        (fun i => rowReg p t (y + 8 + i.val) 8)))) ⟨i.val, by omega⟩) ++
      lineList (y + 8) (src - 4 + p.width * 8) p.width (fun i => mbvLines (mbAcross (lfvMasks (transpose16x8 (bothLines (fun i => rowReg p t (y + i.val) 8)
        (fun i => rowReg p t (y + 8 + i.val) 8))) f.limits f.macroblockLimits f.thresholds) (transpose16x8 (bothLines (fun i => rowReg p t (y + i.val) 8)
        (fun i => rowReg p t (y + 8 + i.val) 8)))) ⟨8 + i.val, by omega⟩))
    (fun e he => (List.mem_append.mp he).elim
      (lineList_right _ h4 (by omega) (fun i k hk => mbLines_low hf p t y 16 (by omega) _ i k hk) e)
      (lineList_right _ h8 (by omega) (fun i k hk => mbLines_high hf p t y 16 8 (by omega) _ i k hk) e))
    (fun a b h => acrossVertical_off (macroblock_only _ _ _) _ _ _ _ _ _ fun h' => h (by
      obtain ⟨hb, i, -, rfl⟩ := h'
      refine ⟨by omega, ?_⟩
      rw [List.map_append, List.mem_append, mem_lineList, mem_lineList]
      omega))
  refine ⟨q, ?_, hsh⟩
  unfold sseMbVertical
  dsimp only
  rw [la, lb]
  simp only [Option.bind_eq_bind, Option.bind_some]
  rw [← hq, List.foldlM_append, ← lineWrites_eq]
  rw [show src - 4 + p.width * 8 + -p.width * 8 = src - 4 by ring]
  simp only [← lineWrites_eq, Option.bind_eq_bind]

theorem sseMbVerticalUv_shows (hf : f.Fits) (hu : u.Full) (hv : v.Full) (hw : v.width = u.width) (hs : src = ((y * u.width + (t + 4) : Nat) : Int))
    (hs' : src' = ((y' * u.width + (t' + 4) : Nat) : Int)) (hx : t + 8 ≤ u.width) (hx' : t' + 8 ≤ u.width) (hy : y + 8 ≤ u.height) (hy' : y' + 8 ≤ v.height) :
    ∃ q q', sseMbVerticalUv f src src' u.width u v = some (q, q') ∧ u.Shows q (acrossVertical f.mb 8 (t + 4) y u.px) ∧
      v.Shows q' (acrossVertical f.mb 8 (t' + 4) y' v.px) := by
  have h4 : src - 4 = ((y * u.width + t : Nat) : Int) := by rw [hs]; push_cast; ring
  have h4' : src' - 4 = ((y' * v.width + t' : Nat) : Int) := by rw [hs', hw]; push_cast; ring
  have hx2 : t' + 8 ≤ v.width := by rw [hw]; exact hx'
  have la := lineLoads_px hu h4 hx hy
  have lb := lineLoads_px hv h4' hx2 hy'
  rw [hw] at lb
  obtain ⟨q, hq, hsh⟩ := lineWrites_shows (acrossVertical f.mb 8 (t + 4) y u.px) hu rfl h4 hx hy
    (fun i k hk => mbLines_low hf u t y 8 (by omega) (fun i => rowReg v t' (y' + i.val) 8) i k hk)
    (fun a b h => acrossVertical_off (macroblock_only _ _ _) _ _ _ _ _ _ fun h' => h (by obtain ⟨hb, i, -, rfl⟩ := h'; omega))
  obtain ⟨q', hq', hsh'⟩ := lineWrites_shows (acrossVertical f.mb 8 (t' + 4) y' v.px) hv (stride := u.width) (by rw [hw]) h4' hx2 hy'
    (fun i k hk => mbLines_high hf v t' y' 8 0 (by omega) (fun i => rowReg u t (y + i.val) 8) i k hk)
    (fun a b h => acrossVertical_off (macroblock_only _ _ _) _ _ _ _ _ _ fun h' => h (by obtain ⟨hb, i, -, rfl⟩ := h'; omega))
  refine ⟨q, q', ?_, hsh, hsh'⟩
  simp only [Nat.add_zero] at hq'
  unfold sseMbVerticalUv
  rw [la, lb]
  simp only [Option.bind_eq_bind, Option.bind_some, hq, hq', Option.pure_def]

/-! ### The edge in the middle of a block of eight by eight pixels -/

theorem subblockPlaces_range : ∀ i ∈ subblockPlaces, 2 ≤ i.val ∧ i.val < 6 := by decide

theorem sseSbVerticalUv_shows (xmm5 : Reg) (hf : f.Fits) (hu : u.Full) (hv : v.Full) (hw : v.width = u.width) (hs : src = ((y * u.width + (t + 4) : Nat) : Int))
    (hs' : src' = ((y' * u.width + (t' + 4) : Nat) : Int)) (hx : t + 8 ≤ u.width) (hx' : t' + 8 ≤ u.width) (hy : y + 8 ≤ u.height) (hy' : y' + 8 ≤ v.height) :
    ∃ q q', sseSbVerticalUv f src src' u.width xmm5 u v = some (q, q') ∧ u.Shows q (acrossVertical f.sb 8 (t + 4) y u.px) ∧
      v.Shows q' (acrossVertical f.sb 8 (t' + 4) y' v.px) := by
  have h4 : src - 4 = ((y * u.width + t : Nat) : Int) := by rw [hs]; push_cast; ring
  have h4' : src' - 4 = ((y' * v.width + t' : Nat) : Int) := by rw [hs', hw]; push_cast; ring
  have h6 : src - 4 + 2 = ((y * u.width + (t + 2) : Nat) : Int) := by rw [hs]; push_cast; ring
  have h6' : src' - 4 + 2 = ((y' * v.width + (t' + 2) : Nat) : Int) := by rw [hs', hw]; push_cast; ring
  have hx2 : t' + 8 ≤ v.width := by rw [hw]; exact hx'
  have la := lineLoads_px hu h4 hx hy
  have lb := lineLoads_px hv h4' hx2 hy'
  rw [hw] at lb
  obtain ⟨r, hr⟩ : ∃ r, r = transpose16x8 (bothLines (fun i => rowReg u t (y + i.val) 8) (fun i => rowReg v t' (y' + i.val) 8)) := ⟨_, rfl⟩
  have ho := fun (j : Nat) hj => bAcross_lane (lfvMasks_right r hf.interior hf.subblockLimit hf.hevThreshold j) xmm5 hj
  obtain ⟨o, hoe⟩ : ∃ o, o = bAcross (lfvMasks r f.limits f.subblockLimits f.thresholds) xmm5 r := ⟨_, rfl⟩
  replace ho : ∀ j, j < 16 → ∀ i, o i j = (onPixels f.sb (pixels r j) i).toBitVec := fun j hj i => by rw [hoe]; exact ho j hj i
  have hl : ∀ (j : Nat) (hj : j < 16) (k : Nat) (hk : k < 4), (![o 2, o 3, o 4, o 5] : Fin 4 → Reg) ⟨k, hk⟩ j = (onPixels f.sb (pixels r j) ⟨2 + k, by omega⟩).toBitVec := by
    intro j hj k hk
    interval_cases k <;> exact ho j hj _
  obtain ⟨q, hq, hsh⟩ := lineWrites_shows (n := 4) (acrossVertical f.sb 8 (t + 4) y u.px) hu rfl h6 (by omega) hy
    (fun i k hk => by
      refine (bvLines_low ![o 2, o 3, o 4, o 5] i ⟨k, hk⟩).trans ((hl i.val (by omega) k hk).trans ?_)
      rw [show t + 2 + k = t + (⟨2 + k, by omega⟩ : Fin 8).val by show _ = t + (2 + k); omega, acrossVertical_at _ _ _ _ _ i.isLt, hr, pixels_turned_low])
    (fun a b h => acrossVertical_off (subblock_only _ _ _) _ _ _ _ _ _ fun h' => h (by
      obtain ⟨hb, i, hi, rfl⟩ := h'; have := subblockPlaces_range i hi; omega))
  obtain ⟨q', hq', hsh'⟩ := lineWrites_shows (n := 4) (acrossVertical f.sb 8 (t' + 4) y' v.px) hv (stride := u.width) (by rw [hw]) h6' (by omega) hy'
    (fun i k hk => by
      refine (bvLines_high ![o 2, o 3, o 4, o 5] i ⟨k, hk⟩).trans ((hl (8 + i.val) (by omega) k hk).trans ?_)
      rw [show t' + 2 + k = t' + (⟨2 + k, by omega⟩ : Fin 8).val by show _ = t' + (2 + k); omega, acrossVertical_at _ _ _ _ _ i.isLt, hr, pixels_turned_high])
    (fun a b h => acrossVertical_off (subblock_only _ _ _) _ _ _ _ _ _ fun h' => h (by
      obtain ⟨hb, i, hi, rfl⟩ := h'; have := subblockPlaces_range i hi; omega))
  refine ⟨q, q', ?_, hsh, hsh'⟩
  unfold sseSbVerticalUv
  rw [la, lb]
  simp only [Option.bind_eq_bind, Option.bind_some, ← hr, ← hoe]
  change lineWrites (src' - 4 + 2) u.width 4 (bvLines (bvTranspose (o 2) (o 3) (o 4) (o 5) 2) (bvTranspose (o 2) (o 3) (o 4) (o 5) 3)) v = _ at hq'
  change lineWrites (src - 4 + 2) u.width 4 (bvLines (bvTranspose (o 2) (o 3) (o 4) (o 5) 0) (bvTranspose (o 2) (o 3) (o 4) (o 5) 1)) u = _ at hq
  rw [hq', Option.bind_some, hq]
  rfl

/-! ### The three edges in a block of sixteen by sixteen pixels -/

theorem stepLane_congr (F : (Fin 8 → UInt8) → Fin 8 → UInt8) (k : Nat) (hk : k + 8 ≤ 16) {g g' : Nat → UInt8} (h : ∀ n, n < 16 → g n = g' n) :
    ∀ n, n < 16 → stepLane F k g n = stepLane F k g' n := by
  intro n hn
  unfold stepLane
  split
  · rw [show (fun i : Fin 8 => g (k + i)) = fun i : Fin 8 => g' (k + i) from funext fun i => h _ (by omega)]
  · exact h n hn

/-- The three edges, one after the other, in a row or column of sixteen pixels. -/
def threeSteps (f : LoopFilter) (g : Nat → UInt8) : Nat → UInt8 :=
  stepLane (onPixels f.sb) 8 (stepLane (onPixels f.sb) 4 (stepLane (onPixels f.sb) 0 g))

theorem threeSteps_congr {g g' : Nat → UInt8} (h : ∀ n, n < 16 → g n = g' n) : ∀ n, n < 16 → threeSteps f g n = threeSteps f g' n :=
  stepLane_congr _ 8 (by omega) (stepLane_congr _ 4 (by omega) (stepLane_congr _ 0 (by omega) h))

theorem acrossHorizontal_step (g : (Fin 8 → Nat) → Fin 8 → Nat) (n x y k : Nat) (img : Nat → Nat → UInt8) {a : Nat} (ha : x ≤ a ∧ a < x + n) (m : Nat) :
    acrossHorizontal g n x (y + (k + 4)) img a (y + m) = stepLane (onPixels g) k (fun m => img a (y + m)) m := by
  unfold acrossHorizontal stepLane
  by_cases h : k ≤ m ∧ m < k + 8
  · rw [dif_pos (by omega), dif_pos h]
    have e : ∀ i : Nat, y + (k + 4) - 4 + i = y + (k + i) := fun i => by omega
    simp only [e]
    congr 1
    exact Fin.ext (by show y + m - (y + (k + 4) - 4) = m - k; omega)
  · rw [dif_neg (by omega), dif_neg h]

theorem acrossVertical_step (g : (Fin 8 → Nat) → Fin 8 → Nat) (n x y k : Nat) (img : Nat → Nat → UInt8) {b : Nat} (hb : y ≤ b ∧ b < y + n) (m : Nat) :
    acrossVertical g n (x + (k + 4)) y img (x + m) b = stepLane (onPixels g) k (fun m => img (x + m) b) m := by
  unfold acrossVertical stepLane
  by_cases h : k ≤ m ∧ m < k + 8
  · rw [dif_pos (by omega), dif_pos h]
    have e : ∀ i : Nat, x + (k + 4) - 4 + i = x + (k + i) := fun i => by omega
    simp only [e]
    congr 1
    exact Fin.ext (by show x + m - (x + (k + 4) - 4) = m - k; omega)
  · rw [dif_neg (by omega), dif_neg h]

def threeHorizontal (f : LoopFilter) (x y : Nat) (img : Nat → Nat → UInt8) : Nat → Nat → UInt8 :=
  acrossHorizontal f.sb 16 x (y + (8 + 4)) (acrossHorizontal f.sb 16 x (y + (4 + 4)) (acrossHorizontal f.sb 16 x (y + (0 + 4)) img))

def threeVertical (f : LoopFilter) (x y : Nat) (img : Nat → Nat → UInt8) : Nat → Nat → UInt8 :=
  acrossVertical f.sb 16 (x + (8 + 4)) y (acrossVertical f.sb 16 (x + (4 + 4)) y (acrossVertical f.sb 16 (x + (0 + 4)) y img))

theorem threeHorizontal_at (x y : Nat) (img : Nat → Nat → UInt8) {a : Nat} (ha : x ≤ a ∧ a < x + 16) (m : Nat) :
    threeHorizontal f x y img a (y + m) = threeSteps f (fun m => img a (y + m)) m := by
  unfold threeHorizontal threeSteps
  simp only [acrossHorizontal_step f.sb 16 x y _ _ ha]

theorem threeVertical_at (x y : Nat) (img : Nat → Nat → UInt8) {b : Nat} (hb : y ≤ b ∧ b < y + 16) (m : Nat) :
    threeVertical f x y img (x + m) b = threeSteps f (fun m => img (x + m) b) m := by
  unfold threeVertical threeSteps
  simp only [acrossVertical_step f.sb 16 x y _ _ hb]

theorem threeHorizontal_off (x y : Nat) (img : Nat → Nat → UInt8) (a b : Nat) (h : ¬ ((x ≤ a ∧ a < x + 16) ∧ (y + 2 ≤ b ∧ b < y + 14))) :
    threeHorizontal f x y img a b = img a b := by
  have one : ∀ (k : Nat) (img : Nat → Nat → UInt8), k ≤ 8 → acrossHorizontal f.sb 16 x (y + (k + 4)) img a b = img a b := fun k img hk => by
    rw [← Nat.add_assoc]
    exact acrossHorizontal_off (subblock_only _ _ _) _ _ _ _ _ _ fun h' => h (by
      obtain ⟨hb, i, hi, rfl⟩ := h'; have := subblockPlaces_range i hi; omega)
  unfold threeHorizontal
  rw [one 8 _ (by omega), one 4 _ (by omega), one 0 _ (by omega)]

theorem threeVertical_off (x y : Nat) (img : Nat → Nat → UInt8) (a b : Nat) (h : ¬ ((x ≤ a ∧ a < x + 16) ∧ (y ≤ b ∧ b < y + 16))) :
    threeVertical f x y img a b = img a b := by
  have one : ∀ (k : Nat) (img : Nat → Nat → UInt8), k ≤ 8 → acrossVertical f.sb 16 (x + (k + 4)) y img a b = img a b := fun k img hk => by
    rw [← Nat.add_assoc]
    exact acrossVertical_off (subblock_only _ _ _) _ _ _ _ _ _ fun h' => h (by
      obtain ⟨hb, i, hi, rfl⟩ := h'; have := subblockPlaces_range i hi; omega)
  unfold threeVertical
  rw [one 8 _ (by omega), one 4 _ (by omega), one 0 _ (by omega)]

theorem lfSteps_at (hf : f.Fits) (s : Fin 16 → Reg) (j : Nat) (n : Fin 16) :
    lfSteps s f.limits f.subblockLimits f.thresholds n j = (threeSteps f (column16 s j) n.val).toBitVec := by
  have := lfSteps_lane s hf.interior hf.subblockLimit hf.hevThreshold j n.val n.isLt
  unfold threeSteps
  rw [← this]
  unfold column16
  rw [dif_pos n.isLt]
  rfl

theorem sseSbHorizontal_shows (hf : f.Fits) (hp : p.Full) (hs : src = ((y * p.width + x : Nat) : Int)) (hx : x + 16 ≤ p.width) (hy : y + 16 ≤ p.height) :
    ∃ q, sseSbHorizontal f src p.width p = some q ∧ p.Shows q (threeHorizontal f x y p.px) := by
  have hl := blockLoads_px hp hs hx hy
  obtain ⟨s, hse⟩ : ∃ s : Fin 16 → Reg, s = fun i => rowReg p x (y + i.val) 16 := ⟨_, rfl⟩
  rw [← hse] at hl
  obtain ⟨q, hq, hsh⟩ := writeAll_target hp (x := x) (n := 16) (threeHorizontal f x y p.px) hx
    ((List.finRange 12).map fun (k : Fin 12) => (y + (2 + k.val), src + blockOffsets p.width ⟨2 + k.val, by omega⟩,
      lfSteps s f.limits f.subblockLimits f.thresholds ⟨2 + k.val, by omega⟩))
    (fun e he => by
      rw [List.mem_map] at he
      obtain ⟨k, -, rfl⟩ := he
      refine ⟨by show y + (2 + k.val) < p.height; omega, by show src + _ = _; rw [blockOffsets_eq, hs]; push_cast; ring, fun j hj => ?_⟩
      show lfSteps s f.limits f.subblockLimits f.thresholds ⟨2 + k.val, _⟩ j = (threeHorizontal f x y p.px (x + j) (y + (2 + k.val))).toBitVec
      rw [threeHorizontal_at _ _ _ (by omega), lfSteps_at hf]
      refine congrArg _ (threeSteps_congr (fun n hn => ?_) _ (by show 2 + k.val < 16; omega))
      unfold column16
      rw [dif_pos hn, hse]
      simp only [rowReg, if_pos hj])
    (fun a b h => threeHorizontal_off _ _ _ _ _ fun h' => h ⟨h'.1, by
      rw [List.map_map, List.mem_map]
      exact ⟨⟨b - y - 2, by omega⟩, List.mem_finRange _, by show y + (2 + (b - y - 2)) = b; omega⟩⟩)
  refine ⟨q, ?_, hsh⟩
  unfold sseSbHorizontal
  rw [hl, ← hq, List.foldlM_map]
  rfl

theorem sseSbVertical_shows (hf : f.Fits) (hp : p.Full) (hs : src = ((y * p.width + x : Nat) : Int)) (hx : x + 16 ≤ p.width) (hy : y + 16 ≤ p.height) :
    ∃ q, sseSbVertical f src p.width p = some q ∧ p.Shows q (threeVertical f x y p.px) := by
  have hl := blockLoads_px hp hs hx hy
  obtain ⟨s, hse⟩ : ∃ s : Fin 16 → Reg, s = fun i => rowReg p x (y + i.val) 16 := ⟨_, rfl⟩
  rw [← hse] at hl
  obtain ⟨q, hq, hsh⟩ := writeAll_target hp (x := x) (n := 16) (threeVertical f x y p.px) hx
    ((List.finRange 16).map fun (k : Fin 16) => (y + k.val, src + blockOffsets p.width k,
      transpose16 (lfSteps (transpose16 s) f.limits f.subblockLimits f.thresholds) k))
    (fun e he => by
      rw [List.mem_map] at he
      obtain ⟨k, -, rfl⟩ := he
      refine ⟨by show y + k.val < p.height; omega, by show src + _ = _; rw [blockOffsets_eq, hs]; push_cast; ring, fun j hj => ?_⟩
      show transpose16 (lfSteps (transpose16 s) f.limits f.subblockLimits f.thresholds) k j = (threeVertical f x y p.px (x + j) (y + k.val)).toBitVec
      refine (transpose16_at _ k ⟨j, hj⟩).trans ?_
      rw [threeVertical_at _ _ _ (by omega), lfSteps_at hf]
      refine congrArg _ (threeSteps_congr (fun n hn => ?_) _ hj)
      unfold column16
      rw [dif_pos hn]
      have := transpose16_at s ⟨n, hn⟩ k
      rw [show transpose16 s ⟨n, hn⟩ k.val = s k n from this, hse]
      simp only [rowReg, if_pos hn])
    (fun a b h => threeVertical_off _ _ _ _ _ fun h' => h ⟨h'.1, by
      rw [List.map_map, List.mem_map]
      exact ⟨⟨b - y, by omega⟩, List.mem_finRange _, by show y + (b - y) = b; omega⟩⟩)
  refine ⟨q, ?_, hsh⟩
  unfold sseSbVertical
  rw [hl, ← hq, List.foldlM_map]
  rfl

end Alfalfa
