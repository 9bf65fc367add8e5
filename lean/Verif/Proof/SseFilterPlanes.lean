import Verif.Proof.SseFilter
import Verif.Proof.SseFilterTurn

/-! The loop filter in vector code on pictures. -/

namespace Alfalfa

open LoopFilterSpec Sse

/-! ### Memory -/

/-- A part of a line in a register. -/
def rowReg (p : Plane) (x y n : Nat) : Reg := fun j => if j < n then (p.px (x + j) y).toBitVec else 0

theorem reads_px {p : Plane} (hp : p.Full) {x y n : Nat} {a : Int} (ha : a = ((y * p.width + x : Nat) : Int)) (hx : x + n ≤ p.width) (hy : y < p.height) :
    reads p.load a n = some (rowReg p x y n) := by
  unfold reads
  rw [allSome_some (f := fun k : Fin n => p.load (a + k.val)) (g := fun k => p.px (x + k.val) y)
    (fun k => Plane.load_eq hp (by omega) hy (by subst ha; push_cast; ring))]
  refine congrArg some (funext fun j => ?_)
  unfold rowReg
  split <;> rfl

theorem writes_shows {w h x y n : Nat} {a : Int} (r : Reg) (ha : a = ((y * w + x : Nat) : Int)) (hx : x + n ≤ w) (hy : y < h) {p : Plane} (hp : p.Full)
    (hw : p.width = w) (hh : p.height = h) :
    ∃ q, writes p a n r = some q ∧ p.Shows q (fun u v => if v = y ∧ x ≤ u ∧ u < x + n then ⟨r (u - x)⟩ else p.px u v) := by
  induction n with
  | zero =>
    refine ⟨p, rfl, hp, rfl, rfl, ?_⟩
    funext u v
    rw [if_neg (by omega)]
  | succ n ih =>
    obtain ⟨q, hq, hs⟩ := ih (by omega)
    obtain ⟨q', hq', hf, hw', hh', hpx⟩ := Plane.store_changed hs.full (x := x + n) (y := y) (a := a + n) ⟨r n⟩ (by rw [hs.width]; omega) (by rw [hs.height]; omega)
      (by rw [hs.width, hw, ha]; push_cast; ring)
    refine ⟨q', ?_, hf, hw'.trans hs.width, hh'.trans hs.height, ?_⟩
    · unfold writes at hq ⊢
      rw [List.range_succ, List.foldlM_append, hq]
      simp [hq']
    · funext u v
      rw [hpx, hs.px]
      dsimp only
      by_cases h1 : u = x + n ∧ v = y
      · rw [if_pos h1, if_pos (by omega), show u - x = n by omega]
      · rw [if_neg h1]
        by_cases h2 : v = y ∧ x ≤ u ∧ u < x + n
        · rw [if_pos h2, if_pos (by omega)]
        · rw [if_neg h2, if_neg (by omega)]

/-- Writes of `n` pixels from the column `x` on: row, address, register. -/
theorem writeAll_shows {w h x n : Nat} (T : Nat → Nat → UInt8) (hx : x + n ≤ w) : ∀ (l : List (Nat × Int × Reg)),
    (∀ e ∈ l, e.1 < h ∧ e.2.1 = ((e.1 * w + x : Nat) : Int) ∧ ∀ k, k < n → e.2.2 k = (T (x + k) e.1).toBitVec) →
    ∀ p : Plane, p.Full → p.width = w → p.height = h →
      ∃ q, l.foldlM (fun p e => writes p e.2.1 n e.2.2) p = some q ∧
        p.Shows q fun u v => if (x ≤ u ∧ u < x + n) ∧ v ∈ l.map (·.1) then T u v else p.px u v
  | [], _, p, hp, _, _ => ⟨p, rfl, hp, rfl, rfl, by funext u v; simp⟩
  | e :: l, hl, p, hp, hw, hh => by
    obtain ⟨hy, ha, hr⟩ := hl e List.mem_cons_self
    obtain ⟨q, hq, hs⟩ := writes_shows e.2.2 ha hx hy hp hw hh
    obtain ⟨q', hq', hs'⟩ := writeAll_shows T hx l (fun e he => hl e (List.mem_cons_of_mem _ he)) q hs.full (hs.width.trans hw) (hs.height.trans hh)
    refine ⟨q', by rw [List.foldlM_cons, hq]; exact hq', hs'.full, hs'.width.trans hs.width, hs'.height.trans hs.height, ?_⟩
    rw [hs'.px, hs.px]
    funext u v
    dsimp only
    by_cases hu : x ≤ u ∧ u < x + n
    · by_cases h1 : v ∈ l.map (·.1)
      · rw [if_pos ⟨hu, h1⟩, if_pos ⟨hu, by rw [List.map_cons]; exact List.mem_cons_of_mem _ h1⟩]
      · rw [if_neg fun h => h1 h.2]
        by_cases h2 : v = e.1
        · rw [if_pos ⟨h2, hu⟩, if_pos ⟨hu, by rw [h2]; exact List.mem_cons_self⟩, hr (u - x) (by omega), h2, show x + (u - x) = u by omega]
        · rw [if_neg fun h => h2 h.1, if_neg fun h => by
            have := h.2
            rw [List.map_cons, List.mem_cons] at this
            exact this.elim h2 h1]
    · rw [if_neg fun h => hu h.1, if_neg fun h => hu h.2, if_neg fun h => hu h.1]

/-- The picture `T` is the result if each write agrees with it, and it is the same as before elsewhere. -/
theorem writeAll_target {p : Plane} (hp : p.Full) {x n : Nat} (T : Nat → Nat → UInt8) (hx : x + n ≤ p.width) (l : List (Nat × Int × Reg))
    (hl : ∀ e ∈ l, e.1 < p.height ∧ e.2.1 = ((e.1 * p.width + x : Nat) : Int) ∧ ∀ k, k < n → e.2.2 k = (T (x + k) e.1).toBitVec)
    (ho : ∀ u v, ¬ ((x ≤ u ∧ u < x + n) ∧ v ∈ l.map (·.1)) → T u v = p.px u v) :
    ∃ q, l.foldlM (fun p e => writes p e.2.1 n e.2.2) p = some q ∧ p.Shows q T := by
  obtain ⟨q, hq, hs⟩ := writeAll_shows T hx l hl p hp rfl rfl
  refine ⟨q, hq, hs.full, hs.width, hs.height, ?_⟩
  rw [hs.px]
  funext u v
  split
  · rfl
  · next h => exact (ho u v h).symm

/-! ### Across an edge -/

theorem acrossHorizontal_at (g : (Fin 8 → Nat) → Fin 8 → Nat) (n x t : Nat) (img : Nat → Nat → UInt8) {k : Nat} (hk : k < n) (i : Fin 8) :
    acrossHorizontal g n x (t + 4) img (x + k) (t + i.val) = onPixels g (fun i => img (x + k) (t + i)) i := by
  unfold acrossHorizontal
  rw [dif_pos (by omega)]
  show onPixels g (fun i => img (x + k) (t + 4 - 4 + i.val)) ⟨t + i.val - (t + 4 - 4), _⟩ = _
  congr 1
  exact Fin.ext (by show t + i.val - (t + 4 - 4) = i.val; omega)

theorem acrossVertical_at (g : (Fin 8 → Nat) → Fin 8 → Nat) (n y t : Nat) (img : Nat → Nat → UInt8) {k : Nat} (hk : k < n) (i : Fin 8) :
    acrossVertical g n (t + 4) y img (t + i.val) (y + k) = onPixels g (fun i => img (t + i) (y + k)) i := by
  unfold acrossVertical
  rw [dif_pos (by omega)]
  show onPixels g (fun i => img (t + 4 - 4 + i.val) (y + k)) ⟨t + i.val - (t + 4 - 4), _⟩ = _
  congr 1
  exact Fin.ext (by show t + i.val - (t + 4 - 4) = i.val; omega)

theorem acrossHorizontal_off {g : (Fin 8 → Nat) → Fin 8 → Nat} {l : List (Fin 8)} (hg : Only (onPixels g) l) (n x t : Nat) (img : Nat → Nat → UInt8) (u v : Nat)
    (h : ¬ ((x ≤ u ∧ u < x + n) ∧ ∃ i ∈ l, v = t + i.val)) : acrossHorizontal g n x (t + 4) img u v = img u v := by
  unfold acrossHorizontal
  split
  · next hd =>
    rw [hg _ _ fun hm => h ⟨hd.1, _, hm, by show v = t + (v - (t + 4 - 4)); omega⟩]
    show img u (t + 4 - 4 + (v - (t + 4 - 4))) = img u v
    congr 1; omega
  · rfl

theorem acrossVertical_off {g : (Fin 8 → Nat) → Fin 8 → Nat} {l : List (Fin 8)} (hg : Only (onPixels g) l) (n y t : Nat) (img : Nat → Nat → UInt8) (u v : Nat)
    (h : ¬ ((y ≤ v ∧ v < y + n) ∧ ∃ i ∈ l, u = t + i.val)) : acrossVertical g n (t + 4) y img u v = img u v := by
  unfold acrossVertical
  split
  · next hd =>
    rw [hg _ _ fun hm => h ⟨hd.1, _, hm, by show u = t + (u - (t + 4 - 4)); omega⟩]
    show img (t + 4 - 4 + (u - (t + 4 - 4))) v = img u v
    congr 1; omega
  · rfl

/-- The limits fit in bytes, and the sums do not reach the greatest byte. -/
structure LoopFilter.Fits (f : LoopFilter) : Prop where
  interior : f.interior ≤ 63
  macroblockLimit : f.macroblockLimit ≤ 254
  subblockLimit : f.subblockLimit ≤ 254
  hevThreshold : f.hevThreshold < 256

section

variable {f : LoopFilter} {p : Plane} {x y t : Nat} {src : Int}

/-- The filter across the edges of macroblocks, and inside. -/
abbrev LoopFilter.mb (f : LoopFilter) := macroblock f.interior f.macroblockLimit f.hevThreshold
abbrev LoopFilter.sb (f : LoopFilter) := subblock f.interior f.subblockLimit f.hevThreshold

theorem sseMbHorizontal_shows (hf : f.Fits) (hp : p.Full) (hs : src = (((t + 4) * p.width + x : Nat) : Int)) (hx : x + 16 ≤ p.width) (hy : t + 8 ≤ p.height) :
    ∃ q, sseMbHorizontal f src p.width p = some q ∧ p.Shows q (acrossHorizontal f.mb 16 x (t + 4) p.px) := by
  obtain ⟨v, hv⟩ : ∃ v : Fin 8 → Reg, v = fun i => rowReg p x (t + i.val) 16 := ⟨_, rfl⟩
  have hl : allSome ![reads p.load (src + 4 * -(p.width : Int)) 16, reads p.load (src + p.width + 4 * -(p.width : Int)) 16, reads p.load (src + 2 * -(p.width : Int)) 16,
      reads p.load (src + -(p.width : Int)) 16, reads p.load src 16, reads p.load (src + p.width) 16, reads p.load (src + 2 * p.width) 16,
      reads p.load (src + p.width + 2 * p.width) 16] = some v := by
    refine allSome_some fun i => ?_
    subst hs hv
    fin_cases i <;> exact reads_px hp (by push_cast; ring) hx (by simp; omega)
  have ho : ∀ (i : Fin 8) (k : Nat), k < 16 → mbAcross (lfhMasks v f.limits f.macroblockLimits f.thresholds) v i k =
      (acrossHorizontal f.mb 16 x (t + 4) p.px (x + k) (t + i.val)).toBitVec := fun i k hk => by
    rw [acrossHorizontal_at _ _ _ _ _ hk]
    refine (mbAcross_lane (lfhMasks_right v hf.interior hf.macroblockLimit hf.hevThreshold k) hk i).trans ?_
    congr 2
    funext i
    rw [hv]
    unfold pixels rowReg
    simp only [if_pos hk]
  obtain ⟨q, hq, hsh⟩ := writeAll_target hp (x := x) (n := 16) (acrossHorizontal f.mb 16 x (t + 4) p.px) hx
    [(t + 6, src + p.width + p.width, mbAcross (lfhMasks v f.limits f.macroblockLimits f.thresholds) v 6),
      (t + 5, src + p.width, mbAcross (lfhMasks v f.limits f.macroblockLimits f.thresholds) v 5),
      (t + 4, src, mbAcross (lfhMasks v f.limits f.macroblockLimits f.thresholds) v 4),
      (t + 3, src + -(p.width : Int), mbAcross (lfhMasks v f.limits f.macroblockLimits f.thresholds) v 3),
      (t + 2, src + -(p.width : Int) * 2, mbAcross (lfhMasks v f.limits f.macroblockLimits f.thresholds) v 2),
      (t + 1, src + p.width + -(p.width : Int) * 4, mbAcross (lfhMasks v f.limits f.macroblockLimits f.thresholds) v 1)] (by
      simp only [List.forall_mem_cons, List.not_mem_nil, false_implies, implies_true, and_true]
      subst hs
      exact ⟨⟨by omega, by push_cast; ring, ho 6⟩, ⟨by omega, by push_cast; ring, ho 5⟩, ⟨by omega, rfl, ho 4⟩, ⟨by omega, by push_cast; ring, ho 3⟩,
        ⟨by omega, by push_cast; ring, ho 2⟩, ⟨by omega, by push_cast; ring, ho 1⟩⟩)
    (fun u w h => acrossHorizontal_off (macroblock_only _ _ _) _ _ _ _ _ _ fun h' => h ⟨h'.1, by
      obtain ⟨i, hi, rfl⟩ := h'.2
      have : ∀ i ∈ macroblockPlaces, i.val ∈ [6, 5, 4, 3, 2, 1] := by decide
      have := this i hi
      simpa using this⟩)
  refine ⟨q, ?_, hsh⟩
  rw [← hq]
  unfold sseMbHorizontal
  dsimp only
  rw [hl]
  simp only [Option.bind_eq_bind, Option.bind_some, List.foldlM_cons, List.foldlM_nil, Option.pure_def, Option.bind_fun_some]

/-! ### Both chrominance planes side by side -/

theorem lowHigh_low (a b : Reg) {k : Nat} (hk : k < 8) : lowHigh a b k = a k := by unfold lowHigh; rw [if_pos hk]
theorem lowHigh_high (a b : Reg) (k : Nat) : lowHigh a b (8 + k) = b k := by
  unfold lowHigh; rw [if_neg (by omega), show 8 + k - 8 = k by omega]

theorem uvLoads_px (hp : p.Full) (hs : src = (((t + 4) * p.width + x : Nat) : Int)) (hx : x + 8 ≤ p.width) (hy : t + 8 ≤ p.height) :
    uvLoads p (src + p.width) p.width = some fun i => rowReg p x (t + i.val) 8 := by
  unfold uvLoads
  refine allSome_some fun i => ?_
  subst hs
  fin_cases i <;> exact reads_px hp (by push_cast; ring) hx (by simp; omega)

/-- What `MBFILTER` leaves is written to one plane. -/
theorem mbBack_shows (g : (Fin 8 → Nat) → Fin 8 → Nat) (hg : Only (onPixels g) macroblockPlaces) (hp : p.Full) (hs : src = (((t + 4) * p.width + x : Nat) : Int))
    (hx : x + 8 ≤ p.width) (hy : t + 8 ≤ p.height) (o : Fin 8 → Reg)
    (ho : ∀ (i : Fin 8) (k : Nat), k < 8 → o i k = (onPixels g (fun i => p.px (x + k) (t + i)) i).toBitVec) {rsi stride : Int} (hr : rsi = src - stride) (hst : stride = p.width) :
    ∃ q, (do
      let p ← writes p rsi 8 (o 3)
      let p ← writes p (rsi + stride) 8 (o 4)
      let p ← writes p (rsi + stride * 2) 8 (o 5)
      let p ← writes p (rsi + -stride) 8 (o 2)
      let p ← writes p (rsi + -stride * 2) 8 (o 1)
      writes p (rsi + (stride + stride * 2)) 8 (o 6)) = some q ∧ p.Shows q (acrossHorizontal g 8 x (t + 4) p.px) := by
  have ho' : ∀ (i : Fin 8) (k : Nat), k < 8 → o i k = (acrossHorizontal g 8 x (t + 4) p.px (x + k) (t + i.val)).toBitVec := fun i k hk => by
    rw [acrossHorizontal_at _ _ _ _ _ hk, ho i k hk]
  obtain ⟨q, hq, hsh⟩ := writeAll_target hp (x := x) (n := 8) (acrossHorizontal g 8 x (t + 4) p.px) hx
    [(t + 3, rsi, o 3), (t + 4, rsi + stride, o 4), (t + 5, rsi + stride * 2, o 5), (t + 2, rsi + -stride, o 2), (t + 1, rsi + -stride * 2, o 1),
      (t + 6, rsi + (stride + stride * 2), o 6)] (by
      simp only [List.forall_mem_cons, List.not_mem_nil, false_implies, implies_true, and_true]
      subst hr hst hs
      exact ⟨⟨by omega, by push_cast; ring, ho' 3⟩, ⟨by omega, by push_cast; ring, ho' 4⟩, ⟨by omega, by push_cast; ring, ho' 5⟩, ⟨by omega, by push_cast; ring, ho' 2⟩,
        ⟨by omega, by push_cast; ring, ho' 1⟩, ⟨by omega, by push_cast; ring, ho' 6⟩⟩)
    (fun u w h => acrossHorizontal_off hg _ _ _ _ _ _ fun h' => h ⟨h'.1, by
      obtain ⟨i, hi, rfl⟩ := h'.2
      have : ∀ i ∈ macroblockPlaces, i.val ∈ [3, 4, 5, 2, 1, 6] := by decide
      have := this i hi
      simpa using this⟩)
  refine ⟨q, ?_, hsh⟩
  rw [← hq]
  simp only [Option.bind_eq_bind, List.foldlM_cons, List.foldlM_nil, Option.pure_def, Option.bind_fun_some]

/-- What `B_FILTER` leaves is written to one plane. -/
theorem sbBack_shows (g : (Fin 8 → Nat) → Fin 8 → Nat) (hg : Only (onPixels g) subblockPlaces) (hp : p.Full) (hs : src = (((t + 4) * p.width + x : Nat) : Int))
    (hx : x + 8 ≤ p.width) (hy : t + 8 ≤ p.height) (o : Fin 8 → Reg)
    (ho : ∀ (i : Fin 8) (k : Nat), k < 8 → o i k = (onPixels g (fun i => p.px (x + k) (t + i)) i).toBitVec) {rsi stride : Int} (hr : rsi = src - stride) (hst : stride = p.width) :
    ∃ q, (do
      let p ← writes p rsi 8 (o 3)
      let p ← writes p (rsi + -stride) 8 (o 2)
      let p ← writes p (rsi + stride) 8 (o 4)
      writes p (rsi + stride * 2) 8 (o 5)) = some q ∧ p.Shows q (acrossHorizontal g 8 x (t + 4) p.px) := by
  have ho' : ∀ (i : Fin 8) (k : Nat), k < 8 → o i k = (acrossHorizontal g 8 x (t + 4) p.px (x + k) (t + i.val)).toBitVec := fun i k hk => by
    rw [acrossHorizontal_at _ _ _ _ _ hk, ho i k hk]
  obtain ⟨q, hq, hsh⟩ := writeAll_target hp (x := x) (n := 8) (acrossHorizontal g 8 x (t + 4) p.px) hx
    [(t + 3, rsi, o 3), (t + 2, rsi + -stride, o 2), (t + 4, rsi + stride, o 4), (t + 5, rsi + stride * 2, o 5)] (by
      simp only [List.forall_mem_cons, List.not_mem_nil, false_implies, implies_true, and_true]
      subst hr hst hs
      exact ⟨⟨by omega, by push_cast; ring, ho' 3⟩, ⟨by omega, by push_cast; ring, ho' 2⟩, ⟨by omega, by push_cast; ring, ho' 4⟩, ⟨by omega, by push_cast; ring, ho' 5⟩⟩)
    (fun u w h => acrossHorizontal_off hg _ _ _ _ _ _ fun h' => h ⟨h'.1, by
      obtain ⟨i, hi, rfl⟩ := h'.2
      have : ∀ i ∈ subblockPlaces, i.val ∈ [3, 2, 4, 5] := by decide
      have := this i hi
      simpa using this⟩)
  refine ⟨q, ?_, hsh⟩
  rw [← hq]
  simp only [Option.bind_eq_bind, List.foldlM_cons, List.foldlM_nil, Option.pure_def, Option.bind_fun_some]

variable {u v : Plane} {x' y' t' : Nat} {src' : Int}

theorem sseMbHorizontalUv_shows (hf : f.Fits) (hu : u.Full) (hv : v.Full) (hw : v.width = u.width) (hs : src = (((t + 4) * u.width + x : Nat) : Int))
    (hs' : src' = (((t' + 4) * u.width + x' : Nat) : Int)) (hx : x + 8 ≤ u.width) (hx' : x' + 8 ≤ u.width) (hy : t + 8 ≤ u.height) (hy' : t' + 8 ≤ v.height) :
    ∃ q q', sseMbHorizontalUv f src src' u.width u v = some (q, q') ∧ u.Shows q (acrossHorizontal f.mb 8 x (t + 4) u.px) ∧
      v.Shows q' (acrossHorizontal f.mb 8 x' (t' + 4) v.px) := by
  have hs2 : src' = (((t' + 4) * v.width + x' : Nat) : Int) := by rw [hw]; exact hs'
  have hx2 : x' + 8 ≤ v.width := by rw [hw]; exact hx'
  have la := uvLoads_px hu hs hx hy
  have lb := uvLoads_px hv hs2 hx2 hy'
  rw [hw] at lb
  obtain ⟨r, hr⟩ : ∃ r : Fin 8 → Reg, r = fun i => lowHigh (rowReg u x (t + i.val) 8) (rowReg v x' (t' + i.val) 8) := ⟨_, rfl⟩
  have ho := fun (j : Nat) hj => mbAcross_lane (lfhMasks_right r hf.interior hf.macroblockLimit hf.hevThreshold j) hj
  obtain ⟨q, hq, hsh⟩ := mbBack_shows f.mb (macroblock_only _ _ _) hu hs hx hy (mbAcross (lfhMasks r f.limits f.macroblockLimits f.thresholds) r)
    (fun i k hk => by
      refine (ho k (by omega) i).trans ?_
      congr 2
      funext i
      rw [hr]
      unfold pixels
      simp only [lowHigh_low _ _ hk, rowReg, if_pos hk]) (rsi := src + u.width + -u.width * 4 + u.width * 2) (by ring) rfl
  obtain ⟨q', hq', hsh'⟩ := mbBack_shows f.mb (macroblock_only _ _ _) hv hs2 hx2 hy'
    (fun i => high (mbAcross (lfhMasks r f.limits f.macroblockLimits f.thresholds) r i))
    (fun i k hk => by
      refine (ho (8 + k) (by omega) i).trans ?_
      congr 2
      funext i
      rw [hr]
      unfold pixels
      simp only [lowHigh_high, rowReg, if_pos hk]) (rsi := src' + u.width + -u.width * 4 + u.width * 2) (stride := u.width) (by ring) (by rw [hw])
  refine ⟨q, q', ?_, hsh, hsh'⟩
  unfold sseMbHorizontalUv
  rw [la, lb]
  simp only [Option.bind_eq_bind, Option.bind_some, ← hr]
  simp only [Option.bind_eq_bind] at hq hq'
  simp only [id_eq, hq, hq', Option.bind_some, Option.pure_def]

theorem sseSbHorizontalUv_shows (xmm5 : Reg) (hf : f.Fits) (hu : u.Full) (hv : v.Full) (hw : v.width = u.width) (hs : src = (((t + 4) * u.width + x : Nat) : Int))
    (hs' : src' = (((t' + 4) * u.width + x' : Nat) : Int)) (hx : x + 8 ≤ u.width) (hx' : x' + 8 ≤ u.width) (hy : t + 8 ≤ u.height) (hy' : t' + 8 ≤ v.height) :
    ∃ q q', sseSbHorizontalUv f src src' u.width xmm5 u v = some (q, q') ∧ u.Shows q (acrossHorizontal f.sb 8 x (t + 4) u.px) ∧
      v.Shows q' (acrossHorizontal f.sb 8 x' (t' + 4) v.px) := by
  have hs2 : src' = (((t' + 4) * v.width + x' : Nat) : Int) := by rw [hw]; exact hs'
  have hx2 : x' + 8 ≤ v.width := by rw [hw]; exact hx'
  have la := uvLoads_px hu hs hx hy
  have lb := uvLoads_px hv hs2 hx2 hy'
  rw [hw] at lb
  obtain ⟨r, hr⟩ : ∃ r : Fin 8 → Reg, r = fun i => lowHigh (rowReg u x (t + i.val) 8) (rowReg v x' (t' + i.val) 8) := ⟨_, rfl⟩
  have ho := fun (j : Nat) hj => bAcross_lane (lfhMasks_right r hf.interior hf.subblockLimit hf.hevThreshold j) xmm5 hj
  obtain ⟨q, hq, hsh⟩ := sbBack_shows f.sb (subblock_only _ _ _) hu hs hx hy (bAcross (lfhMasks r f.limits f.subblockLimits f.thresholds) xmm5 r)
    (fun i k hk => by
      refine (ho k (by omega) i).trans ?_
      congr 2
      funext i
      rw [hr]
      unfold pixels
      simp only [lowHigh_low _ _ hk, rowReg, if_pos hk]) (rsi := src + u.width + -u.width * 4 + u.width * 2) (by ring) rfl
  obtain ⟨q', hq', hsh'⟩ := sbBack_shows f.sb (subblock_only _ _ _) hv hs2 hx2 hy'
    (fun i => high (bAcross (lfhMasks r f.limits f.subblockLimits f.thresholds) xmm5 r i))
    (fun i k hk => by
      refine (ho (8 + k) (by omega) i).trans ?_
      congr 2
      funext i
      rw [hr]
      unfold pixels
      simp only [lowHigh_high, rowReg, if_pos hk]) (rsi := src' + u.width + -u.width * 4 + u.width * 2) (stride := u.width) (by ring) (by rw [hw])
  refine ⟨q, q', ?_, hsh, hsh'⟩
  unfold sseSbHorizontalUv
  rw [la, lb]
  simp only [Option.bind_eq_bind, Option.bind_some, ← hr]
  simp only [Option.bind_eq_bind] at hq hq'
  simp only [id_eq, hq, hq', Option.bind_some, Option.pure_def]

end

end Alfalfa
