import Verif.Proof.Render
import Verif.Spec.Decoder

/-! Inter-predicted macroblocks, frames and the uniqueness of the picture. -/

namespace Alfalfa

open IntraSpec RenderSpec

variable {column row : Nat} {p : Plane}

/-! ### Inter prediction -/

theorem InterOk.same {h : InterFrameHeader} {c : MBContext} {s : Scorer} {m : MBModes} (hm : m.InterOk h c s) (hs : m.yMode ≠ SPLITMV)
    (i j : Fin 16) : m.mvs i = m.mvs j := by
  rcases hm.yMode with e | e | e | e | e
  · rw [hm.nearest e, hm.nearest e]
  · rw [hm.near e, hm.near e]
  · rw [hm.zero e, hm.zero e]
  · obtain ⟨v, hv, _⟩ := hm.new e; rw [hv, hv]
  · exact absurd e hs

theorem InterOk.sameChroma {h : InterFrameHeader} {c : MBContext} {s : Scorer} {m : MBModes} (hm : m.InterOk h c s) (hs : m.yMode ≠ SPLITMV)
    (i j : Fin 4) : m.uMvs i = m.uMvs j := by
  have : m.mvs = fun _ => m.mvs 0 := funext fun i => InterOk.same hm hs i 0
  have hi := i.2
  have hj := j.2
  rw [hm.chroma, hm.chroma, this]
  unfold chromaMvs
  dsimp only
  rw [dif_pos (by omega), dif_pos (by omega), dif_pos (by omega), dif_pos (by omega), dif_pos (by omega), dif_pos (by omega),
    dif_pos (by omega), dif_pos (by omega)]

theorem interLuma_solved (hp : p.Full) (hx : 16 * column + 16 ≤ p.width) (hy : 16 * row + 16 ≤ p.height) {reference : Plane}
    (hr : reference.Full) (hw : reference.width = p.width) (q : Quantizer) {h : InterFrameHeader} {c : MBContext} {s : Scorer} {m : MBModes}
    (hm : m.InterOk h c s) (r : Residue) : ∃ t, interLuma q reference m r column row p = some t ∧
      p.Solved 16 column row t (fun t => lumaPrediction reference t m column row)
        fun x y => added r (codeLuma q m r (block16 x y)) (in4 x) (in4 y) := by
  unfold interLuma
  by_cases hs : m.yMode = SPLITMV
  · rw [if_pos hs]
    have hc : ∀ k, codeLuma q m r k = plainCoeffs q r k := fun k => if_neg fun h => h.2 hs
    obtain ⟨p1, e1, e2⟩ := forLuma_replaced (column := column) (row := row) hp
      (step := fun p k => interPredict 4 p reference (m.mvs k) (4 * column + k.val % 4) (4 * row + k.val / 4))
      (F := fun k c r _ => UInt8.ofNat (InterSpec.interpolated reference
        (8 * ((4 * (4 * column + k.val % 4) + c.val : Nat) : Int) + (m.mvs k).x) (8 * ((4 * (4 * row + k.val / 4) + r.val : Nat) : Int) + (m.mvs k).y)))
      (fun s k hs => by
        obtain ⟨b1, b2⟩ := block_bounds16 hx hy k
        exact C36_inter_prediction hs.full hr (hw.trans hs.width.symm) (m.mvs k) (hs.width ▸ b1) (hs.height ▸ b2))
    rw [e1, Option.bind_eq_bind, Option.bind_some]
    obtain ⟨t, f1, f2⟩ := predicted_luma hx hy (fun x y => C37_range reference _ _) e2 r (plainCoeffs q r)
    refine ⟨t, f1, f2.sized, f2.outside, fun x y => ?_⟩
    obtain ⟨b1, b2⟩ := px_block16 column row x y
    rw [f2.inside, hc]
    unfold lumaPrediction
    rw [if_pos hm.isInter, ← b1, ← b2]
  · rw [if_neg hs]
    have hc : ∀ k, codeLuma q m r k = walshCoeffs q r k := fun k => if_pos ⟨by
      rcases hm.yMode with h | h | h | h | h <;> rw [h] <;> decide, hs⟩
    obtain ⟨p1, e1, e2⟩ := C36_inter_prediction hp hr hw (m.mvs 15) hx hy
    rw [e1, Option.bind_eq_bind, Option.bind_some]
    obtain ⟨t, f1, f2⟩ := predicted_luma hx hy (fun x y => C37_range reference _ _) (e2.replaced hp) r (walshCoeffs q r)
    refine ⟨t, f1, f2.sized, f2.outside, fun x y => ?_⟩
    rw [f2.inside, hc]
    unfold lumaPrediction
    rw [if_pos hm.isInter, InterOk.same hm hs 15 (block16 x y)]

theorem interChroma_solved (hp : p.Full) (hx : 8 * column + 8 ≤ p.width) (hy : 8 * row + 8 ≤ p.height) {reference : Plane}
    (hr : reference.Full) (hw : reference.width = p.width) (q : Quantizer) {h : InterFrameHeader} {c : MBContext} {s : Scorer} {m : MBModes}
    (hm : m.InterOk h c s) (r : Residue) (blocks : Fin 4 → Block) : ∃ t, interChroma q reference m r blocks column row p = some t ∧
      p.Solved 8 column row t (fun t => chromaPrediction reference t m column row)
        fun x y => added r (q.dequantizeUV (blocks (block8 x y)).coeffs) (in4 x) (in4 y) := by
  unfold interChroma
  by_cases hs : m.yMode = SPLITMV
  · rw [if_pos hs]
    obtain ⟨p1, e1, e2⟩ := forChroma_replaced (column := column) (row := row) hp
      (step := fun p k => interPredict 4 p reference (m.uMvs k) (2 * column + k.val % 2) (2 * row + k.val / 2))
      (F := fun k c r _ => UInt8.ofNat (InterSpec.interpolated reference
        (8 * ((4 * (2 * column + k.val % 2) + c.val : Nat) : Int) + (m.uMvs k).x) (8 * ((4 * (2 * row + k.val / 2) + r.val : Nat) : Int) + (m.uMvs k).y)))
      (fun s k hs => by
        obtain ⟨b1, b2⟩ := block_bounds8 hx hy k
        exact C36_inter_prediction hs.full hr (hw.trans hs.width.symm) (m.uMvs k) (hs.width ▸ b1) (hs.height ▸ b2))
    rw [e1, Option.bind_eq_bind, Option.bind_some]
    obtain ⟨t, f1, f2⟩ := predicted_chroma hx hy (fun x y => C37_range reference _ _) e2 q r blocks
    refine ⟨t, f1, f2.sized, f2.outside, fun x y => ?_⟩
    obtain ⟨b1, b2⟩ := px_block8 column row x y
    rw [f2.inside]
    unfold chromaPrediction
    rw [if_pos hm.isInter, ← b1, ← b2]
  · rw [if_neg hs]
    obtain ⟨p1, e1, e2⟩ := C36_inter_prediction hp hr hw (m.uMvs 0) hx hy
    rw [e1, Option.bind_eq_bind, Option.bind_some]
    obtain ⟨t, f1, f2⟩ := predicted_chroma hx hy (fun x y => C37_range reference _ _) (e2.replaced hp) q r blocks
    refine ⟨t, f1, f2.sized, f2.outside, fun x y => ?_⟩
    rw [f2.inside]
    unfold chromaPrediction
    rw [if_pos hm.isInter, InterOk.sameChroma hm hs 0 (block8 x y)]

/-! ### Predictions read earlier pixels only -/

theorem lumaPrediction_congr (reference : Plane) (m : MBModes) {p q : Plane} (hw : p.width = q.width) (hc : 16 * column + 16 ≤ p.width) (x y : Fin 16)
    (h : ∀ u v, Before4 column row (block16 x y) u v → p.px u v = q.px u v) :
    lumaPrediction reference p m column row x y = lumaPrediction reference q m column row x y := by
  unfold lumaPrediction
  split
  · rfl
  · split
    · have e3 : (block16 x y).val % 4 = x.val / 4 ∧ (block16 x y).val / 4 = y.val / 4 := by unfold block16; dsimp only; omega
      rw [← e3.1, ← e3.2]
      exact sub_congr _ (fun i hi => edge4_congr hw hc _ h hi) _ _
    · exact whole_congr _ _ _ (fun i hi => edge_congr (Or.inl rfl) (fun u v hb => h u v (Or.inl hb)) hi) x.2 y.2

theorem chromaPrediction_congr (reference : Plane) (m : MBModes) {p q : Plane} (x y : Fin 8)
    (h : ∀ u v, Before 8 column row u v → p.px u v = q.px u v) :
    chromaPrediction reference p m column row x y = chromaPrediction reference q m column row x y := by
  unfold chromaPrediction
  split
  · rfl
  · exact whole_congr _ _ _ (fun i hi => edge_congr (Or.inr rfl) (fun u v hb => h u v hb) hi) x.2 y.2

/-! ### Pictures -/

/-- A picture of `w` by `h` macroblocks. -/
structure Raster.Sized (dw dh w h : Nat) (s : Raster) : Prop where
  displayWidth : s.displayWidth = dw
  displayHeight : s.displayHeight = dh
  y : s.y.Sized (16 * w) (16 * h)
  u : s.u.Sized (8 * w) (8 * h)
  v : s.v.Sized (8 * w) (8 * h)

theorem Raster.Ok.sized {width height : Nat} (hw : 0 < width ∧ width < 2 ^ 14) (hh : 0 < height ∧ height < 2 ^ 14) {s : Raster}
    (h : s.Ok width height) : s.Sized width height ((width + 15) / 16) ((height + 15) / 16) := by
  have hW : 0 < (width + 15) / 16 ∧ (width + 15) / 16 ≤ 2 ^ 10 := by omega
  have hH : 0 < (height + 15) / 16 ∧ (height + 15) / 16 ≤ 2 ^ 10 := by omega
  have full : ∀ (p : Plane) (n : Nat), 0 < n → n ≤ 16 → p.width = (width + 15) / 16 * n → p.height = (height + 15) / 16 * n →
      p.cells.length = p.width * p.height → p.Sized (n * ((width + 15) / 16)) (n * ((height + 15) / 16)) := by
    intro p n h0 h1 h2 h3 h4
    refine ⟨⟨h2 ▸ Nat.mul_pos hW.1 h0, h3 ▸ Nat.mul_pos hH.1 h0, ?_, h4⟩, by rw [h2, Nat.mul_comm], by rw [h3, Nat.mul_comm]⟩
    rw [h2, h3]
    calc _ ≤ (2 ^ 10 * 16) * (2 ^ 10 * 16) := Nat.mul_le_mul (Nat.mul_le_mul hW.2 h1) (Nat.mul_le_mul hH.2 h1)
      _ < 2 ^ 32 := by norm_num
  exact ⟨h.displayWidth, h.displayHeight, full _ 16 (by decide) (by decide) h.yWidth h.yHeight h.y,
    full _ 8 (by decide) (by decide) h.uWidth h.uHeight h.u, full _ 8 (by decide) (by decide) h.vWidth h.vHeight h.v⟩

theorem Raster.Sized.ok {width height : Nat} {s : Raster} (h : s.Sized width height ((width + 15) / 16) ((height + 15) / 16)) : s.Ok width height :=
  ⟨h.displayWidth, h.displayHeight, h.y.width.trans (Nat.mul_comm _ _), h.y.height.trans (Nat.mul_comm _ _), h.u.width.trans (Nat.mul_comm _ _),
    h.u.height.trans (Nat.mul_comm _ _), h.v.width.trans (Nat.mul_comm _ _), h.v.height.trans (Nat.mul_comm _ _), h.y.full.cells, h.u.full.cells,
    h.v.full.cells⟩

/-- What is added to the pixels of a macroblock. -/
structure Residues where
  y : Fin 16 → Fin 16 → Int
  u : Fin 8 → Fin 8 → Int
  v : Fin 8 → Fin 8 → Int

/-- The macroblock at `column`, `row` of `s` is the sum of a prediction and `d`. -/
structure Sums (reference : Raster) (m : MBModes) (d : Residues) (column row : Nat) (s : Raster) : Prop where
  y : Sum 16 s.y column row (lumaPrediction reference.y s.y m column row) d.y
  u : Sum 8 s.u column row (chromaPrediction reference.u s.u m column row) d.u
  v : Sum 8 s.v column row (chromaPrediction reference.v s.v m column row) d.v

/-- A step on one macroblock. -/
structure Raster.Solved (s reference : Raster) (m : MBModes) (d : Residues) (column row : Nat) (t : Raster) : Prop where
  displayWidth : t.displayWidth = s.displayWidth
  displayHeight : t.displayHeight = s.displayHeight
  y : s.y.Solved 16 column row t.y (fun t => lumaPrediction reference.y t m column row) d.y
  u : s.u.Solved 8 column row t.u (fun t => chromaPrediction reference.u t m column row) d.u
  v : s.v.Solved 8 column row t.v (fun t => chromaPrediction reference.v t m column row) d.v

theorem Plane.Sized.of {w h : Nat} {p q : Plane} (hp : p.Sized w h) (hq : q.Sized p.width p.height) : q.Sized w h := by
  rwa [hp.width, hp.height] at hq

theorem Raster.Solved.sized {dw dh w h : Nat} {reference : Raster} {m : MBModes} {d : Residues} {column row : Nat} {s t : Raster}
    (hs : s.Sized dw dh w h) (e : s.Solved reference m d column row t) : t.Sized dw dh w h :=
  ⟨e.displayWidth.trans hs.displayWidth, e.displayHeight.trans hs.displayHeight, hs.y.of e.y.sized, hs.u.of e.u.sized, hs.v.of e.v.sized⟩

/-- What the code adds. -/
def codeResidues (q : Quantizer) (m : MBModes) (r : Residue) : Residues where
  y x y := added r (codeLuma q m r (block16 x y)) (in4 x) (in4 y)
  u x y := added r (q.dequantizeUV (r.u (block8 x y)).coeffs) (in4 x) (in4 y)
  v x y := added r (q.dequantizeUV (r.v (block8 x y)).coeffs) (in4 x) (in4 y)

theorem mb_bounds {n c w : Nat} (hc : c < w) : n * c + n ≤ n * w := by
  rw [← Nat.mul_succ]; exact Nat.mul_le_mul_left n hc

theorem reconstructIntra_solved {dw dh w h : Nat} {s : Raster} (hs : s.Sized dw dh w h) (hc : column < w) (hr : row < h) (reference : Raster)
    (q : Quantizer) {m : MBModes} (hm : m.IntraOk) (hi : m.isInter = false) (r : Residue) :
    ∃ t, reconstructIntra q m r column row s = some t ∧ s.Solved reference m (codeResidues q m r) column row t := by
  obtain ⟨y, y1, y2⟩ := intraLuma_solved (column := column) (row := row) hs.y.full (hs.y.width ▸ ⟨w, rfl⟩) (by rw [hs.y.width]; exact mb_bounds hc)
    (by rw [hs.y.height]; exact mb_bounds hr) reference.y q hm hi r
  obtain ⟨u, u1, u2⟩ := intraChroma_solved (column := column) (row := row) hs.u.full (by rw [hs.u.width]; exact mb_bounds hc)
    (by rw [hs.u.height]; exact mb_bounds hr) reference.u q hm hi r r.u
  obtain ⟨v, v1, v2⟩ := intraChroma_solved (column := column) (row := row) hs.v.full (by rw [hs.v.width]; exact mb_bounds hc)
    (by rw [hs.v.height]; exact mb_bounds hr) reference.v q hm hi r r.v
  exact ⟨{ s with y, u, v }, by unfold reconstructIntra; rw [u1, v1, y1]; rfl, rfl, rfl, y2, u2, v2⟩

theorem reference_at {h : InterFrameHeader} {c : MBContext} {sc : Scorer} {m : MBModes} (hm : m.InterOk h c sc) (references : References) :
    m.reference = some (referenceIndex m) ∧ references.at? (referenceIndex m) = some (reference references m) := by
  unfold MBModes.reference referenceIndex reference
  rw [hm.isInter]
  have h1 := hm.sel1
  have h2 := hm.sel2
  cases e1 : m.sel1 with
  | none => rw [e1] at h1; simp at h1
  | some b => cases b with
    | false => simp [References.at?]
    | true =>
      rw [e1] at h2
      cases e2 : m.sel2 with
      | none => rw [e2] at h2; simp at h2
      | some b => cases b <;> simp [References.at?]

theorem reconstructInter_solved {dw dh w h : Nat} {s : Raster} (hs : s.Sized dw dh w h) (hc : column < w) (hr : row < h) {references : References}
    {m : MBModes} (href : (reference references m).Sized dw dh w h) (q : Quantizer) {hd : InterFrameHeader} {c : MBContext} {sc : Scorer}
    (hm : m.InterOk hd c sc) (r : Residue) : ∃ t, reconstructInter q references m r column row s = some t ∧
      s.Solved (reference references m) m (codeResidues q m r) column row t := by
  obtain ⟨r1, r2⟩ := reference_at hm references
  obtain ⟨y, y1, y2⟩ := interLuma_solved (column := column) (row := row) hs.y.full (by rw [hs.y.width]; exact mb_bounds hc)
    (by rw [hs.y.height]; exact mb_bounds hr) href.y.full (href.y.width.trans hs.y.width.symm) q hm r
  obtain ⟨u, u1, u2⟩ := interChroma_solved (column := column) (row := row) hs.u.full (by rw [hs.u.width]; exact mb_bounds hc)
    (by rw [hs.u.height]; exact mb_bounds hr) href.u.full (href.u.width.trans hs.u.width.symm) q hm r r.u
  obtain ⟨v, v1, v2⟩ := interChroma_solved (column := column) (row := row) hs.v.full (by rw [hs.v.width]; exact mb_bounds hc)
    (by rw [hs.v.height]; exact mb_bounds hr) href.v.full (href.v.width.trans hs.v.width.symm) q hm r r.v
  exact ⟨{ s with y, u, v }, by unfold reconstructInter; simp only [r1, r2, y1, u1, v1, Option.bind_eq_bind, Option.bind_some]; rfl, rfl, rfl, y2, u2, v2⟩

/-! ### The loop over a frame -/

/-- The pixels of a picture: 0 is Y, 1 is U, 2 is V. -/
def Raster.pixel (s : Raster) (x : Fin 3 × Nat × Nat) : UInt8 :=
  match x.1 with
  | 0 => s.y.px x.2.1 x.2.2
  | 1 => s.u.px x.2.1 x.2.2
  | 2 => s.v.px x.2.1 x.2.2

/-- The size of a macroblock in each plane. -/
def mbSize (i : Fin 3) : Nat := if i = 0 then 16 else 8

/-- The pixel is in macroblock number `k`. -/
def InMacroblock (w k : Nat) (x : Fin 3 × Nat × Nat) : Prop := x.2.1 / mbSize x.1 = k % w ∧ x.2.2 / mbSize x.1 = k / w

theorem Raster.Solved.elsewhere {reference : Raster} {m : MBModes} {d : Residues} {w k : Nat} {s t : Raster}
    (e : s.Solved reference m d (k % w) (k / w) t) (x : Fin 3 × Nat × Nat) (h : ¬ InMacroblock w k x) : t.pixel x = s.pixel x := by
  obtain ⟨i, u, v⟩ := x
  match i with
  | 0 => exact e.y.outside u v h
  | 1 => exact e.u.outside u v h
  | 2 => exact e.v.outside u v h

/-- A pixel that macroblock `k` depends on, or one of its own, is in no later macroblock. -/
theorem not_later {n w k j u v : Nat} (h : Before n (k % w) (k / w) u v ∨ (u / n = k % w ∧ v / n = k / w)) (hj : k < j)
    (h1 : u / n = j % w) (h2 : v / n = j / w) : False := by
  have hd : k / w ≤ j / w := Nat.div_le_div_right hj.le
  have ek := Nat.div_add_mod k w
  have ej := Nat.div_add_mod j w
  unfold Before at h
  rw [h1, h2] at h
  rcases h with (h | ⟨h, h'⟩) | ⟨h', h⟩
  · omega
  · rw [h] at ej; omega
  · rw [h, h'] at ej; omega

theorem Before4.covered {column row k u v : Nat} (h : Before4 column row k u v) : Before 16 column row u v ∨ (u / 16 = column ∧ v / 16 = row) := by
  unfold Before4 at h
  rcases h with h | h
  · exact Or.inl h
  · exact Or.inr ⟨h.2.1, h.1⟩

theorem own {n c : Nat} (x : Fin n) : (n * c + x.val) / n = c := by
  rw [Nat.mul_add_div (by have := x.2; omega), Nat.div_eq_of_lt x.2, Nat.add_zero]

/-- If a picture agrees with another one in the macroblocks up to number `k`, what holds for `k` in the one holds in the other. -/
theorem Sums.transfer {dw dh w h : Nat} {s t : Raster} (hs : s.Sized dw dh w h) (ht : t.Sized dw dh w h) {k : Nat} (hk : k % w < w) {reference : Raster}
    {m : MBModes} {d : Residues} (e : Sums reference m d (k % w) (k / w) s)
    (h : ∀ x, (∀ j, k < j → ¬ InMacroblock w j x) → t.pixel x = s.pixel x) : Sums reference m d (k % w) (k / w) t := by
  refine ⟨fun x y => ?_, fun x y => ?_, fun x y => ?_⟩
  · have h0 : t.y.px _ _ = s.y.px _ _ := h (0, 16 * (k % w) + x.val, 16 * (k / w) + y.val) fun j hj hm => not_later (Or.inr ⟨own x, own y⟩) hj hm.1 hm.2
    rw [h0, e.y x y, lumaPrediction_congr reference.y m (hs.y.width.trans ht.y.width.symm) (by rw [hs.y.width]; exact mb_bounds hk) x y fun u v hb =>
      (h (0, u, v) fun j hj hm => not_later hb.covered hj hm.1 hm.2).symm]
  · have h0 : t.u.px _ _ = s.u.px _ _ := h (1, 8 * (k % w) + x.val, 8 * (k / w) + y.val) fun j hj hm => not_later (Or.inr ⟨own x, own y⟩) hj hm.1 hm.2
    rw [h0, e.u x y, chromaPrediction_congr reference.u m x y fun u v hb =>
      (h (1, u, v) fun j hj hm => not_later (Or.inl hb) hj hm.1 hm.2).symm]
  · have h0 : t.v.px _ _ = s.v.px _ _ := h (2, 8 * (k % w) + x.val, 8 * (k / w) + y.val) fun j hj hm => not_later (Or.inr ⟨own x, own y⟩) hj hm.1 hm.2
    rw [h0, e.v x y, chromaPrediction_congr reference.v m x y fun u v hb =>
      (h (2, u, v) fun j hj hm => not_later (Or.inl hb) hj hm.1 hm.2).symm]

theorem macroblocks_solved {dw dh w h : Nat} (hw : 0 < w) {step : Raster → Nat → Option Raster} {reference : Nat → Raster} {m : Nat → MBModes}
    {d : Nat → Residues} (hstep : ∀ s k, k < w * h → s.Sized dw dh w h → ∃ t, step s k = some t ∧ s.Solved (reference k) (m k) (d k) (k % w) (k / w) t)
    {s : Raster} (hs : s.Sized dw dh w h) : ∃ t, (List.range (w * h)).foldlM step s = some t ∧ t.Sized dw dh w h ∧
      ∀ k, k < w * h → Sums (reference k) (m k) (d k) (k % w) (k / w) t := by
  obtain ⟨t, h1, h2, h3, h4⟩ := fold_steps Raster.pixel (Raster.Sized dw dh w h) (InMacroblock w)
    (fun k _ t => Sums (reference k) (m k) (d k) (k % w) (k / w) t) step (List.range (w * h)) List.pairwise_lt_range (fun s k hk hs => by
      obtain ⟨t, e1, e2⟩ := hstep s k (List.mem_range.1 hk) hs
      exact ⟨t, e1, e2.sized hs, ⟨e2.y.inside, e2.u.inside, e2.v.inside⟩, e2.elsewhere⟩) s hs
  refine ⟨t, h1, h2, fun k hk => ?_⟩
  obtain ⟨s1, s2, g1, g2, g3, g4, g5, g6⟩ := h4 k (List.mem_range.2 hk)
  exact g3.transfer g2 h2 (Nat.mod_lt k hw) fun x hx => g6 x fun j _ hj => hx j hj

/-! ### Uniqueness -/

theorem mb_lt {W a b c d : Nat} (ha : a < W) (h : c < d ∨ (c = d ∧ a < b)) : c * W + a < d * W + b := by
  rcases h with h | ⟨rfl, h⟩
  · calc c * W + a < c * W + W := by omega
      _ = (c + 1) * W := by rw [Nat.succ_mul]
      _ ≤ d * W := Nat.mul_le_mul_right W h
      _ ≤ d * W + b := by omega
  · omega

theorem mb_index {w h a b : Nat} (ha : a < w) (hb : b < h) : b * w + a < w * h ∧ (b * w + a) % w = a ∧ (b * w + a) / w = b := by
  refine ⟨?_, ?_, ?_⟩
  · calc b * w + a < b * w + w := by omega
      _ = (b + 1) * w := by rw [Nat.succ_mul]
      _ ≤ h * w := Nat.mul_le_mul_right w hb
      _ = w * h := Nat.mul_comm _ _
  · rw [Nat.mul_comm, Nat.mul_add_mod, Nat.mod_eq_of_lt ha]
  · rw [Nat.mul_comm, Nat.mul_add_div (by omega), Nat.div_eq_of_lt ha, Nat.add_zero]

theorem luma_unique {w h : Nat} {p q : Plane} (hp : p.Sized (16 * w) (16 * h)) (hq : q.Sized (16 * w) (16 * h)) {reference : Nat → Plane}
    {m : Nat → MBModes} {d : Nat → Fin 16 → Fin 16 → Int}
    (ep : ∀ k, k < w * h → Sum 16 p (k % w) (k / w) (lumaPrediction (reference k) p (m k) (k % w) (k / w)) (d k))
    (eq : ∀ k, k < w * h → Sum 16 q (k % w) (k / w) (lumaPrediction (reference k) q (m k) (k % w) (k / w)) (d k)) : p = q := by
  have main : ∀ n u v, (v / 16 * w + u / 16) * 16 + (v / 4 % 4 * 4 + u / 4 % 4) = n → p.px u v = q.px u v := by
    intro n
    induction n using Nat.strong_induction_on with
    | _ n ih =>
      intro u v hn
      refine (hp.px_congr hq fun hu hv => ?_).symm
      have hc : u / 16 < w := by omega
      have hr : v / 16 < h := by omega
      obtain ⟨k1, k2, k3⟩ := mb_index hc hr
      have ep' := ep _ k1 ⟨u % 16, by omega⟩ ⟨v % 16, by omega⟩
      have eq' := eq _ k1 ⟨u % 16, by omega⟩ ⟨v % 16, by omega⟩
      rw [k2, k3] at ep' eq'
      dsimp only at ep' eq'
      rw [Nat.div_add_mod, Nat.div_add_mod] at ep' eq'
      rw [ep', eq', lumaPrediction_congr (p := p) (q := q) _ _ (hp.width.trans hq.width.symm) (by rw [hp.width]; exact mb_bounds hc) _ _ fun u' v' hb => ?_]
      by_cases hu' : u' / 16 < w
      · refine ih _ ?_ u' v' rfl
        unfold Before4 Before block16 at hb
        dsimp only at hb
        rcases hb with hb | ⟨b1, b2, b3⟩
        · have := mb_lt hu' hb
          omega
        · have : v' / 16 * w + u' / 16 = v / 16 * w + u / 16 := by rw [b1, b2]
          omega
      · rw [Plane.px_outside hp.full (by rw [hp.width]; omega), Plane.px_outside hq.full (by rw [hq.width]; omega)]
  exact Plane.ext_px hp.full hq.full (hp.width.trans hq.width.symm) (hp.height.trans hq.height.symm) fun x y _ _ => main _ x y rfl

theorem chroma_unique {w h : Nat} {p q : Plane} (hp : p.Sized (8 * w) (8 * h)) (hq : q.Sized (8 * w) (8 * h)) {reference : Nat → Plane}
    {m : Nat → MBModes} {d : Nat → Fin 8 → Fin 8 → Int}
    (ep : ∀ k, k < w * h → Sum 8 p (k % w) (k / w) (chromaPrediction (reference k) p (m k) (k % w) (k / w)) (d k))
    (eq : ∀ k, k < w * h → Sum 8 q (k % w) (k / w) (chromaPrediction (reference k) q (m k) (k % w) (k / w)) (d k)) : p = q := by
  have main : ∀ n u v, v / 8 * w + u / 8 = n → p.px u v = q.px u v := by
    intro n
    induction n using Nat.strong_induction_on with
    | _ n ih =>
      intro u v hn
      refine (hp.px_congr hq fun hu hv => ?_).symm
      have hc : u / 8 < w := by omega
      have hr : v / 8 < h := by omega
      obtain ⟨k1, k2, k3⟩ := mb_index hc hr
      have ep' := ep _ k1 ⟨u % 8, by omega⟩ ⟨v % 8, by omega⟩
      have eq' := eq _ k1 ⟨u % 8, by omega⟩ ⟨v % 8, by omega⟩
      rw [k2, k3] at ep' eq'
      dsimp only at ep' eq'
      rw [Nat.div_add_mod, Nat.div_add_mod] at ep' eq'
      rw [ep', eq', chromaPrediction_congr (p := p) (q := q) _ _ _ _ fun u' v' hb => ?_]
      by_cases hu' : u' / 8 < w
      · refine ih _ ?_ u' v' rfl
        have := mb_lt hu' hb
        omega
      · rw [Plane.px_outside hp.full (by rw [hp.width]; omega), Plane.px_outside hq.full (by rw [hq.width]; omega)]
  exact Plane.ext_px hp.full hq.full (hp.width.trans hq.width.symm) (hp.height.trans hq.height.symm) fun x y _ _ => main _ x y rfl

theorem sums_unique {dw dh w h : Nat} {s t : Raster} (hs : s.Sized dw dh w h) (ht : t.Sized dw dh w h) {reference : Nat → Raster}
    {m : Nat → MBModes} {d : Nat → Residues} (es : ∀ k, k < w * h → Sums (reference k) (m k) (d k) (k % w) (k / w) s)
    (et : ∀ k, k < w * h → Sums (reference k) (m k) (d k) (k % w) (k / w) t) : s = t := by
  refine Raster.ext (hs.displayWidth.trans ht.displayWidth.symm) (hs.displayHeight.trans ht.displayHeight.symm) ?_ ?_ ?_
  · exact luma_unique (reference := fun k => (reference k).y) hs.y ht.y (fun k hk => (es k hk).y) fun k hk => (et k hk).y
  · exact chroma_unique (reference := fun k => (reference k).u) hs.u ht.u (fun k hk => (es k hk).u) fun k hk => (et k hk).u
  · exact chroma_unique (reference := fun k => (reference k).v) hs.v ht.v (fun k hk => (es k hk).v) fun k hk => (et k hk).v

end Alfalfa
