import Verif.Spec.Camera
import Verif.Proof.Camera
import Verif.Props.Y4m

/-! C80: the pictures of the camera. -/

namespace Alfalfa

/-! ### From bytes to pictures -/

/-- A plane whose first `n` bytes have been replaced. -/
theorem Mixed.plane {w h : Nat} {p : Plane} (hp : p.Sized w h) {f : Nat → Option UInt8} {n : Nat} {cells : List UInt8} (hm : Mixed f n p.cells cells) :
    Plane.Sized w h { p with cells } ∧ ∀ u v, u < w → v < h →
      some (Plane.px { p with cells } u v) = if v * w + u < n then f (v * w + u) else some (p.px u v) := by
  obtain ⟨hf, rfl, rfl⟩ := hp
  refine ⟨⟨⟨hf.width, hf.height, hf.small, hm.length.trans hf.cells⟩, rfl, rfl⟩, fun u v hu hv => ?_⟩
  have hlt : v * p.width + u < p.cells.length := by
    rw [hf.cells]
    have : (v + 1) * p.width ≤ p.height * p.width := Nat.mul_le_mul_right _ hv
    rw [Nat.add_mul, Nat.one_mul, Nat.mul_comm p.height] at this
    omega
  unfold Plane.px
  dsimp only
  rw [if_pos hu, if_pos hu, List.getD_eq_getElem?_getD, List.getD_eq_getElem?_getD, hm.get]
  by_cases hn : v * p.width + u < n
  · rw [if_pos hn, if_pos hn]
    have := hm.get (v * p.width + u)
    rw [if_pos hn, List.getElem?_eq_getElem (by rw [hm.length]; exact hlt)] at this
    rw [← this]
    simp
  · rw [if_neg hn, if_neg hn, List.getElem?_eq_getElem hlt]

/-- The parts of the picture that the image does not reach. -/
structure RestKept (width height : Nat) (old r : Raster) : Prop where
  y : ∀ u v, u < width → v < old.y.height → height ≤ v → r.y.px u v = old.y.px u v
  u : ∀ u v, u < width / 2 → v < old.u.height → height / 2 ≤ v → r.u.px u v = old.u.px u v
  v : ∀ u v, u < width / 2 → v < old.v.height → height / 2 ≤ v → r.v.px u v = old.v.px u v

theorem ok_of_planes {w h : Nat} {old : Raster} (ho : old.Ok w h) {y u v : Plane} (hy : y.Sized old.y.width old.y.height)
    (hu : u.Sized old.u.width old.u.height) (hv : v.Sized old.v.width old.v.height) : Raster.Ok w h { old with y, u, v } :=
  ⟨ho.displayWidth, ho.displayHeight, hy.width.trans ho.yWidth, hy.height.trans ho.yHeight, hu.width.trans ho.uWidth, hu.height.trans ho.uHeight,
    hv.width.trans ho.vWidth, hv.height.trans ho.vHeight, hy.full.cells, hu.full.cells, hv.full.cells⟩

theorem at_position {w h u v : Nat} (hu : u < w) (hv : v < h) : v * w + u < w * h := by
  have : (v + 1) * w ≤ h * w := Nat.mul_le_mul_right _ hv
  rw [Nat.add_mul, Nat.one_mul, Nat.mul_comm h] at this
  omega

theorem past_position {w h u v : Nat} (hv : h ≤ v) : ¬ v * w + u < w * h := by
  have : h * w ≤ v * w := Nat.mul_le_mul_right _ hv
  rw [Nat.mul_comm h] at this
  omega

/-- What the formats have in common: brightness and colours poured into the planes. -/
theorem poured {w h : Nat} {old : Raster} (ho : old.Ok w h) (py : old.y.Full) (pu : old.u.Full) (pv : old.v.Full) {fy fu fv : Nat → Option UInt8} {ny nc : Nat}
    {y u v : List UInt8} (hy : Mixed fy ny old.y.cells y) (hu : Mixed fu nc old.u.cells u) (hv : Mixed fv nc old.v.cells v) :
    Raster.Ok w h { old with y := { old.y with cells := y }, u := { old.u with cells := u }, v := { old.v with cells := v } } ∧
      (∀ a b, a < old.y.width → b < old.y.height → ny ≤ b * old.y.width + a → Plane.px { old.y with cells := y } a b = old.y.px a b) ∧
      ∀ image : CameraImage, w % 16 = 0 → h % 2 = 0 → ny = w * h → nc = w / 2 * (h / 2) → (∀ a b, a < w → b < h → image.luma w a b = fy (b * w + a)) →
        (∀ a b, a < w / 2 → b < h / 2 → image.cb w h a b = fu (b * (w / 2) + a)) → (∀ a b, a < w / 2 → b < h / 2 → image.cr w h a b = fv (b * (w / 2) + a)) →
        image.ShownBy w h { old with y := { old.y with cells := y }, u := { old.u with cells := u }, v := { old.v with cells := v } } ∧
        RestKept w h old { old with y := { old.y with cells := y }, u := { old.u with cells := u }, v := { old.v with cells := v } } := by
  obtain ⟨y1, y3⟩ := hy.plane ⟨py, rfl, rfl⟩
  obtain ⟨u1, -⟩ := hu.plane ⟨pu, rfl, rfl⟩
  obtain ⟨v1, -⟩ := hv.plane ⟨pv, rfl, rfl⟩
  refine ⟨ok_of_planes ho y1 u1 v1, fun a b ha hb hn => Option.some.inj ((y3 a b ha hb).trans (if_neg (by omega))), fun image hw16 hh2 ey ec iy iu iv => ?_⟩
  have wy : old.y.width = w := by rw [ho.yWidth]; omega
  have wu : old.u.width = w / 2 := by rw [ho.uWidth]; omega
  have wv : old.v.width = w / 2 := by rw [ho.vWidth]; omega
  have hhy : h ≤ old.y.height := by rw [ho.yHeight]; omega
  have hhu : h / 2 ≤ old.u.height := by rw [ho.uHeight]; omega
  have hhv : h / 2 ≤ old.v.height := by rw [ho.vHeight]; omega
  obtain ⟨-, y2⟩ := hy.plane ⟨py, wy, rfl⟩
  obtain ⟨-, u2⟩ := hu.plane ⟨pu, wu, rfl⟩
  obtain ⟨-, v2⟩ := hv.plane ⟨pv, wv, rfl⟩
  subst ey ec
  refine ⟨⟨fun a b ha hb => ?_, fun a b ha hb => ?_, fun a b ha hb => ?_⟩, ⟨fun a b ha hb hb' => ?_, fun a b ha hb hb' => ?_, fun a b ha hb hb' => ?_⟩⟩
  · have := y2 a b ha (Nat.lt_of_lt_of_le hb hhy)
    rw [if_pos (at_position ha hb)] at this
    rw [iy a b ha hb, ← this]
  · have := u2 a b ha (Nat.lt_of_lt_of_le hb hhu)
    rw [if_pos (at_position ha hb)] at this
    rw [iu a b ha hb, ← this]
  · have := v2 a b ha (Nat.lt_of_lt_of_le hb hhv)
    rw [if_pos (at_position ha hb)] at this
    rw [iv a b ha hb, ← this]
  · have := y2 a b ha hb
    rw [if_neg (past_position hb')] at this
    exact Option.some.inj this
  · have := u2 a b ha hb
    rw [if_neg (past_position hb')] at this
    exact Option.some.inj this
  · have := v2 a b ha hb
    rw [if_neg (past_position hb')] at this
    exact Option.some.inj this

theorem quarter {w h : Nat} (hw : w % 2 = 0) (hh : h % 2 = 0) : w * h / 4 = w / 2 * (h / 2) := by
  obtain ⟨a, rfl⟩ : ∃ a, w = 2 * a := ⟨w / 2, by omega⟩
  obtain ⟨b, rfl⟩ : ∃ b, h = 2 * b := ⟨h / 2, by omega⟩
  rw [Nat.mul_div_cancel_left _ (by decide), Nat.mul_div_cancel_left _ (by decide), show 2 * a * (2 * b) = 4 * (a * b) by ring, Nat.mul_div_cancel_left _ (by decide)]

theorem isSome_get {m : List UInt8} {k : Nat} (h : k < m.length) : (m[k]?).isSome := by
  rw [List.getElem?_eq_getElem h]; rfl

/-- Both claims at once. -/
theorem cameraPicture_spec {w h : Nat} (hw : 0 < w ∧ w ≤ 16383) (hh : 0 < h ∧ h ≤ 16383) {old : Raster} (ho : old.Ok w h) {image : CameraImage}
    (hi : image.Whole w h) : ∃ x, cameraPicture w h image old = some x ∧ x.Ok w h ∧
      (∀ a b, a < old.y.width → b < old.y.height → w * h ≤ b * old.y.width + a → x.y.px a b = old.y.px a b) ∧ (w % 16 = 0 → h % 2 = 0 → image.ShownBy w h x ∧ RestKept w h old x) := by
  obtain ⟨⟨py, -, -⟩, ⟨pu, su1, su2⟩, ⟨pv, sv1, sv2⟩⟩ := ok_planes (by omega) (by omega) ho
  have big : w * h ≤ 16383 * 16383 := Nat.mul_le_mul hw.2 hh.2
  have roomY : w * h ≤ old.y.cells.length := by
    rw [ho.y, ho.yWidth, ho.yHeight]
    exact Nat.mul_le_mul (by omega) (by omega)
  have room (a b : Nat) (ha : a ≤ (w + 15) / 16 * 8) (hb : b ≤ (h + 15) / 16 * 8) : a * b ≤ old.u.cells.length ∧ a * b ≤ old.v.cells.length := by
    rw [ho.u, ho.v, ho.uWidth, ho.uHeight, ho.vWidth, ho.vHeight]
    exact ⟨Nat.mul_le_mul ha hb, Nat.mul_le_mul ha hb⟩
  have roomC : w * h / 4 ≤ old.u.cells.length ∧ w * h / 4 ≤ old.v.cells.length := by
    have := room ((w + 15) / 16 * 8) ((h + 15) / 16 * 8) (Nat.le_refl _) (Nat.le_refl _)
    have h2 : w * h ≤ (2 * ((w + 15) / 16 * 8)) * (2 * ((h + 15) / 16 * 8)) := Nat.mul_le_mul (by omega) (by omega)
    rw [show (2 * ((w + 15) / 16 * 8)) * (2 * ((h + 15) / 16 * 8)) = 4 * ((w + 15) / 16 * 8 * ((h + 15) / 16 * 8)) by ring] at h2
    omega
  cases image with
  | firstJpeg => exact hi.elim
  | yuyv m =>
    change 2 * (w * h) ≤ m.length at hi
    obtain ⟨y, y1, y2⟩ := pour_spec (src := fun i => m[2 * i]?) (n := w * h) (old := old.y.cells) (fun i hi' => isSome_get (by omega)) roomY
    have hl : old.v.cells.length = old.u.cells.length := by rw [ho.u, ho.v, ho.uWidth, ho.uHeight, ho.vWidth, ho.vHeight]
    obtain ⟨u, v, c1, c2, c3⟩ := yuyvRows_spec (memory := m) (width := w) hl (n := h) (row := 0) (u := old.u.cells) (v := old.v.cells)
      (by rw [Nat.zero_add, Nat.mul_comm h]; omega)
      (by rw [Nat.zero_add, Nat.mul_comm]; exact (room (w / 2) ((h + 1) / 2) (by omega) (by omega)).1)
      (by rw [show (0 + 1) / 2 * (w / 2) = 0 by simp]; exact .zero _ _) (by rw [show (0 + 1) / 2 * (w / 2) = 0 by simp]; exact .zero _ _)
    rw [show (0 + 1) / 2 * (w / 2) = 0 by simp] at c1
    obtain ⟨k1, k3, k2⟩ := poured ho py pu pv y2 c2 c3
    refine ⟨_, ?_, k1, k3, fun hw16 hh2 => k2 _ hw16 hh2 rfl ?_ ?_ ?_ ?_⟩
    · unfold cameraPicture
      dsimp only
      rw [if_neg (by omega), y1]
      dsimp only [bind, Option.bind]
      rw [c1]
      rfl
    · rw [Nat.zero_add, show (h + 1) / 2 = h / 2 by omega, Nat.mul_comm]
    · intro a b ha hb
      show m[b * (2 * w) + 2 * a]? = m[2 * (b * w + a)]?
      congr 1; ring
    · intro a b ha hb
      show m[2 * b * (2 * w) + 4 * a + 1]? = m[(b * (w / 2) + a) / (w / 2) * 2 * w * 2 + (b * (w / 2) + a) % (w / 2) * 4 + 1]?
      rw [Nat.mul_comm b (w / 2), Nat.mul_add_div (show 0 < w / 2 by omega), Nat.div_eq_of_lt ha, Nat.mul_add_mod, Nat.mod_eq_of_lt ha]
      congr 1; ring
    · intro a b ha hb
      show m[2 * b * (2 * w) + 4 * a + 3]? = m[(b * (w / 2) + a) / (w / 2) * 2 * w * 2 + (b * (w / 2) + a) % (w / 2) * 4 + 3]?
      rw [Nat.mul_comm b (w / 2), Nat.mul_add_div (show 0 < w / 2 by omega), Nat.div_eq_of_lt ha, Nat.mul_add_mod, Nat.mod_eq_of_lt ha]
      congr 1; ring
  | nv12 m =>
    change w * h * 3 / 2 ≤ m.length at hi
    obtain ⟨y, y1, y2⟩ := pour_spec (src := fun i => m[i]?) (n := w * h) (old := old.y.cells) (fun i hi' => isSome_get (by omega)) roomY
    obtain ⟨u, u1, u2⟩ := pour_spec (src := fun i => m[w * h + 2 * i]?) (n := w * h / 4) (old := old.u.cells) (fun i hi' => isSome_get (by omega)) roomC.1
    obtain ⟨v, v1, v2⟩ := pour_spec (src := fun i => m[w * h + (2 * i + 1)]?) (n := w * h / 4) (old := old.v.cells) (fun i hi' => isSome_get (by omega)) roomC.2
    obtain ⟨k1, k3, k2⟩ := poured ho py pu pv y2 u2 v2
    refine ⟨_, ?_, k1, k3, fun hw16 hh2 => k2 _ hw16 hh2 rfl (quarter (by omega) hh2) ?_ ?_ ?_⟩
    · unfold cameraPicture
      dsimp only
      rw [if_neg (by omega), y1]
      dsimp only [bind, Option.bind]
      rw [u1]
      dsimp only
      rw [v1]
      rfl
    · exact fun _ _ _ _ => rfl
    · intro a b ha hb
      show m[h * w + b * w + 2 * a]? = m[w * h + 2 * (b * (w / 2) + a)]?
      obtain ⟨c, rfl⟩ : ∃ c, w = 2 * c := ⟨w / 2, by omega⟩
      rw [Nat.mul_div_cancel_left _ (by decide)]
      congr 1; ring
    · intro a b ha hb
      show m[h * w + b * w + 2 * a + 1]? = m[w * h + (2 * (b * (w / 2) + a) + 1)]?
      obtain ⟨c, rfl⟩ : ∃ c, w = 2 * c := ⟨w / 2, by omega⟩
      rw [Nat.mul_div_cancel_left _ (by decide)]
      congr 1; ring
  | yuv420 m =>
    change w * h * 3 / 2 ≤ m.length at hi
    obtain ⟨y, y1, y2⟩ := pour_spec (src := fun i => m[i]?) (n := w * h) (old := old.y.cells) (fun i hi' => isSome_get (by omega)) roomY
    obtain ⟨u, u1, u2⟩ := pour_spec (src := fun i => m[w * h + i]?) (n := w * h / 4) (old := old.u.cells) (fun i hi' => isSome_get (by omega)) roomC.1
    obtain ⟨v, v1, v2⟩ := pour_spec (src := fun i => m[w * h * 5 / 4 + i]?) (n := w * h / 4) (old := old.v.cells) (fun i hi' => isSome_get (by omega)) roomC.2
    obtain ⟨k1, k3, k2⟩ := poured ho py pu pv y2 u2 v2
    refine ⟨_, ?_, k1, k3, fun hw16 hh2 => k2 _ hw16 hh2 rfl (quarter (by omega) hh2) ?_ ?_ ?_⟩
    · unfold cameraPicture
      dsimp only
      rw [if_neg (by omega), y1]
      dsimp only [bind, Option.bind]
      rw [u1]
      dsimp only
      rw [v1]
      rfl
    · exact fun _ _ _ _ => rfl
    · intro a b ha hb
      show m[h * w + b * (w / 2) + a]? = m[w * h + (b * (w / 2) + a)]?
      rw [Nat.mul_comm h, Nat.add_assoc]
    · intro a b ha hb
      show m[h * w + h / 2 * (w / 2) + b * (w / 2) + a]? = m[w * h * 5 / 4 + (b * (w / 2) + a)]?
      have e := quarter (w := w) (h := h) (by omega) hh2
      have e' : 4 * (w * h / 4) = w * h := by
        rw [e]
        obtain ⟨c, rfl⟩ : ∃ c, w = 2 * c := ⟨w / 2, by omega⟩
        obtain ⟨d, rfl⟩ : ∃ d, h = 2 * d := ⟨h / 2, by omega⟩
        rw [Nat.mul_div_cancel_left _ (by decide), Nat.mul_div_cancel_left _ (by decide)]
        ring
      rw [Nat.mul_comm h, Nat.mul_comm (h / 2), ← e]
      congr 1
      omega
  | jpeg yy uu vv =>
    obtain ⟨⟨a1, a2, a3⟩, ⟨b1, b2, b3⟩, ⟨c1, c2, c3⟩⟩ := hi
    obtain ⟨y, y1, y2⟩ := pour_spec (src := fun i => yy.cells[i]?) (n := w * h) (old := old.y.cells) (fun i hi' => isSome_get (by omega)) roomY
    have src {p : Plane} (h1 : p.width = w / 2) (h2 : p.height = h) (h3 : p.cells.length = w / 2 * h) (c r : Nat) (hc : c < w / 2) (hr : r < 0 + h / 2) :
        ∃ b, p.at? c (r * 2) = some b := by
      have f : p.Full := ⟨by omega, by omega, by
        rw [h1, h2]
        have : w / 2 * h ≤ 16383 * 16383 := Nat.mul_le_mul (by omega) hh.2
        omega, by rw [h3, h1, h2]⟩
      exact ⟨_, Plane.px_eq f (by omega) (by omega)⟩
    obtain ⟨u, u1, u2, u3⟩ := jpegRows_spec (src := uu) (columns := w / 2) (w := old.u.width) (h := old.u.height) (by omega) (n := h / 2) (row := 0)
      ⟨pu, rfl, rfl⟩ (by omega) (src b1 b2 b3)
    obtain ⟨v, v1, v2, v3⟩ := jpegRows_spec (src := vv) (columns := w / 2) (w := old.v.width) (h := old.v.height) (by omega) (n := h / 2) (row := 0)
      ⟨pv, rfl, rfl⟩ (by omega) (src c1 c2 c3)
    obtain ⟨y3, y5⟩ := y2.plane ⟨py, rfl, rfl⟩
    refine ⟨{ old with y := { old.y with cells := y }, u, v }, ?_, ok_of_planes ho y3 u2 v2, fun a b ha hb hn => Option.some.inj ((y5 a b ha hb).trans (if_neg (by omega))), fun hw16 hh2 => ?_⟩
    · unfold cameraPicture
      dsimp only
      rw [Nat.mod_eq_of_lt (by omega), y1]
      dsimp only [bind, Option.bind]
      rw [u1]
      dsimp only
      rw [v1]
      rfl
    · have wy : old.y.width = w := by rw [ho.yWidth]; omega
      have hhy : h ≤ old.y.height := by rw [ho.yHeight]; omega
      obtain ⟨-, y4⟩ := y2.plane ⟨py, wy, rfl⟩
      have fy : yy.Full := ⟨by omega, by omega, by rw [a1, a2]; omega, by rw [a3, a1, a2]⟩
      refine ⟨⟨fun a b ha hb => ?_, fun a b ha hb => ?_, fun a b ha hb => ?_⟩, ⟨fun a b ha hb hb' => ?_, fun a b ha hb hb' => ?_, fun a b ha hb hb' => ?_⟩⟩
      · have := y4 a b ha (Nat.lt_of_lt_of_le hb hhy)
        rw [if_pos (at_position ha hb)] at this
        rw [this]
        show yy.at? a b = _
        have hlt : b * w + a < yy.cells.length := by rw [a3]; exact at_position ha hb
        rw [Grid.at?_eq fy (by omega) (by omega), List.getElem?_eq_getElem hlt]
        simp only [a1]
      · have := u3 a b (by omega) (by omega)
        rw [if_pos (by omega)] at this
        rw [this, Nat.mul_comm]
        rfl
      · have := v3 a b (by omega) (by omega)
        rw [if_pos (by omega)] at this
        rw [this, Nat.mul_comm]
        rfl
      · have := y4 a b ha hb
        rw [if_neg (past_position hb')] at this
        exact Option.some.inj this
      · have := u3 a b (by omega) hb
        rw [if_neg (by omega)] at this
        exact Option.some.inj this
      · have := v3 a b (by omega) hb
        rw [if_neg (by omega)] at this
        exact Option.some.inj this

/-- **C80** (memory): whatever the size and the format, an image that has all its bytes is read and a picture written without going outside of either. -/
theorem C80_safe {w h : Nat} (hw : 0 < w ∧ w ≤ 16383) (hh : 0 < h ∧ h ≤ 16383) {old : Raster} (ho : old.Ok w h) {image : CameraImage} (hi : image.Whole w h) :
    ∃ x, cameraPicture w h image old = some x ∧ x.Ok w h := by
  obtain ⟨x, h1, h2, -⟩ := cameraPicture_spec hw hh ho hi
  exact ⟨x, h1, h2⟩

/-- **C80** (the picture): if the width is a multiple of 16 and the height is even, the picture is the image, in each of the formats, whatever was in the memory
before. -/
theorem C80_picture_partial {w h : Nat} (hw : 0 < w ∧ w ≤ 16383) (hh : 0 < h ∧ h ≤ 16383) (hw16 : w % 16 = 0) (hh2 : h % 2 = 0) {old : Raster}
    (ho : old.Ok w h) {image : CameraImage} (hi : image.Whole w h) : ∃ x, cameraPicture w h image old = some x ∧ image.ShownBy w h x := by
  obtain ⟨x, h1, -, -, h3⟩ := cameraPicture_spec hw hh ho hi
  exact ⟨x, h1, (h3 hw16 hh2).1⟩

/-- **C80**, what is missing: with any other width (and more than one row) the rows of the image are not where the rows of the picture are.  The last pixel, for one,
is not written at all: it is what the memory had before, whatever the image is. -/
theorem C80_other_widths {w h : Nat} (hw : 0 < w ∧ w ≤ 16383) (hh : 2 ≤ h ∧ h ≤ 16383) (hw16 : w % 16 ≠ 0) {old : Raster} (ho : old.Ok w h)
    {image : CameraImage} (hi : image.Whole w h) : ∃ x, cameraPicture w h image old = some x ∧ x.y.px (w - 1) (h - 1) = old.y.px (w - 1) (h - 1) := by
  obtain ⟨x, h1, -, h2, -⟩ := cameraPicture_spec hw (by omega) ho hi
  refine ⟨x, h1, h2 _ _ (by rw [ho.yWidth]; omega) (by rw [ho.yHeight]; omega) ?_⟩
  obtain ⟨k, rfl⟩ : ∃ k, h = k + 2 := ⟨h - 2, by omega⟩
  have : (k + 1) * (w + 1) ≤ (k + 1) * old.y.width := Nat.mul_le_mul_left _ (by rw [ho.yWidth]; omega)
  rw [Nat.mul_add, Nat.mul_one, Nat.add_mul, Nat.one_mul] at this
  rw [show k + 2 - 1 = k + 1 by omega, Nat.mul_add, Nat.mul_comm w k]
  omega

/-- **C80**, what is missing: the first compressed picture is left out by returning whatever the memory had before. -/
theorem C80_first_jpeg (w h : Nat) (old : Raster) : cameraPicture w h .firstJpeg old = some old := rfl

/-! ### Whose turn a buffer is -/

/-- The buffers go round: first the filled ones, then the empty ones, from the next one on; what is in the filled ones is still to be given. -/
structure CameraLine.Round {P : Type} (c : CameraLine P) (pending : List P) : Prop where
  buffers : c.images.length = 4
  next : c.next < 4
  round : c.filled ++ c.empty = (List.range 4).map fun i => (c.next + i) % 4
  pending : c.filled.map (fun b => c.images[b]?) = pending.map some

theorem CameraLine.Round.capture {P : Type} {c : CameraLine P} {pending : List P} (h : c.Round pending) (p : P) :
    (c.capture p).Round (if pending.length < 4 then pending ++ [p] else pending) := by
  have hlen : c.filled.length = pending.length := by simpa using congrArg List.length h.pending
  have htot : c.filled.length + c.empty.length = 4 := by simpa using congrArg List.length h.round
  unfold CameraLine.capture
  cases he : c.empty with
  | nil =>
    rw [he, List.length_nil] at htot
    rw [if_neg (by omega)]
    exact h
  | cons b rest =>
    rw [he, List.length_cons] at htot
    rw [if_pos (by omega)]
    have hr := h.round
    rw [he] at hr
    have hb : b < 4 := by
      have : b ∈ c.filled ++ b :: rest := by simp
      rw [hr] at this
      obtain ⟨i, -, rfl⟩ := List.mem_map.1 this
      omega
    have hnodup : (c.filled ++ b :: rest).Nodup := by
      rw [hr]
      have := h.next
      generalize c.next = n at this ⊢
      clear hr
      revert n
      decide
    have hnot : b ∉ c.filled := fun hm => by
      have := List.nodup_append.1 hnodup
      exact this.2.2 b hm b (by simp) rfl
    refine ⟨by rw [List.length_set, h.buffers], h.next, by simpa using hr, ?_⟩
    show (c.filled ++ [b]).map (fun b' => (c.images.set b p)[b']?) = _
    rw [List.map_append, List.map_append, ← h.pending]
    congr 1
    · refine List.map_congr_left fun x hx => ?_
      have hne : b ≠ x := fun e => hnot (e ▸ hx)
      rw [List.getElem?_set, if_neg hne]
    · simp [List.getElem?_set, h.buffers, hb]

theorem CameraLine.Round.grab {P : Type} {c : CameraLine P} {p : P} {pending : List P} (h : c.Round (p :: pending)) :
    ∃ c', c.grab = some (p, c') ∧ c'.Round pending := by
  cases hf : c.filled with
  | nil =>
    have := h.pending
    rw [hf] at this
    exact nomatch this
  | cons b rest =>
    have hr := h.round
    have hp := h.pending
    rw [hf] at hr hp
    have hn := h.next
    have hb : b = c.next := by
      have := congrArg List.head? hr
      simp only [List.cons_append, List.head?_cons] at this
      have e : ((List.range 4).map fun i => (c.next + i) % 4).head? = some ((c.next + 0) % 4) := rfl
      rw [e] at this
      injection this with this
      omega
    rw [List.map_cons, List.map_cons] at hp
    injection hp with hp1 hp2
    refine ⟨{ c with filled := rest, empty := c.empty ++ [b], next := (c.next + 1) % 4 }, ?_, h.buffers, Nat.mod_lt _ (by decide), ?_, hp2⟩
    · unfold CameraLine.grab
      rw [hf]
      dsimp only
      rw [← hb, hp1]
      rfl
    · show rest ++ (c.empty ++ [b]) = (List.range 4).map fun i => ((c.next + 1) % 4 + i) % 4
      have e := congrArg List.tail hr
      rw [List.cons_append, List.tail_cons] at e
      rw [← List.append_assoc, e, hb]
      generalize c.next = n at hn ⊢
      clear hb hr e hp1 hp2 h hf
      revert n
      decide

/-- From any point on. -/
theorem CameraLine.Round.run {P : Type} : ∀ {es : List (CameraEvent P)} {c : CameraLine P} {pending : List P}, c.Round pending → (c.run es).2 = fourDeep pending es
  | [], _, _, _ => rfl
  | .capture p :: es, c, pending, h => by
    unfold CameraLine.run fourDeep
    exact (h.capture p).run
  | .grab :: es, c, [], h => by
    have : c.grab = none := by
      have := h.pending
      unfold CameraLine.grab
      cases hf : c.filled with
      | nil => rfl
      | cons b rest => rw [hf] at this; exact nomatch this
    unfold CameraLine.run fourDeep
    rw [this]
    exact h.run
  | .grab :: es, c, p :: pending, h => by
    obtain ⟨c', h1, h2⟩ := h.grab
    unfold CameraLine.run fourDeep
    rw [h1]
    dsimp only
    rw [h2.run]

/-- **C80** (order): whenever the driver takes pictures and whenever the program asks for one, the program gets the pictures that the driver took, each once, in the
order in which they were taken; only those are lost for which all four buffers were full. -/
theorem C80_in_order {P : Type} {garbage : List P} (hg : garbage.length = 4) (es : List (CameraEvent P)) : ((CameraLine.start garbage).run es).2 = fourDeep [] es :=
  CameraLine.Round.run ⟨hg, by show 0 < 4; decide, rfl, rfl⟩

/-- A driver that gives the buffers back in another order is not noticed: the program reads a buffer that the driver still holds. -/
theorem C80_order_assumed {P : Type} (a b : P) : (⟨[a, b, a, a], [0, 2, 3], [1], 0⟩ : CameraLine P).grab = some (a, ⟨[a, b, a, a], [0, 2, 3, 1], [], 1⟩) := rfl

/-! ### Examples -/

/-- A picture of 16 by 2 pixels in the format that cameras have most. -/
def exampleYuyv : CameraImage := .yuyv ((List.range 64).map fun k => UInt8.ofNat (3 * k))

example : ∃ x, cameraPicture 16 2 exampleYuyv (grayRaster 16 2 9) = some x ∧ exampleYuyv.ShownBy 16 2 x :=
  C80_picture_partial (by decide) (by decide) rfl rfl (grayRaster_ok ..) (show 64 ≤ (List.map _ (List.range 64)).length by rw [List.length_map, List.length_range])

example : exampleYuyv.luma 16 3 1 = some 114 ∧ exampleYuyv.cb 16 2 2 0 = some 27 ∧ exampleYuyv.cr 16 2 2 0 = some 33 := by decide +kernel

/-- Seven pictures are taken, of which one is lost. -/
example : fourDeep [] [.capture 1, .grab, .capture 2, .capture 3, .capture 4, .capture 5, .capture 6, .grab, .capture 7, .grab, .grab, .grab, .grab, .grab] =
    [1, 2, 3, 4, 5, 7] := by decide

end Alfalfa
