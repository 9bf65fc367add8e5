import Verif.Model.LoopFilter
import Verif.Spec.LoopFilter
import Verif.Proof.Transform

/-! Lemmas about the loop filter. -/

namespace Alfalfa

open LoopFilterSpec

/-! ### Eight pixels -/

theorem signedClamp_eq (t : Int) : signedClamp t = c t := by
  unfold signedClamp c; dsimp only; split <;> split <;> omega

theorem c_range (t : Int) : -128 ≤ c t ∧ c t ≤ 127 := by unfold c; omega

theorem c_of_range {t : Int} (h : -128 ≤ t ∧ t ≤ 127) : c t = t := by unfold c; omega

theorem fromSigned_c (t : Int) : fromSigned (c t) = UInt8.ofNat (s2u t) := by
  have := c_range t
  unfold fromSigned toUInt8 s2u
  congr 2; omega

theorem u2s_range (x : UInt8) : -128 ≤ u2s x.toNat ∧ u2s x.toNat ≤ 127 := by
  have := x.toNat_lt; unfold u2s; omega

theorem s2u_u2s (x : UInt8) : s2u (u2s x.toNat) = x.toNat := by
  have := x.toNat_lt
  rw [s2u, c_of_range (u2s_range x)]; unfold u2s; omega

theorem natAbs_pixelDiff (a b : UInt8) : (pixelDiff a b).natAbs = far a.toNat b.toNat := by
  unfold pixelDiff far; omega

theorem filterMask_eq (I E : Nat) (v : Fin 8 → UInt8) : filterMask I E v = decide (filterYes I E fun i => (v i).toNat) := by
  rw [Bool.eq_iff_iff, decide_eq_true_iff]
  unfold filterMask filterYes
  simp only [natAbs_pixelDiff, Bool.not_eq_true', Bool.or_eq_false_iff, decide_eq_false_iff_not, Nat.not_lt]
  have hs : ∀ a b : Nat, far a b = far b a := fun a b => by unfold far; omega
  constructor
  · rintro ⟨⟨⟨⟨⟨⟨h0, h1⟩, h2⟩, h4⟩, h5⟩, h6⟩, he⟩
    refine ⟨fun i hi h3 => ?_, he⟩
    fin_cases i
    · exact h0
    · exact h1
    · exact h2
    · exact absurd rfl h3
    · rw [hs]; exact h4
    · rw [hs]; exact h5
    · rw [hs]; exact h6
    · exact absurd hi (by decide)
  · rintro ⟨h, he⟩
    refine ⟨⟨⟨⟨⟨⟨h 0 (by decide) (by decide), h 1 (by decide) (by decide)⟩, h 2 (by decide) (by decide)⟩, ?_⟩, ?_⟩, ?_⟩, he⟩
    · rw [hs]; exact h 4 (by decide) (by decide)
    · rw [hs]; exact h 5 (by decide) (by decide)
    · rw [hs]; exact h 6 (by decide) (by decide)

theorem hevMask_eq (T : Nat) (v : Fin 8 → UInt8) : hevMask T v = decide (hev T fun i => (v i).toNat) := by
  rw [Bool.eq_iff_iff, decide_eq_true_iff]
  unfold hevMask hev
  simp only [natAbs_pixelDiff, Bool.or_eq_true, decide_eq_true_eq]

theorem shr1 (z : Int) : z >>> 1 = z / 2 := by rw [Int.shiftRight_eq_div_pow]; norm_num
theorem shr7 (z : Int) : z >>> 7 = z / 128 := by rw [Int.shiftRight_eq_div_pow]; norm_num

theorem toSigned_eq (x : UInt8) : toSigned x = u2s x.toNat := rfl

theorem ofNat_same (x : UInt8) : UInt8.ofNat (s2u (u2s x.toNat)) = x := by rw [s2u_u2s, UInt8.ofNat_toNat]

theorem c_c (t : Int) : c (c t) = c t := c_of_range (c_range t)

theorem s2u_c (t : Int) : s2u (c t) = s2u t := by unfold s2u; rw [c_c]

theorem c_u2s (x : UInt8) : c (u2s x.toNat) = u2s x.toNat := c_of_range (u2s_range x)

theorem fromSigned_u2s (x : UInt8) : fromSigned (u2s x.toNat) = x := by rw [← c_u2s, fromSigned_c, ofNat_same]

theorem subblockFilter_eq (I E T : Nat) (v : Fin 8 → UInt8) :
    subblockFilter (filterMask I E v) (hevMask T v) v = onPixels (subblock I E T) v := by
  have e3 : c 3 / 8 = 0 := by decide
  have e4 : c 4 / 8 = 0 := by decide
  rw [filterMask_eq, hevMask_eq]
  funext i
  unfold subblockFilter onPixels subblock
  by_cases hy : filterYes I E fun i => (v i).toNat
  · by_cases hh : hev T fun i => (v i).toNat
    · simp only [hy, hh, if_true, decide_true, masked, signedClamp_eq, fromSigned_c, shr3, toSigned_eq, Bool.not_true, Bool.false_eq_true,
        if_false, Int.sub_zero, Int.add_zero, ofNat_same]
      fin_cases i <;> simp [commonQ, commonP, base, UInt8.ofNat_toNat]
    · simp only [hy, hh, if_true, decide_true, decide_false, masked, signedClamp_eq, fromSigned_c, shr3, shr1, toSigned_eq, Bool.not_false,
        Bool.false_eq_true, if_false, Int.zero_add]
      fin_cases i <;> simp [commonQ, commonP, base, UInt8.ofNat_toNat]
  · have hm : ∀ b : Bool, (if b then (0 : Int) else 0) = 0 := fun b => by cases b <;> rfl
    simp only [hy, if_false, decide_false, masked, signedClamp_eq, fromSigned_c, shr3, shr1, toSigned_eq, Bool.false_eq_true, Int.zero_add, e3,
      e4, show ((1 : Int) / 2) = 0 by decide, hm, Int.sub_zero, Int.add_zero, ofNat_same]
    fin_cases i <;> simp [UInt8.ofNat_toNat]

theorem macroblockFilter_eq (I E T : Nat) (v : Fin 8 → UInt8) :
    macroblockFilter (filterMask I E v) (hevMask T v) v = onPixels (macroblock I E T) v := by
  have e3 : c 3 / 8 = 0 := by decide
  have e4 : c 4 / 8 = 0 := by decide
  have e0 : c 0 = 0 := by decide
  have e63 : (63 : Int) / 128 = 0 := by decide
  rw [filterMask_eq, hevMask_eq]
  funext i
  unfold macroblockFilter onPixels macroblock
  by_cases hy : filterYes I E fun i => (v i).toNat
  · by_cases hh : hev T fun i => (v i).toNat
    · simp only [hy, hh, if_true, decide_true, masked, signedClamp_eq, fromSigned_c, shr3, shr7, toSigned_eq, Bool.not_true,
        Bool.false_eq_true, if_false, Int.zero_mul, Int.add_zero, e63, e0, Int.sub_zero, ofNat_same, s2u_c]
      fin_cases i <;> simp [commonQ, commonP, base, UInt8.ofNat_toNat]
    · simp only [hy, hh, if_true, decide_true, decide_false, masked, signedClamp_eq, fromSigned_c, shr3, shr7, toSigned_eq, Bool.not_false,
        Bool.false_eq_true, if_false, Int.zero_add, e3, e4, Int.sub_zero, Int.add_zero, c_u2s]
      fin_cases i <;> simp [base, UInt8.ofNat_toNat, Int.mul_comm, Int.add_comm]
  · have hm : ∀ b : Bool, (if b then (0 : Int) else 0) = 0 := fun b => by cases b <;> rfl
    simp only [hy, if_false, decide_false, masked, signedClamp_eq, fromSigned_u2s, shr3, shr7, toSigned_eq, Bool.false_eq_true, Int.zero_add, e3,
      e4, e0, e63, hm, Int.zero_mul, Int.sub_zero, Int.add_zero, c_u2s]
    fin_cases i <;> simp [UInt8.ofNat_toNat]

theorem macroblock_only (I E T : Nat) : ∀ v i, i ∉ macroblockPlaces → onPixels (macroblock I E T) v i = v i := fun v i hi => by
  unfold onPixels macroblock
  have : i = 0 ∨ i = 7 := by revert hi; revert i; decide
  rcases this with rfl | rfl <;> split <;> [split; skip; split; skip] <;> simp [UInt8.ofNat_toNat]

theorem subblock_only (I E T : Nat) : ∀ v i, i ∉ subblockPlaces → onPixels (subblock I E T) v i = v i := fun v i hi => by
  unfold onPixels subblock
  have : i = 0 ∨ i = 1 ∨ i = 6 ∨ i = 7 := by revert hi; revert i; decide
  rcases this with rfl | rfl | rfl | rfl <;> split <;> [split; skip; split; skip; split; skip; split; skip] <;> simp [UInt8.ofNat_toNat]

/-! ### The strength -/

theorem clamp63_eq (v : Int) : clamp63 v = limit63 v := by unfold clamp63 limit63; split <;> [skip; split] <;> omega

theorem limit63_le (v : Int) : limit63 v ≤ 63 := by unfold limit63; omega

theorem interiorLimit_eq {level sharpness : Nat} (hs : sharpness ≤ 7) : interiorLimit level sharpness = interior level sharpness := by
  unfold interiorLimit interior toUInt8
  dsimp only
  by_cases h0 : sharpness = 0
  · subst h0; simp only [ne_eq, not_true, if_false, if_true]; split <;> omega
  · by_cases h4 : sharpness > 4
    · simp only [ne_eq, h0, not_false_iff, if_true, if_false, h4, show ¬ sharpness ≤ 4 by omega, Nat.shiftRight_eq_div_pow]
      split <;> split <;> omega
    · simp only [ne_eq, h0, not_false_iff, if_true, if_false, h4, show sharpness ≤ 4 by omega, Nat.shiftRight_eq_div_pow]
      split <;> split <;> omega

theorem interior_le {level sharpness : Nat} (h : level ≤ 63) : 1 ≤ interior level sharpness ∧ interior level sharpness ≤ 63 := by
  unfold interior; split <;> [skip; split] <;> omega

theorem filter_eq (p : FilterParameters) (keyFrame : Bool) (hs : p.sharpness ≤ 7) : p.filter keyFrame =
    { level := limit63 p.level, interior := interior (limit63 p.level) p.sharpness,
      macroblockLimit := 2 * (limit63 p.level + 2) + interior (limit63 p.level) p.sharpness,
      subblockLimit := 2 * limit63 p.level + interior (limit63 p.level) p.sharpness,
      hevThreshold := threshold keyFrame (limit63 p.level) } := by
  have h1 := limit63_le p.level
  have h2 := interior_le (sharpness := p.sharpness) h1
  unfold FilterParameters.filter
  dsimp only
  rw [clamp63_eq, interiorLimit_eq hs]
  generalize limit63 p.level = level at *
  generalize interior level p.sharpness = I at *
  congr 1
  · unfold toUInt8; omega
  · unfold toUInt8; omega
  · unfold threshold
    cases keyFrame
    · simp; split <;> split <;> split <;> omega
    · simp; split <;> split <;> omega

/-! ### Pictures -/

theorem Plane.px_outside {p : Plane} (hp : p.Full) {u v : Nat} (h : ¬ (u < p.width ∧ v < p.height)) : p.px u v = 0 := by
  unfold Plane.px
  split
  · next hu =>
    rw [List.getD_eq_getElem?_getD, List.getElem?_eq_none, Option.getD_none]
    rw [hp.cells]
    have hv : p.height ≤ v := by omega
    have := Nat.mul_le_mul_right p.width hv
    rw [Nat.mul_comm p.height] at this
    omega
  · rfl

/-- `q` is `p` with new pixels `g` at the places `x i`, `y i`. -/
structure Plane.Changed {ι : Type} (p q : Plane) (S : ι → Prop) (x y : ι → Nat) (g : ι → UInt8) : Prop where
  full : q.Full
  width : q.width = p.width
  height : q.height = p.height
  inside : ∀ i, S i → q.px (x i) (y i) = g i
  outside : ∀ u v, (∀ i, S i → ¬ (u = x i ∧ v = y i)) → q.px u v = p.px u v

theorem Plane.store_changed {p : Plane} (hp : p.Full) {x y : Nat} {a : Int} (v : UInt8) (hx : x < p.width) (hy : y < p.height)
    (ha : a = ((y * p.width + x : Nat) : Int)) : ∃ q : Plane, p.store a v = some q ∧ q.Full ∧ q.width = p.width ∧ q.height = p.height ∧
      ∀ u w, q.px u w = if u = x ∧ w = y then v else p.px u w := by
  obtain ⟨q, hq, hf, hw, hh, hpx⟩ := Plane.put_spec hp v hx hy
  refine ⟨q, by rw [Plane.store_eq hp v hx hy ha, hq], hf, hw, hh, fun u w => ?_⟩
  by_cases h : u < p.width ∧ w < p.height
  · exact hpx u w h.1 h.2
  · rw [Plane.px_outside hf (by rw [hw, hh]; exact h), Plane.px_outside hp h, if_neg (by omega)]

theorem stores_changed {w h : Nat} {x y : Fin 8 → Nat} {a : Fin 8 → Int} (g : Fin 8 → UInt8) (hx : ∀ i, x i < w) (hy : ∀ i, y i < h)
    (inj : ∀ i j, x i = x j → y i = y j → i = j) (ha : ∀ i, a i = ((y i * w + x i : Nat) : Int)) :
    ∀ (l : List (Fin 8)) (p : Plane), p.Full → p.width = w → p.height = h →
      ∃ q : Plane, l.foldlM (fun p (i : Fin 8) => p.store (a i) (g i)) p = some q ∧ p.Changed q (· ∈ l) x y g
  | [], p, hp, _, _ => ⟨p, rfl, hp, rfl, rfl, fun _ h => absurd h List.not_mem_nil, fun _ _ _ => rfl⟩
  | i :: l, p, hp, hw, hh => by
    obtain ⟨p1, h1, hf1, hw1, hh1, hpx1⟩ := Plane.store_changed hp (g i) (hw ▸ hx i) (hh ▸ hy i) (hw ▸ ha i)
    obtain ⟨q, hq, hc⟩ := stores_changed g hx hy inj ha l p1 hf1 (hw1.trans hw) (hh1.trans hh)
    refine ⟨q, by rw [List.foldlM_cons, h1]; exact hq, hc.full, hc.width.trans hw1, hc.height.trans hh1, fun j hj => ?_, fun u v ho => ?_⟩
    · by_cases hl : j ∈ l
      · exact hc.inside j hl
      · have : j = i := by simpa [hl] using hj
        subst this
        rw [hc.outside _ _ fun k hk he => hl (by rw [inj j k he.1 he.2]; exact hk), hpx1, if_pos ⟨rfl, rfl⟩]
    · rw [hc.outside _ _ fun k hk => ho k (List.mem_cons_of_mem _ hk), hpx1, if_neg (ho i List.mem_cons_self)]

theorem filterLine_changed {p : Plane} (hp : p.Full) {x y : Fin 8 → Nat} {central step : Int} (hx : ∀ i, x i < p.width)
    (hy : ∀ i, y i < p.height) (inj : ∀ i j, x i = x j → y i = y j → i = j)
    (ha : ∀ i : Fin 8, central + ((i.val : Int) - 4) * step = ((y i * p.width + x i : Nat) : Int))
    {f : (Fin 8 → UInt8) → Fin 8 → UInt8} {l : List (Fin 8)} (hf : ∀ v i, i ∉ l → f v i = v i) :
    ∃ q : Plane, filterLine p central step f l = some q ∧ p.Changed q (fun _ => True) x y (f fun i => p.px (x i) (y i)) := by
  have hl : allSome (fun i : Fin 8 => p.load (central + ((i.val : Int) - 4) * step)) = some fun i => p.px (x i) (y i) :=
    allSome_some fun i => Plane.load_eq hp (hx i) (hy i) (ha i)
  obtain ⟨q, hq, hc⟩ := stores_changed (f fun i => p.px (x i) (y i)) hx hy inj ha l p hp rfl rfl
  refine ⟨q, by rw [filterLine, hl]; exact hq, hc.full, hc.width, hc.height, fun i _ => ?_, fun u v ho => hc.outside u v fun i _ => ho i trivial⟩
  by_cases hi : i ∈ l
  · exact hc.inside i hi
  · rw [hc.outside _ _ fun j hj he => hi (by rw [inj i j he.1 he.2]; exact hj), hf _ i hi]

/-- The lines do not touch each other, so that all of them are filtered as in the picture before. -/
theorem lines_changed {w h n : Nat} {x y : Nat → Fin 8 → Nat} {body : Plane → Nat → Option Plane} {f : (Fin 8 → UInt8) → Fin 8 → UInt8}
    (inj : ∀ r s i j, r < n → s < n → x r i = x s j → y r i = y s j → r = s)
    (hb : ∀ (p : Plane) r, r < n → p.Full → p.width = w → p.height = h →
      ∃ q : Plane, body p r = some q ∧ p.Changed q (fun _ => True) (x r) (y r) (f fun i => p.px (x r i) (y r i))) :
    ∀ (l : List Nat) (p : Plane), (∀ r ∈ l, r < n) → l.Nodup → p.Full → p.width = w → p.height = h →
      ∃ q : Plane, l.foldlM body p = some q ∧ p.Changed q (fun k : Nat × Fin 8 => k.1 ∈ l) (fun k => x k.1 k.2) (fun k => y k.1 k.2)
        fun k => f (fun i => p.px (x k.1 i) (y k.1 i)) k.2
  | [], p, _, _, hp, _, _ => ⟨p, rfl, hp, rfl, rfl, fun _ h => absurd h List.not_mem_nil, fun _ _ _ => rfl⟩
  | r :: l, p, hl, hn, hp, hw, hh => by
    have hr := hl r List.mem_cons_self
    obtain ⟨hnr, hn⟩ := List.nodup_cons.1 hn
    obtain ⟨p1, h1, hc1⟩ := hb p r hr hp hw hh
    obtain ⟨q, hq, hc⟩ := lines_changed inj hb l p1 (fun s hs => hl s (List.mem_cons_of_mem _ hs)) hn hc1.full (hc1.width.trans hw)
      (hc1.height.trans hh)
    have hsame : ∀ s ∈ l, ∀ i, p1.px (x s i) (y s i) = p.px (x s i) (y s i) := fun s hs i =>
      hc1.outside _ _ fun j _ he => hnr (inj s r i j (hl s (List.mem_cons_of_mem _ hs)) hr he.1 he.2 ▸ hs)
    refine ⟨q, by rw [List.foldlM_cons, h1]; exact hq, hc.full, hc.width.trans hc1.width, hc.height.trans hc1.height, ?_, fun u v ho => ?_⟩
    · rintro ⟨s, i⟩ hs
      dsimp only at hs ⊢
      by_cases hsl : s ∈ l
      · rw [hc.inside ⟨s, i⟩ hsl]
        dsimp only
        refine congrArg (fun g => f g i) (funext fun j => hsame s hsl j)
      · have : s = r := by simpa [hsl] using hs
        subst this
        rw [hc.outside _ _ fun k hk he => hsl (inj s k.1 i k.2 hr (hl k.1 (List.mem_cons_of_mem _ hk)) he.1 he.2 ▸ hk),
          hc1.inside i trivial]
    · rw [hc.outside _ _ fun k hk => ho k (List.mem_cons_of_mem _ hk), hc1.outside _ _ fun i _ => ho ⟨r, i⟩ List.mem_cons_self]

/-- `q` has the size of `p` and shows `img`. -/
structure Plane.Shows (p q : Plane) (img : Nat → Nat → UInt8) : Prop where
  full : q.Full
  width : q.width = p.width
  height : q.height = p.height
  px : q.px = img

/-- What a filter does that assigns only to the pixels `l`. -/
def Only (f : (Fin 8 → UInt8) → Fin 8 → UInt8) (l : List (Fin 8)) : Prop := ∀ v i, i ∉ l → f v i = v i

theorem filterRows_shows {p : Plane} (hp : p.Full) {f : (Fin 8 → UInt8) → Fin 8 → UInt8} {g : (Fin 8 → Nat) → Fin 8 → Nat} (hfg : f = onPixels g)
    {l : List (Fin 8)} (hf : Only f l) {n x y column : Nat} (hc : column < n) (hy : y + n ≤ p.height)
    (h4 : 4 ≤ x + column) (h8 : x + column + 4 ≤ p.width) :
    ∃ q : Plane, (List.range n).foldlM (filterRow f l n x y column) p = some q ∧ p.Shows q (acrossVertical g n (x + column) y p.px) := by
  obtain ⟨q, hq, hch⟩ := lines_changed (w := p.width) (h := p.height) (n := n) (x := fun _ i => x + column - 4 + i.val) (y := fun r _ => y + r)
    (body := filterRow f l n x y column) (f := f) (fun r s i j _ _ _ h => by omega)
    (fun p' r hr hp' hw hh => by
      unfold filterRow blockAddress
      rw [if_pos ⟨hc, hr⟩, Grid.address_eq hp' (by omega) (by omega), Option.bind_eq_bind, Option.bind_some]
      refine filterLine_changed hp' (fun i => by omega) (fun i => by omega) (fun i j h _ => Fin.ext (by omega)) (fun i => ?_) hf
      push_cast
      have : ((x + column - 4 : Nat) : Int) = x + column - 4 := by omega
      rw [this]; ring)
    (List.range n) p (fun r hr => List.mem_range.1 hr) List.nodup_range hp rfl rfl
  refine ⟨q, hq, hch.full, hch.width, hch.height, funext fun u => funext fun v => ?_⟩
  unfold acrossVertical
  split
  · next h =>
    have := hch.inside ⟨v - y, ⟨u - (x + column - 4), by omega⟩⟩ (List.mem_range.2 (by omega))
    dsimp only at this
    rw [show x + column - 4 + (u - (x + column - 4)) = u by omega, show y + (v - y) = v by omega] at this
    rw [this, hfg]
  · next h =>
    refine hch.outside u v fun k hk he => h ?_
    have := List.mem_range.1 hk
    have := k.2.2
    omega

theorem filterColumns_shows {p : Plane} (hp : p.Full) {f : (Fin 8 → UInt8) → Fin 8 → UInt8} {g : (Fin 8 → Nat) → Fin 8 → Nat}
    (hfg : f = onPixels g) {l : List (Fin 8)} (hf : Only f l) {n x y row : Nat} (hr : row < n) (hx : x + n ≤ p.width)
    (h4 : 4 ≤ y + row) (h8 : y + row + 4 ≤ p.height) :
    ∃ q : Plane, (List.range n).foldlM (filterColumn f l n x y row) p = some q ∧ p.Shows q (acrossHorizontal g n x (y + row) p.px) := by
  obtain ⟨q, hq, hch⟩ := lines_changed (w := p.width) (h := p.height) (n := n) (x := fun c _ => x + c) (y := fun _ i => y + row - 4 + i.val)
    (body := filterColumn f l n x y row) (f := f) (fun r s i j _ _ h _ => by omega)
    (fun p' c hc hp' hw hh => by
      unfold filterColumn blockAddress
      rw [if_pos ⟨hc, hr⟩, Grid.address_eq hp' (by omega) (by omega), Option.bind_eq_bind, Option.bind_some]
      refine filterLine_changed hp' (fun i => by omega) (fun i => by omega) (fun i j _ h => Fin.ext (by omega)) (fun i => ?_) hf
      push_cast
      have : ((y + row - 4 : Nat) : Int) = y + row - 4 := by omega
      rw [this]; ring)
    (List.range n) p (fun r hr => List.mem_range.1 hr) List.nodup_range hp rfl rfl
  refine ⟨q, hq, hch.full, hch.width, hch.height, funext fun u => funext fun v => ?_⟩
  unfold acrossHorizontal
  split
  · next h =>
    have := hch.inside ⟨u - x, ⟨v - (y + row - 4), by omega⟩⟩ (List.mem_range.2 (by omega))
    dsimp only at this
    rw [show y + row - 4 + (v - (y + row - 4)) = v by omega, show x + (u - x) = u by omega] at this
    rw [this, hfg]
  · next h =>
    refine hch.outside u v fun k hk he => h ?_
    have := List.mem_range.1 hk
    have := k.2.2
    omega

theorem Plane.Shows.trans {p q r : Plane} {g h : (Nat → Nat → UInt8) → Nat → Nat → UInt8} (h1 : p.Shows q (g p.px)) (h2 : q.Shows r (h q.px)) :
    p.Shows r (h (g p.px)) := ⟨h2.full, h2.width.trans h1.width, h2.height.trans h1.height, by rw [h2.px, h1.px]⟩

theorem fold_shows {w h : Nat} {ι : Type} {body : Plane → ι → Option Plane} {g : ι → (Nat → Nat → UInt8) → Nat → Nat → UInt8} :
    ∀ (l : List ι), (∀ (p : Plane), ∀ k ∈ l, p.Full → p.width = w → p.height = h → ∃ q : Plane, body p k = some q ∧ p.Shows q (g k p.px)) →
      ∀ (p : Plane), p.Full → p.width = w → p.height = h →
      ∃ q : Plane, l.foldlM body p = some q ∧ p.Shows q (l.foldl (fun img k => g k img) p.px)
  | [], _, p, hp, _, _ => ⟨p, rfl, hp, rfl, rfl, rfl⟩
  | k :: l, hb, p, hp, hw, hh => by
    obtain ⟨p1, h1, hs1⟩ := hb p k List.mem_cons_self hp hw hh
    obtain ⟨q, hq, hs⟩ := fold_shows l (fun p k hk => hb p k (List.mem_cons_of_mem _ hk)) p1 hs1.full (hs1.width.trans hw) (hs1.height.trans hh)
    refine ⟨q, by rw [List.foldlM_cons, h1]; exact hq, hs.full, hs.width.trans hs1.width, hs.height.trans hs1.height, ?_⟩
    rw [hs.px, hs1.px]; rfl

theorem centers_eq {n : Nat} (hn : n = 16 ∨ n = 8) : centers n = (List.range n).filter fun k => 0 < k ∧ 4 ∣ k := by
  rcases hn with rfl | rfl <;> decide

section

variable {f : LoopFilter} {n column row : Nat} {p : Plane}

theorem macroblockLine_eq (f : LoopFilter) : f.macroblockLine = onPixels (macroblock f.interior f.macroblockLimit f.hevThreshold) :=
  funext fun v => macroblockFilter_eq _ _ _ v

theorem subblockLine_eq (f : LoopFilter) : f.subblockLine = onPixels (subblock f.interior f.subblockLimit f.hevThreshold) :=
  funext fun v => subblockFilter_eq _ _ _ v

theorem filterMbVertical_shows (hp : p.Full) (hn : n = 16 ∨ n = 8) (hx : n * column + n ≤ p.width) (hy : n * row + n ≤ p.height)
    (hc : 0 < column) : ∃ q : Plane, filterMbVertical f n column row p = some q ∧
      p.Shows q (acrossVertical (macroblock f.interior f.macroblockLimit f.hevThreshold) n (n * column) (n * row) p.px) := by
  have := Nat.le_mul_of_pos_right n hc
  exact filterRows_shows hp (macroblockLine_eq f) (by rw [macroblockLine_eq]; exact macroblock_only _ _ _) (column := 0) (by omega) hy
    (by omega) (by omega)

theorem filterMbHorizontal_shows (hp : p.Full) (hn : n = 16 ∨ n = 8) (hx : n * column + n ≤ p.width) (hy : n * row + n ≤ p.height)
    (hc : 0 < row) : ∃ q : Plane, filterMbHorizontal f n column row p = some q ∧
      p.Shows q (acrossHorizontal (macroblock f.interior f.macroblockLimit f.hevThreshold) n (n * column) (n * row) p.px) := by
  have := Nat.le_mul_of_pos_right n hc
  exact filterColumns_shows hp (macroblockLine_eq f) (by rw [macroblockLine_eq]; exact macroblock_only _ _ _) (row := 0) (by omega) hx
    (by omega) (by omega)

theorem mem_edges {n k : Nat} (hn : n = 16 ∨ n = 8) (h : k ∈ (List.range n).filter fun k => 0 < k ∧ 4 ∣ k) : 4 ≤ k ∧ k + 4 ≤ n := by
  simp only [List.mem_filter, List.mem_range, decide_eq_true_eq] at h
  omega

theorem filterSbVertical_shows (hp : p.Full) (hn : n = 16 ∨ n = 8) (hx : n * column + n ≤ p.width) (hy : n * row + n ≤ p.height) :
    ∃ q : Plane, filterSbVertical f n column row p = some q ∧
      p.Shows q (((List.range n).filter fun k => 0 < k ∧ 4 ∣ k).foldl
        (fun img k => acrossVertical (subblock f.interior f.subblockLimit f.hevThreshold) n (n * column + k) (n * row) img) p.px) := by
  unfold filterSbVertical
  rw [centers_eq hn]
  refine fold_shows (w := p.width) (h := p.height) _ (fun p' k hk hp' hw hh => ?_) p hp rfl rfl
  have := mem_edges hn hk
  exact filterRows_shows hp' (subblockLine_eq f) (by rw [subblockLine_eq]; exact subblock_only _ _ _) (by omega) (by omega)
    (by omega) (by omega)

theorem filterSbHorizontal_shows (hp : p.Full) (hn : n = 16 ∨ n = 8) (hx : n * column + n ≤ p.width) (hy : n * row + n ≤ p.height) :
    ∃ q : Plane, filterSbHorizontal f n column row p = some q ∧
      p.Shows q (((List.range n).filter fun k => 0 < k ∧ 4 ∣ k).foldl
        (fun img k => acrossHorizontal (subblock f.interior f.subblockLimit f.hevThreshold) n (n * column) (n * row + k) img) p.px) := by
  unfold filterSbHorizontal
  rw [centers_eq hn]
  refine fold_shows (w := p.width) (h := p.height) _ (fun p' k hk hp' hw hh => ?_) p hp rfl rfl
  have := mem_edges hn hk
  exact filterColumns_shows hp' (subblockLine_eq f) (by rw [subblockLine_eq]; exact subblock_only _ _ _) (by omega) (by omega)
    (by omega) (by omega)

end

/-- The macroblock at `column`, `row` is in the picture. -/
structure Raster.Has (r : Raster) (column row : Nat) : Prop where
  y : r.y.Full ∧ 16 * column + 16 ≤ r.y.width ∧ 16 * row + 16 ≤ r.y.height
  u : r.u.Full ∧ 8 * column + 8 ≤ r.u.width ∧ 8 * row + 8 ≤ r.u.height
  v : r.v.Full ∧ 8 * column + 8 ≤ r.v.width ∧ 8 * row + 8 ≤ r.v.height

/-- All three planes show what `g` makes of them, in macroblocks of 16 by 16 and 8 by 8 pixels. -/
structure Raster.Shows (r s : Raster) (g : Nat → (Nat → Nat → UInt8) → Nat → Nat → UInt8) : Prop where
  displayWidth : s.displayWidth = r.displayWidth
  displayHeight : s.displayHeight = r.displayHeight
  y : r.y.Shows s.y (g 16 r.y.px)
  u : r.u.Shows s.u (g 8 r.u.px)
  v : r.v.Shows s.v (g 8 r.v.px)

theorem Raster.Shows.trans {r s t : Raster} {g h : Nat → (Nat → Nat → UInt8) → Nat → Nat → UInt8} (h1 : r.Shows s g) (h2 : s.Shows t h) :
    r.Shows t fun n img => h n (g n img) :=
  ⟨h2.displayWidth.trans h1.displayWidth, h2.displayHeight.trans h1.displayHeight, Plane.Shows.trans (h := h 16) h1.y h2.y,
    Plane.Shows.trans (h := h 8) h1.u h2.u, Plane.Shows.trans (h := h 8) h1.v h2.v⟩

theorem Raster.Shows.has {r s : Raster} {g : Nat → (Nat → Nat → UInt8) → Nat → Nat → UInt8} (h1 : r.Shows s g) {column row : Nat}
    (h : r.Has column row) : s.Has column row :=
  ⟨⟨h1.y.full, by rw [h1.y.width]; exact h.y.2.1, by rw [h1.y.height]; exact h.y.2.2⟩,
    ⟨h1.u.full, by rw [h1.u.width]; exact h.u.2.1, by rw [h1.u.height]; exact h.u.2.2⟩,
    ⟨h1.v.full, by rw [h1.v.width]; exact h.v.2.1, by rw [h1.v.height]; exact h.v.2.2⟩⟩

theorem Raster.Shows.same {r : Raster} {column row : Nat} (h : r.Has column row) : r.Shows r fun _ img => img :=
  ⟨rfl, rfl, ⟨h.y.1, rfl, rfl, rfl⟩, ⟨h.u.1, rfl, rfl, rfl⟩, ⟨h.v.1, rfl, rfl, rfl⟩⟩

theorem onPlanes_shows {column row : Nat} {g : Nat → Nat → Nat → Plane → Option Plane} {s : Nat → (Nat → Nat → UInt8) → Nat → Nat → UInt8}
    (hg : ∀ n (p : Plane), n = 16 ∨ n = 8 → p.Full → n * column + n ≤ p.width → n * row + n ≤ p.height →
      ∃ q : Plane, g n column row p = some q ∧ p.Shows q (s n p.px)) {r : Raster} (h : r.Has column row) :
    ∃ t, onPlanes g column row r = some t ∧ r.Shows t s := by
  obtain ⟨y, hy, sy⟩ := hg 16 r.y (Or.inl rfl) h.y.1 h.y.2.1 h.y.2.2
  obtain ⟨u, hu, su⟩ := hg 8 r.u (Or.inr rfl) h.u.1 h.u.2.1 h.u.2.2
  obtain ⟨v, hv, sv⟩ := hg 8 r.v (Or.inr rfl) h.v.1 h.v.2.1 h.v.2.2
  refine ⟨{ r with y, u, v }, ?_, rfl, rfl, sy, su, sv⟩
  rw [onPlanes, hy, hu, hv]; rfl

theorem stepIf_shows {c : Bool} {g : Raster → Option Raster} {s : Nat → (Nat → Nat → UInt8) → Nat → Nat → UInt8} {r : Raster} {column row : Nat}
    (hr : r.Has column row) (h : c = true → ∃ t, g r = some t ∧ r.Shows t s) :
    ∃ t, stepIf c g r = some t ∧ r.Shows t fun n img => if c then s n img else img := by
  cases c
  · exact ⟨r, rfl, by simpa using Raster.Shows.same hr⟩
  · simpa [stepIf] using h rfl

theorem apply_shows {params : FilterParameters} (keyFrame : Bool) (hs : params.sharpness ≤ 7) (skip : Bool) {column row : Nat} {r : Raster}
    (hr : r.Has column row) : ∃ t, (params.filter keyFrame).apply skip column row r = some t ∧
      r.Shows t fun n => LoopFilterSpec.block keyFrame (limit63 params.level) params.sharpness (!skip) n column row := by
  rw [filter_eq params keyFrame hs]
  generalize hf : ({ level := _, interior := _, macroblockLimit := _, subblockLimit := _, hevThreshold := _ } : LoopFilter) = f
  obtain ⟨r1, h1, s1⟩ := stepIf_shows (c := decide (column > 0)) (g := onPlanes (filterMbVertical f) column row) hr fun hc =>
    onPlanes_shows (s := fun n => acrossVertical (macroblock f.interior f.macroblockLimit f.hevThreshold) n (n * column) (n * row))
      (fun n p hn hp hx hy => filterMbVertical_shows hp hn hx hy (of_decide_eq_true hc)) hr
  have hr1 := s1.has hr
  obtain ⟨r2, h2, s2⟩ := stepIf_shows (c := !skip) (g := onPlanes (filterSbVertical f) column row) hr1 fun hc =>
    onPlanes_shows (s := fun n img => ((List.range n).filter fun k => 0 < k ∧ 4 ∣ k).foldl
        (fun img k => acrossVertical (subblock f.interior f.subblockLimit f.hevThreshold) n (n * column + k) (n * row) img) img)
      (fun n p hn hp hx hy => filterSbVertical_shows hp hn hx hy) hr1
  have hr2 := s2.has hr1
  obtain ⟨r3, h3, s3⟩ := stepIf_shows (c := decide (row > 0)) (g := onPlanes (filterMbHorizontal f) column row) hr2 fun hc =>
    onPlanes_shows (s := fun n => acrossHorizontal (macroblock f.interior f.macroblockLimit f.hevThreshold) n (n * column) (n * row))
      (fun n p hn hp hx hy => filterMbHorizontal_shows hp hn hx hy (of_decide_eq_true hc)) hr2
  have hr3 := s3.has hr2
  obtain ⟨r4, h4, s4⟩ := stepIf_shows (c := !skip) (g := onPlanes (filterSbHorizontal f) column row) hr3 fun hc =>
    onPlanes_shows (s := fun n img => ((List.range n).filter fun k => 0 < k ∧ 4 ∣ k).foldl
        (fun img k => acrossHorizontal (subblock f.interior f.subblockLimit f.hevThreshold) n (n * column) (n * row + k) img) img)
      (fun n p hn hp hx hy => filterSbHorizontal_shows hp hn hx hy) hr3
  refine ⟨r4, ?_, ?_⟩
  · simp only [LoopFilter.apply, h1, h2, h3, h4, Option.bind_eq_bind, Option.bind_some]
  · have := ((s1.trans s2).trans s3).trans s4
    subst hf
    simp only [decide_eq_true_eq] at this
    exact this

end Alfalfa
