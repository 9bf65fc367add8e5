import Verif.Proof.Inter

/-! C35, C36, C37: reading outside of a picture and motion-compensated prediction. -/

namespace Alfalfa

open InterSpec

/-- **C35** (the view): reading a reference picture through the edge-extending view gives, for all coordinates, the pixel at the
nearest coordinates in the picture. -/
theorem C35_view {p : Plane} (hp : p.Full) (x y : Int) : edgeExtended p x y = some (extended p x y) := edgeExtended_eq hp x y

theorem paddedRow_eq {p : Plane} (hp : p.Full) {y : Nat} (hy : y < p.height) :
    ∃ row, paddedRow p y = some row ∧ row.length = p.width + 512 ∧
      ∀ i, i < p.width + 512 → row[i]? = some (p.px (nearestIndex ((i : Int) - 256) p.width) y) := by
  have hw := hp.width
  unfold paddedRow
  rw [Plane.px_eq hp hw hy, Plane.px_eq hp (by omega : p.width - 1 < p.width) hy, Grid.address_eq hp hw hy,
    Option.bind_eq_bind, Option.bind_some, Option.bind_eq_bind, Option.bind_some,
    allSome_some (g := fun i : Fin p.width => p.px i y) fun i => Plane.load_eq hp i.2 hy (by push_cast; omega)]
  have hM : marginWidth = 256 := rfl
  generalize marginWidth = M at hM ⊢
  refine ⟨_, rfl, ?_, fun i hi => ?_⟩
  · simp only [List.length_append, List.length_replicate, List.length_ofFn]; omega
  by_cases h1 : i < M
  · rw [List.getElem?_append_left (by rwa [List.length_replicate]), List.getElem?_replicate, if_pos h1,
      show nearestIndex ((i : Int) - 256) p.width = 0 by unfold nearestIndex; omega]
  · rw [List.getElem?_append_right (by rw [List.length_replicate]; omega), List.length_replicate]
    by_cases h2 : i - M < p.width
    · rw [List.getElem?_append_left (by rwa [List.length_ofFn]),
        show nearestIndex ((i : Int) - 256) p.width = i - M by unfold nearestIndex; omega, List.getElem?_ofFn, dif_pos h2]
    · rw [List.getElem?_append_right (by rw [List.length_ofFn]; omega), List.getElem?_replicate, List.length_ofFn,
        if_pos (by omega), show nearestIndex ((i : Int) - 256) p.width = p.width - 1 by unfold nearestIndex; omega]

/-- **C35** (the padded copy): the padded copy of a picture can always be made, and within its margin of 256 pixels reading it
gives the pixel at the nearest coordinates in the picture, hence the same as the view; outside of the margin there is nothing to
read. -/
theorem C35_padded {p : Plane} (hp : p.Full) : ∃ rows, safeRaster p = some rows ∧ ∀ x y : Int,
    safeAt rows x y = if -256 ≤ x ∧ x < p.width + 256 ∧ -256 ≤ y ∧ y < p.height + 256 then some (extended p x y) else none := by
  have hh := hp.height
  let source (nrow : Nat) := nearestIndex ((nrow : Int) - 256) p.height
  have hs : ∀ nrow, source nrow < p.height := fun nrow => nearestIndex_lt _ hh
  choose row hrow hlen hval using fun nrow => paddedRow_eq hp (hs nrow)
  have hm : safeRaster p = some ((List.range (p.height + marginWidth * 2)).map row) := by
    unfold safeRaster
    rw [show some ((List.range (p.height + marginWidth * 2)).map row) = (List.range (p.height + marginWidth * 2)).mapM
      fun nrow => (pure (row nrow) : Option (List UInt8)) from (List.mapM_pure (m := Option)).symm]
    congr 1; funext nrow
    rw [show (pure (row nrow) : Option (List UInt8)) = some (row nrow) from rfl, ← hrow nrow]
    have hM : marginWidth = 256 := rfl
    split
    · refine congrArg (paddedRow p) ?_; simp only [source, nearestIndex]; omega
    · split
      · refine congrArg (paddedRow p) ?_; simp only [source, nearestIndex]; omega
      · refine congrArg (paddedRow p) ?_; simp only [source, nearestIndex]; omega
  refine ⟨_, hm, fun x y => ?_⟩
  unfold safeAt
  rw [List.getElem?_map, show ((marginWidth : Nat) : Int) = 256 from rfl]
  by_cases hin : -256 ≤ x ∧ x < p.width + 256 ∧ -256 ≤ y ∧ y < p.height + 256
  · rw [if_pos (by omega), if_pos hin, List.getElem?_range (by simp only [marginWidth]; omega)]
    simp only [Option.map_some, Option.bind_some]
    rw [hval _ _ (by omega)]
    refine congrArg some (congrArg₂ p.px ?_ ?_)
    · simp only [nearestIndex]; omega
    · simp only [source, nearestIndex]; omega
  · rw [if_neg hin]
    split
    · by_cases hy : (256 + y).toNat < p.height + marginWidth * 2
      · rw [List.getElem?_range hy]
        simp only [Option.map_some, Option.bind_some]
        refine List.getElem?_eq_none ?_
        rw [hlen]
        simp only [marginWidth] at hy
        omega
      · rw [List.getElem?_eq_none (by simpa using hy)]; rfl
    · rfl

/-- **C36** (independence of the path): where the fast path is selected it reads only pixels of the picture and gives the same
pixels as the edge-extended one; `0 ≤ x - 2` and so on is the selection. -/
theorem C36_paths_agree {reference : Plane} (hp : reference.Full) (n : Nat) (mv : MotionVector) {x y : Int}
    (h1 : 0 ≤ x - 2) (h2 : x + n + 3 ≤ reference.width) (h3 : 0 ≤ y - 2) (h4 : y + n + 3 ≤ reference.height) :
    unsafeInterPredict n reference reference.width mv x y = safeInterPredict n (edgeExtended reference) mv x y ∧
    (unsafeInterPredict n reference reference.width mv x y).isSome := by
  rw [unsafeInterPredict_eq hp n mv h1 h2 h3 h4, safeInterPredict_eq hp]; exact ⟨rfl, rfl⟩

/-- **C36**: for every block inside a picture, motion vector and reference picture of the same width, prediction succeeds, and each
pixel of the block becomes the six-tap interpolation of the edge-extended reference at the displaced position, in eighths of a
pixel; no other pixel changes. -/
theorem C36_inter_prediction {p reference : Plane} (hp : p.Full) (hr : reference.Full) (hw : reference.width = p.width) {n : Nat}
    (mv : MotionVector) {column row : Nat} (hx : n * column + n ≤ p.width) (hy : n * row + n ≤ p.height) :
    ∃ q : Plane, interPredict n p reference mv column row = some q ∧ p.Painted q (n * column) (n * row) (fun c r : Fin n =>
      UInt8.ofNat (interpolated reference (8 * ((n * column + c : Nat) : Int) + mv.x) (8 * ((n * row + r : Nat) : Int) + mv.y))) := by
  unfold interPredict
  rw [show p.subRange n (n * column) (n * row) = some () by unfold Grid.subRange; rw [if_pos ⟨hx, hy⟩], ← hw, interSquare_eq hr]
  exact Plane.putSquare_spec hp _ hx hy

/-- Outside of the picture the block cannot be predicted: the hypotheses of `C36_inter_prediction` are the assertions of the block
itself. -/
theorem C36_only_inside {p reference : Plane} {n : Nat} (mv : MotionVector) {column row : Nat}
    (h : ¬ (n * column + n ≤ p.width ∧ n * row + n ≤ p.height)) : interPredict n p reference mv column row = none := by
  unfold interPredict Grid.subRange; rw [if_neg h]; rfl

/-- **C37** (range): an interpolated value is a pixel value, so that the conversion to a byte in `C36_inter_prediction` changes
nothing. -/
theorem C37_range (p : Plane) (x y : Int) : interpolated p x y ≤ 255 := between_le _ _

/-- **C37** (whole-pixel motion): the prediction is a copy of the displaced reference. -/
theorem C37_whole_pixel {p reference : Plane} (hp : p.Full) (hr : reference.Full) (hw : reference.width = p.width) {n : Nat}
    (dx dy : Int) {column row : Nat} (hx : n * column + n ≤ p.width) (hy : n * row + n ≤ p.height) :
    ∃ q : Plane, interPredict n p reference { x := 8 * dx, y := 8 * dy } column row = some q ∧
      p.Painted q (n * column) (n * row) (fun c r : Fin n =>
        extended reference ((n * column + c : Nat) + dx) ((n * row + r : Nat) + dy)) := by
  obtain ⟨q, hq, hpaint⟩ := C36_inter_prediction hp hr hw { x := 8 * dx, y := 8 * dy } hx hy
  refine ⟨q, hq, ?_⟩
  have e : ∀ (i : Nat) (d : Int), (8 * (i : Int) + 8 * d) % 8 = 0 ∧ (8 * (i : Int) + 8 * d) / 8 = i + d := fun i d => by omega
  simp only [interpolated_whole reference (e _ _).1 (e _ _).1, ofNat_toNat, (e _ _).2] at hpaint
  exact hpaint

/-- **C37** (flat areas): on a constant reference every motion vector predicts the constant. -/
theorem C37_constant {p reference : Plane} (hp : p.Full) (hr : reference.Full) (hw : reference.width = p.width) {n : Nat} {v : UInt8}
    (hv : ∀ x y, x < reference.width → y < reference.height → reference.px x y = v)
    (mv : MotionVector) {column row : Nat} (hx : n * column + n ≤ p.width) (hy : n * row + n ≤ p.height) :
    ∃ q : Plane, interPredict n p reference mv column row = some q ∧ p.Painted q (n * column) (n * row) (fun _ _ : Fin n => v) := by
  obtain ⟨q, hq, hpaint⟩ := C36_inter_prediction hp hr hw mv hx hy
  refine ⟨q, hq, ?_⟩
  have he : ∀ x y, extended reference x y = v := fun x y => hv _ _ (nearestIndex_lt _ hr.width) (nearestIndex_lt _ hr.height)
  have hc : ∀ x y, interpolated reference x y = v.toNat := fun x y => by
    unfold interpolated
    simp only [he]
    rw [between_const ⟨(x % 8).toNat, by omega⟩, ofNat_toNat, between_const ⟨(y % 8).toNat, by omega⟩]
  simp only [hc, ofNat_toNat] at hpaint
  exact hpaint

/-- A filter of position 0 changes nothing: a version that leaves out the pass of a direction without a fraction, as the SSE one does,
computes the same. -/
theorem C37_skipped_pass (x : Fin 6 → UInt8) : sixtap (sixtapFilters 0) x = x 2 := by
  rw [sixtap_eq, show ((0 : Fin 8) : Nat) = 0 from rfl, between_zero, ofNat_toNat]

/-! ### The hypotheses are met -/

/-- A picture of 24 by 24 pixels that is not constant. -/
def slope : Plane := { width := 24, height := 24, cells := (List.range 576).map fun k => UInt8.ofNat (k % 24 * 7 + k / 24 * 3) }

theorem slope_full : slope.Full := ⟨by decide, by decide, by decide, by decide +kernel⟩

/-- A vector of 1 3/8 pixels to the right and 5/8 down for the block at 8, 8, on the fast path; the pixel 8, 8 is predicted from a
slope of 7 and 3 per pixel. -/
example : ∃ q, interPredict 8 slope slope { x := 11, y := 5 } 1 1 = some q ∧ q.px 8 8 = 92 ∧ slope.px 8 8 = 80 ∧ q.px 7 8 = slope.px 7 8 := by
  obtain ⟨q, hq, hpaint⟩ := C36_inter_prediction slope_full slope_full rfl (n := 8) { x := 11, y := 5 } (column := 1) (row := 1)
    (by decide) (by decide)
  have h := hpaint.inside 0 0
  have ho := hpaint.outside 7 8 (by decide) (by decide) (by decide)
  exact ⟨q, hq, h.trans (by decide +kernel), by decide +kernel, ho⟩

/-- The same block displaced to the left of the picture, on the edge-extended path. -/
example : ∃ q, interPredict 8 slope slope { x := -160, y := 5 } 1 1 = some q ∧ q.px 8 8 = extended slope (-12) 8 + 2 := by
  obtain ⟨q, hq, hpaint⟩ := C36_inter_prediction slope_full slope_full rfl (n := 8) { x := -160, y := 5 } (column := 1) (row := 1)
    (by decide) (by decide)
  exact ⟨q, hq, (hpaint.inside 0 0).trans (by decide +kernel)⟩

example : ∃ rows, safeRaster slope = some rows ∧ safeAt rows (-256) 30 = some 69 ∧ safeAt rows (-257) 30 = none := by
  obtain ⟨rows, h, hv⟩ := C35_padded slope_full
  exact ⟨rows, h, by rw [hv, if_pos (by decide)]; decide +kernel, by rw [hv, if_neg (by decide)]⟩

end Alfalfa
