import Verif.Model.Search
import Verif.Spec.Macroblock
import Verif.Props.Inter
import Mathlib.Algebra.Order.Group.Unbundled.Int
import Mathlib.Algebra.Order.Group.Abs

/-! C66: the motion search. -/

namespace Alfalfa

/-- Two references that agree on the pixels that the filter may touch. -/
theorem safeInterPredict_congr {n : Nat} {f g : Int → Int → Option UInt8} (mv : MotionVector) {sc sr : Int}
    (h : ∀ x y, sc - 2 ≤ x → x ≤ sc + n + 2 → sr - 2 ≤ y → y ≤ sr + n + 2 → f x y = g x y) :
    safeInterPredict n f mv sc sr = safeInterPredict n g mv sc sr := by
  unfold safeInterPredict
  split
  · congr 1; funext c; congr 1; funext r
    have := c.2; have := r.2
    exact h _ _ (by omega) (by omega) (by omega) (by omega)
  · have e : (allSome fun r : Fin (n + 5) => allSome fun c : Fin n => do
        let x ← allSome fun k : Fin 6 => f (sc + c.val - 2 + k.val) (sr + r.val - 2)
        pure (sixtap (sixtapFilters (fraction mv.x)) x)) = (allSome fun r : Fin (n + 5) => allSome fun c : Fin n => do
        let x ← allSome fun k : Fin 6 => g (sc + c.val - 2 + k.val) (sr + r.val - 2)
        pure (sixtap (sixtapFilters (fraction mv.x)) x)) := by
      congr 1; funext r; congr 1; funext c
      have hk : (fun k : Fin 6 => f (sc + c.val - 2 + k.val) (sr + r.val - 2)) = fun k : Fin 6 => g (sc + c.val - 2 + k.val) (sr + r.val - 2) := by
        funext k
        have := c.2; have := r.2; have := k.2
        exact h _ _ (by omega) (by omega) (by omega) (by omega)
      rw [hk]
    rw [e]

/-- The block at `mv` from the macroblock at `column`, `row`, with the pixels next to it that the filter needs, is within the margin. -/
structure InMargin (p : Plane) (mv : MotionVector) (column row : Nat) : Prop where
  left : -254 ≤ (column * 16 : Nat) + mv.x / 8
  right : (column * 16 : Nat) + mv.x / 8 + 18 < p.width + 256
  top : -254 ≤ (row * 16 : Nat) + mv.y / 8
  bottom : (row * 16 : Nat) + mv.y / 8 + 18 < p.height + 256

theorem shr3_div (a : Int) : a >>> 3 = a / 8 := by rw [Int.shiftRight_eq_div_pow]; rfl

/-- Within the margin the search sees what the decoder will predict. -/
theorem searchPredict_eq {p : Plane} (hp : p.Full) {rows : List (List UInt8)} (hr : safeRaster p = some rows) {mv : MotionVector} {column row : Nat}
    (h : InMargin p mv column row) : searchPredict rows mv column row = interSquare 16 p p.width mv column row := by
  obtain ⟨rows', hr', hs⟩ := C35_padded hp
  rw [hr] at hr'
  cases hr'
  unfold searchPredict
  rw [safeInterPredict_congr (g := edgeExtended p) mv (fun x y h1 h2 h3 h4 => by
    rw [shr3_div] at h1 h2 h3 h4
    obtain ⟨a, b, c, d⟩ := h
    rw [hs, if_pos (by omega), edgeExtended_eq hp])]
  unfold interSquare
  dsimp only
  split
  · rfl
  · next hn =>
    push Not at hn
    rw [unsafeInterPredict_eq hp 16 mv (by omega) (by omega) (by omega) (by omega), safeInterPredict_eq hp]

/-- Outside of the margin there is nothing to read. -/
theorem searchPredict_none {p : Plane} (hp : p.Full) {rows : List (List UInt8)} (hr : safeRaster p = some rows) {mv : MotionVector} {column row : Nat}
    (h : (column * 16 : Nat) + mv.x / 8 < -256) : searchPredict rows mv column row = none := by
  obtain ⟨rows', hr', hs⟩ := C35_padded hp
  rw [hr] at hr'
  cases hr'
  have hn : ∀ y, safeAt rows ((column * 16 : Nat) + mv.x / 8) y = none := fun y => by rw [hs, if_neg (by omega)]
  have hn2 : ∀ y, safeAt rows ((column * 16 : Nat) + mv.x / 8 - 2) y = none := fun y => by rw [hs, if_neg (by omega)]
  have allNone : ∀ {n : Nat} {T : Type} {f : Fin (n + 1) → Option T}, f 0 = none → allSome f = none := by
    intro n T f hf
    cases h : allSome f with
    | none => rfl
    | some g => have := (allSome_iff.mp h) 0; rw [hf] at this; cases this
  unfold searchPredict safeInterPredict
  simp only [shr3_div]
  split
  · exact allNone (n := 15) (allNone (n := 15) (by simpa using hn _))
  · rw [allNone (n := 20) (allNone (n := 15) (by rw [allNone (n := 5) (by simpa using hn2 _)]; rfl))]
    rfl

/-! ### The search -/

/-- A difference of vectors that the search may hold: even and in bounds. -/
structure Searched (v : MotionVector) : Prop where
  x : v.x % 2 = 0 ∧ -1023 ≤ v.x ∧ v.x ≤ 1023
  y : v.y % 2 = 0 ∧ -1023 ≤ v.y ∧ v.y ≤ 1023

theorem searched_zero : Searched {} := ⟨by decide, by decide⟩

theorem toInt16_id {a : Int} (h : -32768 ≤ a ∧ a ≤ 32767) : toInt16 a = a := by
  unfold toInt16
  rw [Int.bmod_def]
  split <;> omega

/-- A vector kept within the picture by `Scorer::clamp`. -/
theorem clampMv_bounds (v : MotionVector) (c : MBContext) (hc : c.column < c.width) (hr : c.row < c.height) :
    -(c.column * 128 : Nat) - 128 ≤ (clampMv v c).x ∧ (clampMv v c).x ≤ ((c.width - 1 - c.column) * 128 : Nat) + 128 ∧
    -(c.row * 128 : Nat) - 128 ≤ (clampMv v c).y ∧ (clampMv v c).y ≤ ((c.height - 1 - c.row) * 128 : Nat) + 128 ∧
    -32768 ≤ (clampMv v c).x ∧ (clampMv v c).x ≤ 32767 ∧ -32768 ≤ (clampMv v c).y ∧ (clampMv v c).y ≤ 32767 := by
  unfold clampMv MotionVector.clamp
  dsimp only
  omega

/-- The reference picture contains the one of the frame, moved so that the macroblock comes to the place that is searched. -/
structure Search.Fits (s : Search) (p : Plane) : Prop where
  full : p.Full
  rows : safeRaster p = some s.rows
  width : 16 * (s.context.width - s.context.column + s.place.1) ≤ p.width
  height : 16 * (s.context.height - s.context.row + s.place.2) ≤ p.height
  column : s.context.column < s.context.width
  row : s.context.row < s.context.height
  left : s.context.column ≤ s.place.1
  above : s.context.row ≤ s.place.2

/-- The reference picture is the one of the frame. -/
theorem Search.Fits.own {rows : List (List UInt8)} {c : MBContext} {cost : MotionVector → Square 16 → Nat} {p : Plane} (hp : p.Full)
    (h : safeRaster p = some rows) (hw : p.width = 16 * c.width) (hh : p.height = 16 * c.height) (hc : c.column < c.width) (hr : c.row < c.height) :
    Search.Fits { rows, context := c, cost } p :=
  ⟨hp, h, by dsimp only; omega, by dsimp only; omega, hc, hr, Nat.le_refl _, Nat.le_refl _⟩

theorem Search.Fits.clamped {s : Search} {p : Plane} (hs : s.Fits p) (v : MotionVector) :
    InMargin p (clampMv v s.context) s.place.1 s.place.2 := by
  have h := clampMv_bounds v s.context hs.column hs.row
  have h1 := hs.column; have h2 := hs.row; have h3 := hs.width; have h4 := hs.height; have h5 := hs.left; have h6 := hs.above
  generalize clampMv v s.context = m at *
  generalize s.context.column = column at *
  generalize s.context.row = row at *
  exact ⟨by omega, by omega, by omega, by omega⟩

theorem site_vector {origin : MotionVector} (ho : Searched origin) {step : Nat} (h9 : step ≤ 512) {site : Int × Int} (hm : site ∈ checkSites) :
    ({} : MotionVector).add (origin.add { x := toInt16 (step * site.1), y := toInt16 (step * site.2) }) =
      { x := origin.x + step * site.1, y := origin.y + step * site.2 } := by
  obtain ⟨⟨-, hx1, hx2⟩, ⟨-, hy1, hy2⟩⟩ := ho
  have hsite : (site.1 = -1 ∨ site.1 = 0 ∨ site.1 = 1) ∧ (site.2 = -1 ∨ site.2 = 0 ∨ site.2 = 1) := by
    clear * - hm; revert hm; simp only [checkSites, List.mem_cons, List.not_mem_nil, or_false]
    rintro (rfl | rfl | rfl | rfl | rfl) <;> simp
  have key : ∀ {o t : Int}, -1023 ≤ o → o ≤ 1023 → (t = -1 ∨ t = 0 ∨ t = 1) → toInt16 (0 + toInt16 (o + toInt16 (step * t))) = o + step * t := by
    intro o t h1 h2 ht
    rcases ht with rfl | rfl | rfl
    all_goals
      rw [toInt16_id (a := (step : Int) * _) (by omega), Int.zero_add, toInt16_id (a := o + _) (by omega), toInt16_id (by omega)]
  show MotionVector.mk _ _ = _
  exact congrArg₂ MotionVector.mk (key hx1 hx2 hsite.1) (key hy1 hy2 hsite.2)

theorem siteStep_ok {s : Search} {p : Plane} (hs : s.Fits p) (base : MotionVector) {origin : MotionVector} (ho : Searched origin) {step : Nat}
    (h2 : step % 2 = 0) (h9 : step ≤ 512) {best : Nat × MotionVector} (hb : Searched best.2) {site : Int × Int} (hm : site ∈ checkSites) :
    ∃ b, siteStep s base origin step best site = some b ∧ Searched b.2 := by
  unfold siteStep
  dsimp only
  rw [site_vector ho h9 hm]
  have hx : (origin.x + step * site.1) % 2 = 0 := by
    rw [Int.add_emod, ho.x.1, Int.mul_emod, show (step : Int) % 2 = 0 by omega]; simp
  have hy : (origin.y + step * site.2) % 2 = 0 := by
    rw [Int.add_emod, ho.y.1, Int.mul_emod, show (step : Int) % 2 = 0 by omega]; simp
  generalize origin.x + step * site.1 = x at *
  generalize origin.y + step * site.2 = y at *
  have hq := searchPredict_eq hs.full hs.rows (hs.clamped ((MotionVector.mk x y).add base))
  rw [interSquare_eq hs.full] at hq
  split
  · exact ⟨_, rfl, hb⟩
  · next hob =>
    rw [hq, Option.bind_eq_bind, Option.bind_some]
    refine ⟨_, rfl, ?_⟩
    split
    · simp only [outOfBounds, Bool.or_eq_true, decide_eq_true_eq, not_or] at hob
      show Searched { x, y }
      exact ⟨⟨hx, by dsimp only; omega, by dsimp only; omega⟩, ⟨hy, by dsimp only; omega, by dsimp only; omega⟩⟩
    · exact hb

theorem sites_ok {s : Search} {p : Plane} (hs : s.Fits p) (base : MotionVector) {origin : MotionVector} (ho : Searched origin) {step : Nat}
    (h2 : step % 2 = 0) (h9 : step ≤ 512) : ∀ (l : List (Int × Int)), (∀ a ∈ l, a ∈ checkSites) → ∀ {best : Nat × MotionVector}, Searched best.2 →
    ∃ b, l.foldlM (siteStep s base origin step) best = some b ∧ Searched b.2
  | [], _, best, hb => ⟨best, rfl, hb⟩
  | a :: l, hl, best, hb => by
    obtain ⟨b, e, hb'⟩ := siteStep_ok hs base ho h2 h9 hb (hl a (List.mem_cons_self ..))
    rw [List.foldlM_cons, e]
    exact sites_ok hs base ho h2 h9 l (fun x hx => hl x (List.mem_cons_of_mem _ hx)) hb'

theorem diamondLoop_ok {s : Search} {p : Plane} (hs : s.Fits p) (base : MotionVector) : ∀ (k : Nat), k ≤ 9 → ∀ {origin : MotionVector} {first j : Nat},
    Searched origin → first = 2 ^ j → ∃ r, diamondLoop s base origin first (2 ^ k) = some r ∧ Searched r.1 ∧ (r.2 = first ∨ ∃ i, i < k ∧ r.2 = 2 ^ i)
  | 0, _, origin, first, j, ho, hf => by
    unfold diamondLoop
    rw [dif_neg (by decide)]
    exact ⟨_, rfl, ho, Or.inl rfl⟩
  | k + 1, hk, origin, first, j, ho, hf => by
    have hpos : 0 < 2 ^ k := Nat.two_pow_pos k
    have hp : 2 ^ (k + 1) = 2 * 2 ^ k := by rw [Nat.pow_succ]; omega
    have h9 : 2 ^ (k + 1) ≤ 512 := (Nat.pow_le_pow_right (by decide) hk).trans (by decide)
    obtain ⟨b, e, hb⟩ := sites_ok hs base ho (by omega) h9 checkSites (fun _ h => h) (best := (2 ^ 32 - 1, {})) searched_zero
    have hd : 2 ^ (k + 1) / 2 = 2 ^ k := by omega
    unfold diamondLoop
    rw [dif_pos (by omega), e, Option.bind_eq_bind, Option.bind_some, hd]
    split
    · obtain ⟨r, hr, h1, h2⟩ := diamondLoop_ok hs base k (by omega) (first := 2 ^ k) hb rfl
      refine ⟨r, hr, h1, Or.inr ?_⟩
      rcases h2 with h2 | ⟨i, hi, h2⟩
      · exact ⟨k, by omega, h2⟩
      · exact ⟨i, by omega, h2⟩
    · obtain ⟨r, hr, h1, h2⟩ := diamondLoop_ok hs base k (by omega) (first := first) hb hf
      refine ⟨r, hr, h1, ?_⟩
      rcases h2 with h2 | ⟨i, hi, h2⟩
      · exact Or.inl h2
      · exact Or.inr ⟨i, by omega, h2⟩

theorem newVectorLoop_ok {s : Search} {p : Plane} (hs : s.Fits p) (base : MotionVector) : ∀ (k : Nat), k ≤ 9 → ∀ {mv : MotionVector}, Searched mv →
    ∃ d, newVectorLoop s base mv (2 ^ k) = some d ∧ Searched d := by
  intro k
  induction k using Nat.strong_induction_on with
  | _ k ih =>
    intro hk mv hm
    unfold newVectorLoop
    cases k with
    | zero => rw [if_neg (by decide)]; exact ⟨_, rfl, hm⟩
    | succ k =>
      have hpos : 0 < 2 ^ k := Nat.two_pow_pos k
      have hp : 2 ^ (k + 1) = 2 * 2 ^ k := by rw [Nat.pow_succ]; omega
      rw [if_pos (by omega)]
      obtain ⟨r, hr, h1, h2⟩ := diamondLoop_ok hs (clampMv base s.context) (k + 1) hk (first := 2 ^ k) (j := k) hm rfl
      have hd : 2 ^ (k + 1) / 2 = 2 ^ k := by omega
      unfold diamondSearch
      rw [hd, hr, Option.bind_eq_bind, Option.bind_some]
      split
      · exact ⟨_, rfl, hm⟩
      · obtain ⟨i, hi, e⟩ : ∃ i, i < k + 1 ∧ r.2 = 2 ^ i := by
          rcases h2 with h2 | h2
          · exact ⟨k, by omega, h2⟩
          · exact h2
        have hlt : 2 ^ i < 2 ^ (k + 1) := Nat.pow_lt_pow_right (by decide) hi
        rw [dif_pos (by omega), e]
        exact ih i hi (by omega) h1

/-- **C66** (the search): for every reference picture, macroblock, neighbourhood, starting vector and costs, the search ends, has only read
pixels of the padded copy, and has found a difference that the bitstream can carry. -/
theorem C66_search {s : Search} {p : Plane} (hs : s.Fits p) (base : MotionVector) :
    ∃ d, newVector s base = some d ∧ CodableComponent d.x ∧ CodableComponent d.y ∧ |d.x| ≤ 1022 ∧ |d.y| ≤ 1022 := by
  obtain ⟨d, h, hx, hy⟩ := newVectorLoop_ok hs base 9 (by decide) searched_zero
  refine ⟨d, h, ⟨hx.1, by omega, by omega⟩, ⟨hy.1, by omega, by omega⟩, ?_, ?_⟩ <;> rw [abs_le] <;> omega

/-- **C66** (the tables): the cost tables have an entry for each difference that is tried or found. -/
theorem C66_costs {costs sad : Bool → Bool → List Nat} (hc : ∀ a b, (costs a b).length = 1024) (hs : ∀ a b, (sad a b).length = 256)
    {v : MotionVector} (hx : |v.x| ≤ 1023) (hy : |v.y| ≤ 1023) (weight : Nat) :
    (vectorCost costs v weight).isSome = true ∧ (sadVectorCost sad v weight).isSome = true := by
  rw [abs_le] at hx hy
  constructor
  · unfold vectorCost
    rw [List.getElem?_eq_getElem (by rw [hc]; omega), List.getElem?_eq_getElem (by rw [hc]; omega)]
    rfl
  · unfold sadVectorCost
    dsimp only
    rw [List.getElem?_eq_getElem (by rw [hs]; omega), List.getElem?_eq_getElem (by rw [hs]; omega)]
    rfl

/-- **C66** (the new vector): in pictures of at most 248 macroblocks (3968 pixels) in each direction, the prediction at the vector found,
the kept vector of the neighbours plus the difference, is the one the decoder will make. -/
theorem C66_prediction {s : Search} {p : Plane} (hs : s.Fits p) (hw : s.context.width ≤ 248) (hh : s.context.height ≤ 248) (v : MotionVector)
    {d : MotionVector} (hx : |d.x| ≤ 1023) (hy : |d.y| ≤ 1023) :
    searchPredict s.rows (d.add (clampMv v s.context)) s.place.1 s.place.2 =
      interSquare 16 p p.width (d.add (clampMv v s.context)) s.place.1 s.place.2 ∧
    (searchPredict s.rows (d.add (clampMv v s.context)) s.place.1 s.place.2).isSome = true := by
  rw [abs_le] at hx hy
  have h := clampMv_bounds v s.context hs.column hs.row
  have h1 := hs.column; have h2 := hs.row; have h3 := hs.width; have h4 := hs.height; have h5 := hs.left; have h6 := hs.above
  have hm : InMargin p (d.add (clampMv v s.context)) s.place.1 s.place.2 := by
    generalize clampMv v s.context = m at *
    generalize s.context.column = column at *
    generalize s.context.row = row at *
    have e1 : (d.add m).x = d.x + m.x := toInt16_id (by omega)
    have e2 : (d.add m).y = d.y + m.y := toInt16_id (by omega)
    exact ⟨by rw [e1]; omega, by rw [e1]; omega, by rw [e2]; omega, by rw [e2]; omega⟩
  rw [searchPredict_eq hs.full hs.rows hm, interSquare_eq hs.full]
  exact ⟨rfl, rfl⟩

/-- **C66** (the vectors of the neighbours, and zero): for pictures of any size. -/
theorem C66_neighbours {s : Search} {p : Plane} (hs : s.Fits p) (v : MotionVector) :
    searchPredict s.rows (clampMv v s.context) s.place.1 s.place.2 =
      interSquare 16 p p.width (clampMv v s.context) s.place.1 s.place.2 ∧
    (searchPredict s.rows (clampMv v s.context) s.place.1 s.place.2).isSome = true := by
  rw [searchPredict_eq hs.full hs.rows (hs.clamped v), interSquare_eq hs.full]
  exact ⟨rfl, rfl⟩

/-! ### The hypotheses are met, and are needed -/

/-- A picture of one colour, `w` by `h` macroblocks. -/
def flatPlane (w h : Nat) : Plane := { width := 16 * w, height := 16 * h, cells := List.replicate (16 * w * (16 * h)) 128 }

theorem flatPlane_full {w h : Nat} (hw : 0 < w) (hh : 0 < h) (hs : 16 * w * (16 * h) < 2 ^ 32) : (flatPlane w h).Full :=
  ⟨by show 0 < 16 * w; omega, by show 0 < 16 * h; omega, hs, List.length_replicate ..⟩

/-- The macroblock above has the vector `v`, the others are intra coded. -/
def underVector (v : MotionVector) (column row width height : Nat) : MBContext :=
  { column, row, width, height, aboveLeft := none, left := none,
    above := some { yMode := NEWMV, uvMode := 0, isInter := true, sel1 := some false, mvs := fun _ => v } }

/-- Every padded copy belongs to a search. -/
theorem flatPlane_search (c : MBContext) (hc : c.column < c.width) (hr : c.row < c.height) (hs : 16 * c.width * (16 * c.height) < 2 ^ 32)
    (cost : MotionVector → Square 16 → Nat) : ∃ s : Search, s.Fits (flatPlane c.width c.height) ∧ s.context = c ∧ s.cost = cost ∧ s.place = (c.column, c.row) := by
  obtain ⟨rows, h, -⟩ := C35_padded (flatPlane_full (w := c.width) (h := c.height) (by omega) (by omega) hs)
  exact ⟨{ rows, context := c, cost }, .own (flatPlane_full (by omega) (by omega) hs) h rfl rfl hc hr, rfl, rfl, rfl⟩

/-- In a wider picture the sum of the neighbours' vector and the difference may leave the 16 bits and point to the other side: the
encoder then reads outside of the padded copy.  The vector 4000 pixels to the right fits in a picture of 4800 pixels, and is what the
neighbours suggest. -/
theorem C66_wide : ∃ (s : Search) (p : Plane) (v d : MotionVector), s.Fits p ∧ s.context.width = 300 ∧
    (census false s.context).map (fun n => clampMv (n.mvs 0) s.context) = some v ∧ CodableComponent d.x ∧ CodableComponent d.y ∧ |d.x| ≤ 1022 ∧
    s.place = (s.context.column, s.context.row) ∧ searchPredict s.rows (d.add v) s.place.1 s.place.2 = none := by
  obtain ⟨s, hs, hc, -, hp⟩ := flatPlane_search (underVector { x := 32000, y := 0 } 33 1 300 2) (by decide) (by decide) (by decide) (fun _ _ => 0)
  refine ⟨s, _, { x := 32000, y := 0 }, { x := 1022, y := 0 }, hs, by rw [hc]; rfl, by rw [hc]; decide +kernel, ⟨by decide, by decide, by decide⟩,
    ⟨by decide, by decide, by decide⟩, by decide, by rw [hp, hc], ?_⟩
  refine searchPredict_none hs.full hs.rows ?_
  rw [hp]
  decide +kernel

/-- A search in a picture of 48 by 32 pixels. -/
example : ∃ (s : Search) (p : Plane) (d : MotionVector), s.Fits p ∧ s.context.width = 3 ∧ s.cost { x := 2, y := 4 } (fun _ _ => 7) = 12 ∧
    newVector s { x := 16, y := 0 } = some d := by
  obtain ⟨s, hs, hc, hcost, -⟩ := flatPlane_search (underVector { x := 16, y := 0 } 1 1 3 2) (by decide) (by decide) (by decide)
    (fun v f => (v.x + 6).natAbs + (v.y - 1).natAbs + (f 3 4).toNat - 6)
  obtain ⟨d, hd, -⟩ := C66_search hs { x := 16, y := 0 }
  exact ⟨s, _, d, hs, by rw [hc]; rfl, by rw [hcost]; decide, hd⟩

end Alfalfa
