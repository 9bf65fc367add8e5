import Verif.Model.Ssim
import Verif.Spec.Convert
import Verif.Spec.Pixels
import Verif.Spec.Grid
import Verif.Spec.Decoder

/-! C101: the comparison of two videos. -/

namespace Alfalfa

variable {σ Q F : Type}

/-- The first `height` rows of a plane, `width` pixels of each. -/
def Plane.corner (p : Plane) (width height : Nat) : List (List UInt8) := (List.range height).map fun r => (List.range width).map fun c => p.px c r

/-- The whole picture. -/
def Plane.picture (p : Plane) : List (List UInt8) := p.corner p.width p.height

/-- What one line must say: the measure of the whole pictures, of the brightness or of all three planes. -/
def lineOf (measure : List (List UInt8) → List (List UInt8) → Q) (allPlanes : Bool) (a b : Raster) : List Q :=
  measure a.y.picture b.y.picture :: if allPlanes then [measure a.u.picture b.u.picture, measure a.v.picture b.v.picture] else []

theorem mapM_map_some {A B : Type} {f : A → Option B} {g : A → B} : ∀ {l : List A}, (∀ a ∈ l, f a = some (g a)) → l.mapM f = some (l.map g)
  | [], _ => rfl
  | a :: l, h => by
    rw [List.mapM_cons, h a (by simp), mapM_map_some (l := l) fun x hx => h x (by simp [hx])]
    rfl

theorem mapM_none_of {A B : Type} {f : A → Option B} : ∀ {l : List A} {a : A}, a ∈ l → f a = none → l.mapM f = none
  | b :: l, a, h, e => by
    rw [List.mapM_cons]
    rcases List.mem_cons.1 h with rfl | h
    · rw [e]; rfl
    · rw [mapM_none_of h e]
      cases f b <;> rfl

theorem load_px {p : Plane} (hp : p.cells.length = p.width * p.height) {c r : Nat} (hc : c < p.width) (hr : r < p.height) : p.load ((r * p.width + c : Nat) : Int) = some (p.px c r) := by
  have : r * p.width + c < p.cells.length := by
    rw [hp]
    calc r * p.width + c < r * p.width + p.width := by omega
      _ = (r + 1) * p.width := (Nat.succ_mul r p.width).symm
      _ ≤ p.height * p.width := Nat.mul_le_mul_right _ hr
      _ = _ := Nat.mul_comm _ _
  unfold Grid.load Plane.px
  rw [if_pos (by omega), if_pos hc, Int.toNat_natCast, List.getElem?_eq_getElem this, List.getD_eq_getElem?_getD, List.getElem?_eq_getElem this]
  rfl

theorem fetch_corner {p : Plane} (hp : p.cells.length = p.width * p.height) {w h : Nat} (hw : w ≤ p.width) (hh : h ≤ p.height) : p.fetch p.width w h = some (p.corner w h) := by
  unfold Plane.fetch Plane.corner
  refine mapM_map_some fun r hr => mapM_map_some fun c hc => load_px hp ?_ ?_
  · exact lt_of_lt_of_le (List.mem_range.1 hc) hw
  · exact lt_of_lt_of_le (List.mem_range.1 hr) hh

/-- **C101.**  Exactly when the second image is smaller than what is asked of it, the measure reads outside of it. -/
theorem C101_reads (p : Plane) (hp : p.cells.length = p.width * p.height) (w h : Nat) (hw : 0 < w) (hh : 0 < h) :
    (p.fetch p.width w h).isSome = true ↔ (h - 1) * p.width + w ≤ p.width * p.height := by
  constructor
  · intro hs
    by_contra hlt
    have : p.fetch p.width w h = none := by
      unfold Plane.fetch
      refine mapM_none_of (a := h - 1) (List.mem_range.2 (by omega)) (mapM_none_of (a := w - 1) (List.mem_range.2 (by omega)) ?_)
      unfold Grid.load
      rw [if_pos (by omega), Int.toNat_natCast, List.getElem?_eq_none]
      rw [hp]; omega
    rw [this] at hs
    exact absurd hs (by decide)
  · intro hle
    unfold Plane.fetch
    rw [mapM_map_some (g := fun r => (List.range w).map fun c => p.cells.getD (r * p.width + c) 0)]
    · rfl
    · intro r hr
      refine mapM_map_some fun c hc => ?_
      have hr := List.mem_range.1 hr
      have hc := List.mem_range.1 hc
      have : r * p.width + c < p.cells.length := by
        rw [hp]
        have : r * p.width ≤ (h - 1) * p.width := Nat.mul_le_mul_right _ (by omega)
        omega
      unfold Grid.load
      rw [if_pos (by omega), Int.toNat_natCast, List.getElem?_eq_getElem this, List.getD_eq_getElem?_getD, List.getElem?_eq_getElem this]
      rfl

/-- **C101.**  The similarity of two images of one size is that of their pixels, each at its place. -/
theorem C101_same_size (measure : List (List UInt8) → List (List UInt8) → Q) (p q : Plane) (hp : p.cells.length = p.width * p.height) (hq : q.cells.length = q.width * q.height)
    (hw : q.width = p.width) (hh : q.height = p.height) : ssim measure p q = some (measure p.picture q.picture) := by
  unfold ssim
  rw [fetch_corner hp le_rfl le_rfl, fetch_corner hq (le_of_eq hw.symm) (le_of_eq hh.symm)]
  unfold Plane.picture
  rw [hw, hh]
  rfl

/-- **The code violates the full statement.**  If the second image is larger, the similarity is that of its corner, and nothing is said. -/
theorem C101_larger (measure : List (List UInt8) → List (List UInt8) → Q) (p q : Plane) (hp : p.cells.length = p.width * p.height) (hq : q.cells.length = q.width * q.height)
    (hw : p.width ≤ q.width) (hh : p.height ≤ q.height) : ssim measure p q = some (measure p.picture (q.corner p.width p.height)) := by
  unfold ssim
  rw [fetch_corner hp le_rfl le_rfl, fetch_corner hq hw hh]
  rfl

/-- **The code violates the full statement.**  If the second image is less high, or as high and less wide, the program reads past its end. -/
theorem C101_smaller (measure : List (List UInt8) → List (List UInt8) → Q) (p q : Plane) (hq : q.cells.length = q.width * q.height) (hw : 0 < p.width) (hh : 0 < p.height)
    (h : q.height < p.height ∨ q.height = p.height ∧ q.width < p.width) : ssim measure p q = none := by
  have : q.fetch q.width p.width p.height = none := by
    have hiff := C101_reads q hq p.width p.height hw hh
    cases e : q.fetch q.width p.width p.height with
    | none => rfl
    | some x =>
      rw [e] at hiff
      have hle := hiff.1 rfl
      exfalso
      rcases h with h | ⟨h1, h2⟩
      · have : q.height * q.width ≤ (p.height - 1) * q.width := Nat.mul_le_mul_right _ (by omega)
        rw [Nat.mul_comm q.width] at hle
        omega
      · rw [h1] at hle
        obtain ⟨n, hn⟩ : ∃ n, p.height = n + 1 := ⟨p.height - 1, by omega⟩
        rw [hn, Nat.add_sub_cancel, Nat.mul_succ, Nat.mul_comm q.width n] at hle
        omega
  unfold ssim
  rw [this]
  cases p.fetch p.width p.width p.height <;> rfl

theorem line_ok {w h : Nat} (measure : List (List UInt8) → List (List UInt8) → Q) (allPlanes : Bool) {a b : Raster} (ha : a.Ok w h) (hb : b.Ok w h) :
    ssimLine measure allPlanes a b = some (lineOf measure allPlanes a b) := by
  unfold ssimLine lineOf
  rw [C101_same_size measure _ _ ha.y hb.y (hb.yWidth.trans ha.yWidth.symm) (hb.yHeight.trans ha.yHeight.symm),
    C101_same_size measure _ _ ha.u hb.u (hb.uWidth.trans ha.uWidth.symm) (hb.uHeight.trans ha.uHeight.symm),
    C101_same_size measure _ _ ha.v hb.v (hb.vWidth.trans ha.vWidth.symm) (hb.vHeight.trans ha.vHeight.symm)]
  cases allPlanes <;> rfl

theorem loop_lines {next : σ → Except XcEncError (Option Raster × σ)} (measure : List (List UInt8) → List (List UInt8) → Q) (allPlanes : Bool) {w h : Nat} :
    ∀ {rounds : Nat} {xs ys : List Raster} {i j : σ} {x y : Option Raster × σ}, Gives next i xs → Gives next j ys → next i = .ok x → next j = .ok y → (∀ x ∈ xs, x.Ok w h) → (∀ y ∈ ys, y.Ok w h) →
      min xs.length ys.length < rounds → ssimLoop next measure allPlanes rounds x y = (List.zipWith (lineOf measure allPlanes) xs ys, .success)
  | 0, xs, ys, i, j, x, y, _, _, _, _, _, _, hr => absurd hr (Nat.not_lt_zero _)
  | rounds + 1, xs, ys, i, j, x, y, hx, hy, ex, ey, ox, oy, hr => by
    cases hx with
    | done e =>
      rw [ex] at e
      cases e
      rfl
    | @more _ i' a xs e gx =>
      rw [ex] at e
      cases e
      cases hy with
      | done e =>
        rw [ey] at e
        cases e
        rw [List.zipWith_nil_right]
        rfl
      | @more _ j' b ys e gy =>
        rw [ey] at e
        cases e
        have e1 : ∃ x, next i' = .ok x := by cases gx with | done e => exact ⟨_, e⟩ | more e _ => exact ⟨_, e⟩
        have e2 : ∃ x, next j' = .ok x := by cases gy with | done e => exact ⟨_, e⟩ | more e _ => exact ⟨_, e⟩
        obtain ⟨x', e1⟩ := e1
        obtain ⟨y', e2⟩ := e2
        have ih := loop_lines measure allPlanes (rounds := rounds) gx gy e1 e2 (fun x hx => ox x (by simp [hx])) (fun y hy => oy y (by simp [hy])) (by simp only [List.length_cons] at hr; omega)
        unfold ssimLoop
        rw [line_ok measure allPlanes (ox _ (by simp)) (oy _ (by simp))]
        dsimp only
        rw [e1]
        dsimp only
        rw [e2]
        dsimp only
        rw [ih]
        rfl

/-- **C101.**  Two videos of one size: there is one line for each pair of pictures, as far as both go, with the similarities of the two pictures, and the program ends well. -/
theorem C101_lines (openFile : VideoFormat → F → Except XcEncError σ) (next : σ → Except XcEncError (Option Raster × σ)) (measure : List (List UInt8) → List (List UInt8) → Q) (allPlanes : Bool)
    (s1 s2 : String) (f1 f2 : VideoFormat) (h1 : videoFormat s1 = some f1) (h2 : videoFormat s2 = some f2) (file1 file2 : F) (i j : σ) (o1 : openFile f1 file1 = .ok i) (o2 : openFile f2 file2 = .ok j)
    (xs ys : List Raster) (hx : Gives next i xs) (hy : Gives next j ys) (w h : Nat) (ox : ∀ x ∈ xs, x.Ok w h) (oy : ∀ y ∈ ys, y.Ok w h) (rounds : Nat) (hr : min xs.length ys.length < rounds) :
    xcSsim openFile next measure allPlanes (some s1) (some s2) file1 file2 rounds = (List.zipWith (lineOf measure allPlanes) xs ys, .success) := by
  have e1 : ∃ x, next i = .ok x := by cases hx with | done e => exact ⟨_, e⟩ | more e _ => exact ⟨_, e⟩
  have e2 : ∃ x, next j = .ok x := by cases hy with | done e => exact ⟨_, e⟩ | more e _ => exact ⟨_, e⟩
  obtain ⟨x', e1⟩ := e1
  obtain ⟨y', e2⟩ := e2
  unfold xcSsim
  rw [Option.getD_some, Option.getD_some, h1]
  dsimp only
  rw [o1]
  dsimp only
  rw [h2]
  dsimp only
  rw [o2]
  dsimp only
  rw [e1]
  dsimp only
  rw [e2]
  exact loop_lines measure allPlanes hx hy e1 e2 ox oy hr

/-- **The code violates the full statement.**  That one video goes on after the end of the other is not noticed: the output is that for the video cut off. -/
theorem C101_length_unnoticed (next : σ → Except XcEncError (Option Raster × σ)) (measure : List (List UInt8) → List (List UInt8) → Q) (allPlanes : Bool) (xs ys more : List Raster)
    (hl : xs.length = ys.length) (i j j' : σ) (hx : Gives next i xs) (hy : Gives next j ys) (hy' : Gives next j' (ys ++ more)) (w h : Nat) (ox : ∀ x ∈ xs, x.Ok w h) (oy : ∀ y ∈ ys ++ more, y.Ok w h)
    (rounds : Nat) (hr : xs.length < rounds) :
    xcSsim (fun _ k => .ok k) next measure allPlanes (some "ivf") (some "ivf") i j' rounds = xcSsim (fun _ k => .ok k) next measure allPlanes (some "ivf") (some "ivf") i j rounds := by
  rw [C101_lines _ next measure allPlanes "ivf" "ivf" .ivf .ivf rfl rfl i j' i j' rfl rfl xs (ys ++ more) hx hy' w h ox oy rounds (by omega),
    C101_lines _ next measure allPlanes "ivf" "ivf" .ivf .ivf rfl rfl i j i j rfl rfl xs ys hx hy w h ox (fun y hy => oy y (by simp [hy])) rounds (by omega)]
  congr 1
  rw [← List.append_nil xs, List.zipWith_append hl, List.zipWith_nil_left, List.append_nil, List.append_nil]

/-- **The code violates the full statement.**  A second video with less height, or with less width and as much height, in macroblocks: the program reads outside of a picture before it has printed anything. -/
theorem C101_outside (next : σ → Except XcEncError (Option Raster × σ)) (measure : List (List UInt8) → List (List UInt8) → Q) (allPlanes : Bool) (w h w' h' : Nat) (a b : Raster) (ha : a.Ok w h) (hb : b.Ok w' h')
    (hw : 0 < w) (hh : 0 < h) (hs : (h' + 15) / 16 < (h + 15) / 16 ∨ (h' + 15) / 16 = (h + 15) / 16 ∧ (w' + 15) / 16 < (w + 15) / 16) (i j i' j' : σ) (e1 : next i = .ok (some a, i'))
    (e2 : next j = .ok (some b, j')) (rounds : Nat) (hr : 0 < rounds) :
    xcSsim (fun _ k => .ok k) next measure allPlanes (some "ivf") (some "ivf") i j rounds = ([], .outside) := by
  have hline : ssimLine measure allPlanes a b = none := by
    unfold ssimLine
    rw [C101_smaller measure a.y b.y hb.y (by rw [ha.yWidth]; omega) (by rw [ha.yHeight]; omega) (by rw [ha.yWidth, ha.yHeight, hb.yWidth, hb.yHeight]; omega)]
    rfl
  obtain ⟨n, rfl⟩ : ∃ n, rounds = n + 1 := ⟨rounds - 1, by omega⟩
  show (match next i with | .error e => _ | .ok x => match next j with | .error e => _ | .ok y => ssimLoop next measure allPlanes (n + 1) x y) = _
  rw [e1]
  dsimp only
  rw [e2]
  dsimp only
  unfold ssimLoop
  rw [hline]

/-- **The code violates what it says of itself.**  Without `-1`, or without `-2`, the format is not `ivf`, which the help calls the default: the program does not compare anything. -/
theorem C101_no_default (openFile : VideoFormat → F → Except XcEncError σ) (next : σ → Except XcEncError (Option Raster × σ)) (measure : List (List UInt8) → List (List UInt8) → Q) (allPlanes : Bool)
    (format1 format2 : Option String) (h : format1 = none ∨ format2 = none) (file1 file2 : F) (rounds : Nat) :
    (xcSsim openFile next measure allPlanes format1 format2 file1 file2 rounds).1 = [] ∧ (xcSsim openFile next measure allPlanes format1 format2 file1 file2 rounds).2 ≠ .success := by
  have hnone : videoFormat ((none : Option String).getD "") = none := by decide
  unfold xcSsim
  rcases h with rfl | rfl
  · rw [hnone]
    exact ⟨rfl, by simp⟩
  · cases videoFormat (format1.getD "") with
    | none => exact ⟨rfl, by simp⟩
    | some f =>
      dsimp only
      cases openFile f file1 with
      | error e => exact ⟨rfl, by simp⟩
      | ok i =>
        dsimp only
        rw [hnone]
        exact ⟨rfl, by simp⟩

/-! ### Cases -/

/-- A picture of 8 by 8 pixels, grey where it is shown; beyond that, as `beyond`. -/
def greyWith (beyond : UInt8) : Raster :=
  { displayWidth := 8, displayHeight := 8
    y := { width := 16, height := 16, cells := (List.range 256).map fun k => if k % 16 < 8 ∧ k / 16 < 8 then 128 else beyond }
    u := { width := 8, height := 8, cells := List.replicate 64 128 }
    v := { width := 8, height := 8, cells := List.replicate 64 128 } }

theorem greyWith_ok (beyond : UInt8) : (greyWith beyond).Ok 8 8 :=
  ⟨rfl, rfl, rfl, rfl, rfl, rfl, rfl, rfl, (List.length_map _).trans List.length_range, List.length_replicate, List.length_replicate⟩

/-- **The code violates the full statement.**  What is not shown takes part in the comparison: two pictures that are written to a file as the same bytes have different lines, for every measure that tells
the two planes apart. -/
theorem C101_hidden (measure : List (List UInt8) → List (List UInt8) → Q) (hm : ∀ a b c, measure a b = measure a c → b = c) :
    y4mFrame (greyWith 0) = y4mFrame (greyWith 255) ∧ ssimLine measure false (greyWith 0) (greyWith 0) ≠ ssimLine measure false (greyWith 0) (greyWith 255) := by
  refine ⟨by decide +kernel, ?_⟩
  rw [line_ok measure false (greyWith_ok 0) (greyWith_ok 0), line_ok measure false (greyWith_ok 0) (greyWith_ok 255)]
  intro h
  have := hm _ _ _ (List.cons.inj (Option.some.inj h)).1
  exact absurd this (by decide +kernel)

/-- An input that has a list of pictures. -/
def listInput : List Raster → Except XcEncError (Option Raster × List Raster)
  | [] => .ok (none, [])
  | x :: xs => .ok (some x, xs)

theorem listInput_gives : ∀ xs : List Raster, Gives listInput xs xs
  | [] => .done rfl
  | _ :: xs => .more rfl (listInput_gives xs)

/-- Two videos, of two and of three pictures; the measure counts the pixels that agree. -/
example : xcSsim (fun _ k => .ok k) listInput (fun a b => ((a.flatten.zip b.flatten).filter fun x => x.1 = x.2).length) false (some "ivf") (some "y4m") [greyWith 0, greyWith 1]
    [greyWith 0, greyWith 2, greyWith 3] 5 = ([[256], [64]], .success) := by decide +kernel

/-- A picture of one macroblock against one of two: nothing is read outside; the other way round it is. -/
def wideGrey : Raster :=
  { displayWidth := 32, displayHeight := 16
    y := { width := 32, height := 16, cells := List.replicate 512 128 }
    u := { width := 16, height := 8, cells := List.replicate 128 128 }
    v := { width := 16, height := 8, cells := List.replicate 128 128 } }

example : wideGrey.Ok 32 16 := ⟨rfl, rfl, rfl, rfl, rfl, rfl, rfl, rfl, List.length_replicate, List.length_replicate, List.length_replicate⟩

example : xcSsim (fun _ k => .ok k) listInput (fun a b => (a.flatten.zip b.flatten).length) true (some "ivf") (some "ivf") [greyWith 0] [wideGrey] 5 = ([[256, 64, 64]], .success) ∧
    xcSsim (fun _ k => .ok k) listInput (fun a b => (a.flatten.zip b.flatten).length) true (some "ivf") (some "ivf") [wideGrey] [greyWith 0] 5 = ([], .outside) := by decide +kernel

end Alfalfa
