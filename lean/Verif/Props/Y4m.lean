import Verif.Proof.Y4m
import Verif.Proof.Y4mHeader
import Verif.Props.DecoderExamples

/-! Raw video (C51). -/

namespace Alfalfa

/-- What reading a picture gives: pixels outside of the displayed `w` by `h` are the nearest displayed ones of `p`. -/
def Plane.Displays (p : Plane) (w h : Nat) (q : Plane) : Prop :=
  q.width = p.width ∧ q.height = p.height ∧ ∀ u v, u < p.width → v < p.height → q.px u v = p.px (min u (w - 1)) (min v (h - 1))

theorem ok_planes {w h : Nat} (hw : 0 < w ∧ w ≤ 65520) (hh : 0 < h ∧ h ≤ 65520) {r : Raster} (hr : r.Ok w h) :
    r.y.Sized ((w + 15) / 16 * 16) ((h + 15) / 16 * 16) ∧ r.u.Sized ((w + 15) / 16 * 8) ((h + 15) / 16 * 8) ∧ r.v.Sized ((w + 15) / 16 * 8) ((h + 15) / 16 * 8) := by
  have hW : 0 < (w + 15) / 16 ∧ (w + 15) / 16 ≤ 4095 := by omega
  have hH : 0 < (h + 15) / 16 ∧ (h + 15) / 16 ≤ 4095 := by omega
  have big : ∀ k ≤ 16, (w + 15) / 16 * k * ((h + 15) / 16 * k) < 2 ^ 32 := by
    intro k hk
    have e1 : (w + 15) / 16 * k ≤ 4095 * 16 := Nat.mul_le_mul hW.2 hk
    have e2 : (h + 15) / 16 * k ≤ 4095 * 16 := Nat.mul_le_mul hH.2 hk
    calc _ ≤ 4095 * 16 * (4095 * 16) := Nat.mul_le_mul e1 e2
      _ < 2 ^ 32 := by norm_num
  refine ⟨⟨⟨?_, ?_, ?_, hr.y⟩, hr.yWidth, hr.yHeight⟩, ⟨⟨?_, ?_, ?_, hr.u⟩, hr.uWidth, hr.uHeight⟩, ⟨⟨?_, ?_, ?_, hr.v⟩, hr.vWidth, hr.vHeight⟩⟩ <;>
    simp only [hr.yWidth, hr.yHeight, hr.uWidth, hr.uHeight, hr.vWidth, hr.vHeight]
  · omega
  · omega
  · exact big 16 (by omega)
  · omega
  · omega
  · exact big 8 (by omega)
  · omega
  · omega
  · exact big 8 (by omega)

/-- What is read into a plane of `dw` by `dh` displayed pixels from `r` rows of `c` bytes. -/
def fromBytes (dw dh c r : Nat) (bytes : List UInt8) (old : Plane) (u v : Nat) : UInt8 :=
  if min v (dh - 1) < r ∧ min u (dw - 1) < c then bytes.getD (min v (dh - 1) * c + min u (dw - 1)) 0 else old.px (min u (dw - 1)) (min v (dh - 1))

/-- **C51, any input.** Whatever the rest of a file is, and whatever the picture from the pool contained, reading a frame gives an error for a malformed or cut file, the end, or a
picture of the right size whose pixels are determined as given, and never accesses anything outside of the picture. -/
theorem C51_next_frame (r : Y4MReader) {w h : Nat} (hw : 0 < w ∧ w ≤ 65520) (hh : 0 < h ∧ h ≤ 65520) (hdr : r.header.width = w ∧ r.header.height = h) (old : Raster) (ho : old.Ok w h) :
    r.nextFrame (some old) = .error .ended ∧ (r.input.ended = true ∨ ∃ rest, splitLine r.input.rest = (ascii "FRAME", rest, false) ∧ rest.length < h * w + 2 * (h / 2 * (w / 2))) ∨
    r.nextFrame (some old) = .error .format ∧ (splitLine r.input.rest).1 ≠ ascii "FRAME" ∨
    (∃ r', r.nextFrame (some old) = .ok (none, r')) ∧ (splitLine r.input.rest).2.2 = true ∨
    ∃ rest x, splitLine r.input.rest = (ascii "FRAME", rest, false) ∧ h * w + 2 * (h / 2 * (w / 2)) ≤ rest.length ∧
      r.nextFrame (some old) = .ok (some x, { header := r.header, input := { rest := rest.drop (h * w + 2 * (h / 2 * (w / 2))) } }) ∧ x.Ok w h ∧
      (∀ u v, u < old.y.width → v < old.y.height → x.y.px u v = fromBytes w h w h rest old.y u v) ∧
      (∀ u v, u < old.u.width → v < old.u.height → x.u.px u v = fromBytes ((1 + w) / 2) ((1 + h) / 2) (w / 2) (h / 2) (rest.drop (h * w)) old.u u v) ∧
      (∀ u v, u < old.v.width → v < old.v.height → x.v.px u v =
        fromBytes ((1 + w) / 2) ((1 + h) / 2) (w / 2) (h / 2) (rest.drop (h * w + h / 2 * (w / 2))) old.v u v) := by
  obtain ⟨sy, su, sv⟩ := ok_planes hw hh ho
  obtain ⟨hw', hh'⟩ := hdr
  unfold Y4MReader.nextFrame Y4MInput.getline
  simp only [hw', hh', bind, Except.bind]
  by_cases he : r.input.ended = true
  · rw [if_pos he]
    exact .inl ⟨rfl, .inl he⟩
  · rw [if_neg he]
    simp only
    rcases hs : splitLine r.input.rest with ⟨line, rest, ended⟩
    simp only
    cases ended with
    | true => exact .inr (.inr (.inl ⟨⟨_, rfl⟩, rfl⟩))
    | false =>
      simp only [Bool.false_eq_true, if_false]
      by_cases hl : line = ascii "FRAME"
      · rw [if_neg (fun hn => hn hl)]
        have r1 := readRows_spec (length := w) (w := (w + 15) / 16 * 16) (h := (h + 15) / 16 * 16) (by omega) h 0 old.y { rest := rest } sy (by omega) rfl
        simp only at r1
        by_cases c1 : rest.length < h * w
        · rw [if_pos c1] at r1
          rw [r1]
          exact .inl ⟨rfl, .inr ⟨rest, by rw [hl], by omega⟩⟩
        · rw [if_neg c1] at r1
          obtain ⟨y, e1, e2, e3⟩ := r1
          simp only [e1]
          have r2 := readRows_spec (length := w / 2) (w := (w + 15) / 16 * 8) (h := (h + 15) / 16 * 8) (by omega) (h / 2) 0 old.u { rest := rest.drop (h * w) } su (by omega) rfl
          simp only at r2
          by_cases c2 : (rest.drop (h * w)).length < h / 2 * (w / 2)
          · rw [if_pos c2] at r2
            rw [r2]
            simp only [List.length_drop] at c1 c2
            exact .inl ⟨rfl, .inr ⟨rest, by rw [hl], by omega⟩⟩
          · rw [if_neg c2] at r2
            obtain ⟨u, f1, f2, f3⟩ := r2
            simp only [f1]
            have r3 := readRows_spec (length := w / 2) (w := (w + 15) / 16 * 8) (h := (h + 15) / 16 * 8) (by omega) (h / 2) 0 old.v
              { rest := (rest.drop (h * w)).drop (h / 2 * (w / 2)) } sv (by omega) rfl
            simp only at r3
            by_cases c3 : ((rest.drop (h * w)).drop (h / 2 * (w / 2))).length < h / 2 * (w / 2)
            · rw [if_pos c3] at r3
              rw [r3]
              simp only [List.length_drop] at c1 c2 c3
              exact .inl ⟨rfl, .inr ⟨rest, by rw [hl], by omega⟩⟩
            · rw [if_neg c3] at r3
              obtain ⟨v, g1, g2, g3⟩ := r3
              simp only [g1]
              obtain ⟨y', y1, y2, y3⟩ := edgeExtend_spec e2 (dw := w) (dh := h) (by omega) (by omega)
              obtain ⟨u', u1, u2, u3⟩ := edgeExtend_spec f2 (dw := (1 + w) / 2) (dh := (1 + h) / 2) (by omega) (by omega)
              obtain ⟨v', v1, v2, v3⟩ := edgeExtend_spec g2 (dw := (1 + w) / 2) (dh := (1 + h) / 2) (by omega) (by omega)
              rw [ho.displayWidth, ho.displayHeight]
              simp only [y1, u1, v1, pure, Except.pure]
              simp only [List.length_drop] at c2 c3
              refine .inr (.inr (.inr ⟨rest, { old with y := y', u := u', v := v' }, by rw [hl], by omega, ?_, ?_, ?_, ?_, ?_⟩))
              · rw [List.drop_drop, List.drop_drop]
                have : h * w + (h / 2 * (w / 2) + h / 2 * (w / 2)) = h * w + 2 * (h / 2 * (w / 2)) := by omega
                rw [this, ho.displayWidth, ho.displayHeight]
              · exact ⟨ho.displayWidth, ho.displayHeight, y2.width, y2.height, u2.width, u2.height, v2.width, v2.height, y2.full.cells, u2.full.cells, v2.full.cells⟩
              · intro a b ha hb
                rw [sy.width] at ha
                rw [sy.height] at hb
                show y'.px a b = _
                rw [y3 a b ha hb, e3 _ _ (by omega) (by omega)]
                unfold fromBytes
                simp only [Nat.zero_le, Nat.zero_add, true_and, Nat.sub_zero]
              · intro a b ha hb
                rw [su.width] at ha
                rw [su.height] at hb
                show u'.px a b = _
                rw [u3 a b ha hb, f3 _ _ (by omega) (by omega)]
                unfold fromBytes
                simp only [Nat.zero_le, Nat.zero_add, true_and, Nat.sub_zero]
              · intro a b ha hb
                rw [sv.width] at ha
                rw [sv.height] at hb
                show v'.px a b = _
                rw [v3 a b ha hb, g3 _ _ (by omega) (by omega)]
                unfold fromBytes
                simp only [Nat.zero_le, Nat.zero_add, true_and, Nat.sub_zero, List.drop_drop]
      · rw [if_pos hl]
        exact .inr (.inl ⟨rfl, hl⟩)

/-- The displayed bytes of a plane, followed by anything, read into another. -/
theorem fromBytes_displayed {w h dw dh : Nat} {p old : Plane} (hp : p.Sized w h) (hw : 0 < dw ∧ dw ≤ w) (hh : 0 < dh ∧ dh ≤ h) (tail : List UInt8) (u v : Nat) :
    fromBytes dw dh dw dh (p.displayed dw dh ++ tail) old u v = p.px (min u (dw - 1)) (min v (dh - 1)) := by
  obtain ⟨h1, h2⟩ := displayed_spec hp hw.2 hh.2
  unfold fromBytes
  have h3 : min v (dh - 1) < dh ∧ min u (dw - 1) < dw := by omega
  have h4 : min v (dh - 1) * dw + min u (dw - 1) < dh * dw := by
    have : (min v (dh - 1) + 1) * dw ≤ dh * dw := Nat.mul_le_mul_right _ h3.1
    rw [Nat.add_mul, Nat.one_mul] at this
    omega
  rw [if_pos h3, ← h2 _ _ h3.2 h3.1]
  simp only [List.getD_eq_getElem?_getD]
  rw [List.getElem?_append_left (by omega)]

theorem frame_text : ascii "FRAME\n" = ascii "FRAME" ++ [10] ∧ 10 ∉ ascii "FRAME" := by decide +kernel

/-- Reading a frame that was written. -/
theorem next_written {w h : Nat} (hw : 0 < w ∧ w ≤ 65520) (hh : 0 < h ∧ h ≤ 65520) (even : w % 2 = 0 ∧ h % 2 = 0) (header : Y4MHeader) (hdr : header.width = w ∧ header.height = h)
    (x old : Raster) (hx : x.Ok w h) (ho : old.Ok w h) (tail : List UInt8) :
    ∃ x', Y4MReader.nextFrame { header := header, input := { rest := y4mFrame x ++ tail } } (some old) = .ok (some x', { header := header, input := { rest := tail } }) ∧ x'.Ok w h ∧
      x.y.Displays w h x'.y ∧ x.u.Displays (w / 2) (h / 2) x'.u ∧ x.v.Displays (w / 2) (h / 2) x'.v := by
  obtain ⟨sy, su, sv⟩ := ok_planes hw hh hx
  obtain ⟨oy, ou, ov⟩ := ok_planes hw hh ho
  have e1 : (1 + w) / 2 = w / 2 := by omega
  have e2 : (1 + h) / 2 = h / 2 := by omega
  obtain ⟨ly, -⟩ := displayed_spec sy (dw := w) (dh := h) (by omega) (by omega)
  obtain ⟨lu, -⟩ := displayed_spec su (dw := w / 2) (dh := h / 2) (by omega) (by omega)
  obtain ⟨lv, -⟩ := displayed_spec sv (dw := w / 2) (dh := h / 2) (by omega) (by omega)
  have hs : splitLine (y4mFrame x ++ tail) = (ascii "FRAME", x.y.displayed w h ++ (x.u.displayed (w / 2) (h / 2) ++ (x.v.displayed (w / 2) (h / 2) ++ tail)), false) := by
    unfold y4mFrame
    rw [frame_text.1, hx.displayWidth, hx.displayHeight, e1, e2]
    simp only [List.append_assoc, List.singleton_append, List.cons_append]
    exact splitLine_line _ _ frame_text.2
  have main := C51_next_frame { header := header, input := { rest := y4mFrame x ++ tail } } hw hh hdr old ho
  rcases main with ⟨-, h1 | ⟨rest, h1, h2⟩⟩ | ⟨-, h1⟩ | ⟨-, h1⟩ | ⟨rest, x', h1, h2, h3, h4, h5, h6, h7⟩
  · exact nomatch h1
  · simp only [hs, Prod.mk.injEq] at h1
    rw [← h1.2.1] at h2
    simp only [List.length_append, ly, lu, lv] at h2
    omega
  · simp only [hs] at h1
    exact absurd rfl h1
  · simp only [hs] at h1
    exact nomatch h1
  · simp only [hs, Prod.mk.injEq] at h1
    obtain ⟨-, rfl, -⟩ := h1
    obtain ⟨xy, xu, xv⟩ := ok_planes hw hh h4
    have d1 : (x.y.displayed w h ++ (x.u.displayed (w / 2) (h / 2) ++ (x.v.displayed (w / 2) (h / 2) ++ tail))).drop (h * w) = x.u.displayed (w / 2) (h / 2) ++ (x.v.displayed (w / 2) (h / 2) ++ tail) :=
      List.drop_left' ly
    have d2 : (x.u.displayed (w / 2) (h / 2) ++ (x.v.displayed (w / 2) (h / 2) ++ tail)).drop (h / 2 * (w / 2)) = x.v.displayed (w / 2) (h / 2) ++ tail := List.drop_left' lu
    have d3 : (x.v.displayed (w / 2) (h / 2) ++ tail).drop (h / 2 * (w / 2)) = tail := List.drop_left' lv
    refine ⟨x', ?_, h4, ⟨by rw [xy.width, sy.width], by rw [xy.height, sy.height], fun u v hu hv => ?_⟩, ⟨by rw [xu.width, su.width], by rw [xu.height, su.height], fun u v hu hv => ?_⟩,
      ⟨by rw [xv.width, sv.width], by rw [xv.height, sv.height], fun u v hu hv => ?_⟩⟩
    · rw [h3, show h * w + 2 * (h / 2 * (w / 2)) = h * w + (h / 2 * (w / 2) + h / 2 * (w / 2)) by omega, ← List.drop_drop, d1, ← List.drop_drop, d2, d3]
    · rw [h5 u v (by rw [oy.width, ← sy.width]; exact hu) (by rw [oy.height, ← sy.height]; exact hv)]
      exact fromBytes_displayed sy (by omega) (by omega) _ _ _
    · rw [h6 u v (by rw [ou.width, ← su.width]; exact hu) (by rw [ou.height, ← su.height]; exact hv), d1, e1, e2]
      exact fromBytes_displayed su (by omega) (by omega) _ _ _
    · rw [h7 u v (by rw [ov.width, ← sv.width]; exact hu) (by rw [ov.height, ← sv.height]; exact hv), ← List.drop_drop, d1, d2, e1, e2]
      exact fromBytes_displayed sv (by omega) (by omega) _ _ _

/-- **C51, headers.** A header of numbers below 2^16 with a size that is not zero is read back as it was written, with the plain colour space for its two variants; the other colour spaces are refused. -/
theorem C51_header (h : Y4MHeader) (hh : h.Fits) (rest : List UInt8) :
    Y4MReader.open (h.text ++ rest) = if h.color = .c422 ∨ h.color = .c444 then .error .format
      else .ok { header := { h with color := .c420 }, input := { rest := rest } } := open_text h hh rest

/-- Pictures that were read for pictures that were written. -/
def ShowsAll (w h : Nat) (written read : List Raster) : Prop :=
  read.length = written.length ∧ ∀ (k : Nat) (x x' : Raster), written[k]? = some x → read[k]? = some x' →
    x'.Ok w h ∧ x.y.Displays w h x'.y ∧ x.u.Displays (w / 2) (h / 2) x'.u ∧ x.v.Displays (w / 2) (h / 2) x'.v

theorem all_written {w h : Nat} (hw : 0 < w ∧ w ≤ 65520) (hh : 0 < h ∧ h ≤ 65520) (even : w % 2 = 0 ∧ h % 2 = 0) (header : Y4MHeader) (hdr : header.width = w ∧ header.height = h) :
    ∀ (xs : List Raster) (pool : List Raster), (∀ x ∈ xs, x.Ok w h) → (∀ x ∈ pool, x.Ok w h) → xs.length < pool.length →
      ∃ read, Y4MReader.all { header := header, input := { rest := xs.flatMap y4mFrame } } (pool.map some) = .ok read ∧ ShowsAll w h xs read := by
  intro xs
  induction xs with
  | nil =>
    intro pool _ _ hp
    cases pool with
    | nil => exact absurd hp (by simp)
    | cons o pool =>
      refine ⟨[], ?_, rfl, fun k x x' hk => absurd hk (by simp)⟩
      rfl
  | cons x xs ih =>
    intro pool hx hp hl
    cases pool with
    | nil => exact absurd hl (by simp)
    | cons o pool =>
      obtain ⟨x', h1, h2⟩ := next_written hw hh even header hdr x o (hx x List.mem_cons_self) (hp o List.mem_cons_self) (xs.flatMap y4mFrame)
      obtain ⟨read, h3, h4, h5⟩ := ih pool (fun y hy => hx y (List.mem_cons_of_mem _ hy)) (fun y hy => hp y (List.mem_cons_of_mem _ hy)) (by simpa using hl)
      refine ⟨x' :: read, ?_, by simp [h4], fun k y y' hy hy' => ?_⟩
      · rw [List.flatMap_cons, List.map_cons, Y4MReader.all, h1]
        simp only [bind, Except.bind, h3]
        rfl
      · cases k with
        | zero =>
          simp only [List.getElem?_cons_zero, Option.some.injEq] at hy hy'
          subst hy hy'
          exact h2
        | succ k => exact h5 k y y' (by simpa using hy) (by simpa using hy')

/-- **C51.** A file of pictures of one even size is read back: as many pictures, of that size, each with all displayed pixels, and the nearest displayed pixel everywhere else; whatever was
in the pictures of the pool before. -/
theorem C51_round_trip {w h : Nat} (hw : 0 < w ∧ w ≤ 65520) (hh : 0 < h ∧ h ≤ 65520) (even : w % 2 = 0 ∧ h % 2 = 0) (first : Raster) (others pool : List Raster)
    (hx : ∀ x ∈ first :: others, x.Ok w h) (hp : ∀ x ∈ pool, x.Ok w h) (hl : others.length + 1 < pool.length) :
    ∃ reader read, Y4MReader.open (y4mFile first others) = .ok reader ∧ reader.all (pool.map some) = .ok read ∧ ShowsAll w h (first :: others) read := by
  have hf := hx first List.mem_cons_self
  have fits : (Y4MHeader.ofRaster first).Fits := by
    constructor <;> simp only [Y4MHeader.ofRaster, hf.displayWidth, hf.displayHeight] <;> omega
  obtain ⟨read, h1, h2⟩ := all_written hw hh even (Y4MHeader.ofRaster first) ⟨hf.displayWidth, hf.displayHeight⟩ (first :: others) pool hx hp hl
  refine ⟨{ header := Y4MHeader.ofRaster first, input := { rest := (first :: others).flatMap y4mFrame } }, read, ?_, h1, h2⟩
  unfold y4mFile
  rw [open_text _ fits, if_neg (by simp [Y4MHeader.ofRaster])]
  rfl

/-- A file of three pictures of 34x20, read into pictures of other contents. -/
example : ∃ reader read, Y4MReader.open (y4mFile (grayRaster 34 20 1) [grayRaster 34 20 70, grayRaster 34 20 10]) = .ok reader ∧
    reader.all ((List.replicate 4 (grayRaster 34 20 99)).map some) = .ok read ∧ ShowsAll 34 20 [grayRaster 34 20 1, grayRaster 34 20 70, grayRaster 34 20 10] read :=
  C51_round_trip (by omega) (by omega) (by omega) _ _ _ (by simp [grayRaster_ok]) (fun x hx => by rw [List.eq_of_mem_replicate hx]; exact grayRaster_ok ..) (by decide)

example : Y4MHeader.Fits { width := 1280, height := 720, fpsNumerator := 30000, fpsDenominator := 1001, aspectNumerator := 1, aspectDenominator := 1, interlacing := .mixedModes, color := .c420jpeg } := by
  constructor <;> decide

theorem parseField_lt {t : List UInt8} {n : Nat} (h : parseField t = .ok n) : n < 65536 := by
  unfold parseField toUInt16 at h
  split at h
  · exact nomatch h
  · cases h
    omega

theorem take_sizes {h h' : Y4MHeader} {t : List UInt8} (hh : h.width < 65536 ∧ h.height < 65536) (e : h.take t = .ok h') : h'.width < 65536 ∧ h'.height < 65536 := by
  unfold Y4MHeader.take at e
  split at e
  · exact nomatch e
  · rename_i c rest
    simp only [bind, Except.bind, pure, Except.pure] at e
    repeat' split at e
    all_goals first
      | (cases e; done)
      | (cases e; exact hh)
      | (cases e; rename_i hp; exact ⟨parseField_lt hp, hh.2⟩)
      | (cases e; rename_i hp; exact ⟨hh.1, parseField_lt hp⟩)

theorem takes_sizes : ∀ (tokens : List (List UInt8)) (h h' : Y4MHeader), h.width < 65536 ∧ h.height < 65536 → tokens.foldlM Y4MHeader.take h = .ok h' → h'.width < 65536 ∧ h'.height < 65536 := by
  intro tokens
  induction tokens with
  | nil =>
    intro h h' hh e
    cases e
    exact hh
  | cons t tokens ih =>
    intro h h' hh e
    rw [List.foldlM_cons] at e
    simp only [bind, Except.bind] at e
    split at e
    · exact nomatch e
    · rename_i h1 e1
      exact ih h1 h' (take_sizes hh e1) e

/-- **C51, any input.** A file that can be opened has a size, which fits in 16 bits. -/
theorem C51_open_size (file : List UInt8) (r : Y4MReader) (h : Y4MReader.open file = .ok r) :
    0 < r.header.width ∧ r.header.width < 65536 ∧ 0 < r.header.height ∧ r.header.height < 65536 := by
  unfold Y4MReader.open at h
  simp only [bind, Except.bind] at h
  split at h
  · exact nomatch h
  · split at h
    · exact nomatch h
    · rename_i magic tokens _
      split at h
      · exact nomatch h
      · cases e : tokens.foldlM Y4MHeader.take ({} : Y4MHeader) with
        | error x =>
          rw [e] at h
          exact nomatch h
        | ok header =>
          rw [e] at h
          simp only at h
          split at h
          · exact nomatch h
          · rename_i hz
            cases h
            have := takes_sizes tokens _ _ (by decide) e
            exact ⟨by show 0 < header.width; omega, this.1, by show 0 < header.height; omega, this.2⟩

/-- **C51, any input.** Whatever the bytes of a file are, reading all of it never accesses anything outside of a picture.  (A size above 65520 is refused when a picture is made.) -/
theorem C51_stays_in_picture (file : List UInt8) (r : Y4MReader) (h : Y4MReader.open file = .ok r) (pool : List (Option Raster))
    (hp : ∀ x ∈ pool, match x with
      | none => True
      | some x => x.Ok r.header.width r.header.height ∧ r.header.width ≤ 65520 ∧ r.header.height ≤ 65520) :
    r.all pool ≠ .error .outOfBounds := by
  obtain ⟨w0, -, h0, -⟩ := C51_open_size file r h
  clear h
  induction pool generalizing r with
  | nil => exact fun h => nomatch h
  | cons o pool ih =>
    rw [Y4MReader.all]
    simp only [bind, Except.bind]
    cases o with
    | none => exact fun h => nomatch h
    | some o =>
      obtain ⟨ho, hw, hh⟩ := hp (some o) List.mem_cons_self
      rcases C51_next_frame r ⟨w0, hw⟩ ⟨h0, hh⟩ ⟨rfl, rfl⟩ o ho with ⟨e, -⟩ | ⟨e, -⟩ | ⟨⟨r', e⟩, -⟩ | ⟨rest, x', -, -, e, -⟩ <;> rw [e]
      · exact fun h => nomatch h
      · exact fun h => nomatch h
      · exact fun h => nomatch h
      · have := ih { header := r.header, input := { rest := rest.drop (r.header.height * r.header.width + 2 * (r.header.height / 2 * (r.header.width / 2))) } }
          (fun x hx => hp x (List.mem_cons_of_mem _ hx)) w0 h0
        simp only
        intro h
        split at h
        · rename_i e2
          cases h
          exact this e2
        · exact nomatch h

/-! ### Odd sizes -/

/-- **C51, deviation.** In a picture of odd width the last chroma column is not read: it, and everything to its right, is what happened to be in the picture of the pool. -/
theorem C51_odd_width_shows_old_chroma (r : Y4MReader) {w h : Nat} (hw : 0 < w ∧ w ≤ 65520) (hh : 0 < h ∧ h ≤ 65520) (odd : w % 2 = 1) (hdr : r.header.width = w ∧ r.header.height = h)
    (old x : Raster) (ho : old.Ok w h) (r' : Y4MReader) (hx : r.nextFrame (some old) = .ok (some x, r')) :
    ∀ u v, w / 2 ≤ u → u < old.u.width → v < old.u.height → x.u.px u v = old.u.px (w / 2) (min v ((1 + h) / 2 - 1)) := by
  intro u v h1 h2 h3
  rcases C51_next_frame r hw hh hdr old ho with ⟨e, -⟩ | ⟨e, -⟩ | ⟨⟨_, e⟩, -⟩ | ⟨rest, x', -, -, e, -, -, e6, -⟩
  · rw [hx] at e; exact nomatch e
  · rw [hx] at e; exact nomatch e
  · rw [hx] at e; exact nomatch e
  · rw [hx] at e
    cases e
    rw [e6 u v h2 h3]
    unfold fromBytes
    rw [if_neg (by omega)]
    congr 1
    omega

theorem splitLine_newline : ∀ l : List UInt8, 10 ∈ l → (splitLine l).2.2 = false := by
  intro l
  induction l with
  | nil => intro h; exact absurd h (by simp)
  | cons c l ih =>
    intro h
    rw [splitLine]
    split
    · rfl
    · rename_i hc
      rcases List.mem_cons.1 h with h | h
      · exact absurd h.symm hc
      · exact ih h

theorem splitLine_first {c : UInt8} {l : List UInt8} (h : c ≠ 70) : (splitLine (c :: l)).1 ≠ ascii "FRAME" := by
  have e : ascii "FRAME" = [70, 82, 65, 77, 69] := by decide +kernel
  rw [e, splitLine]
  split
  · simp
  · simp [h]

theorem mem_displayed {p : Plane} {dw dh : Nat} {c : UInt8} (h : c ∈ p.displayed dw dh) : c ∈ p.cells := by
  obtain ⟨row, -, hc⟩ := List.mem_flatMap.1 h
  exact List.mem_of_mem_drop (List.mem_of_mem_take hc)

/-- **C51, deviation.** A file of more than one picture of an odd width or height cannot be read back: the writer writes chroma planes that are rounded up, the reader expects planes that are
rounded down, and takes the rest for the beginning of the next frame.  (Unless the rest happens to begin like a frame: here no chroma pixel is the letter F.) -/
theorem C51_odd_size_misread {w h : Nat} (hw : 0 < w ∧ w ≤ 65520) (hh : 0 < h ∧ h ≤ 65520) (odd : w % 2 = 1 ∨ h % 2 = 1) (first second : Raster) (others pool : List Raster)
    (hf : first.Ok w h) (hF : 70 ∉ first.u.cells ∧ 70 ∉ first.v.cells) (hp : ∀ x ∈ pool, x.Ok w h) (hl : 2 ≤ pool.length) :
    ∃ reader, Y4MReader.open (y4mFile first (second :: others)) = .ok reader ∧ reader.all (pool.map some) = .error .format := by
  have fits : (Y4MHeader.ofRaster first).Fits := by
    constructor <;> simp only [Y4MHeader.ofRaster, hf.displayWidth, hf.displayHeight] <;> omega
  refine ⟨{ header := Y4MHeader.ofRaster first, input := { rest := (first :: second :: others).flatMap y4mFrame } }, ?_, ?_⟩
  · unfold y4mFile
    rw [open_text _ fits, if_neg (by simp [Y4MHeader.ofRaster])]
    rfl
  · obtain ⟨sy, su, sv⟩ := ok_planes hw hh hf
    obtain ⟨ly, -⟩ := displayed_spec sy (dw := w) (dh := h) (by omega) (by omega)
    obtain ⟨lu, -⟩ := displayed_spec su (dw := (1 + w) / 2) (dh := (1 + h) / 2) (by omega) (by omega)
    obtain ⟨lv, -⟩ := displayed_spec sv (dw := (1 + w) / 2) (dh := (1 + h) / 2) (by omega) (by omega)
    have hmore : h / 2 * (w / 2) < (1 + h) / 2 * ((1 + w) / 2) := by
      rcases odd with o | o
      · have e : (1 + w) / 2 = w / 2 + 1 := by omega
        rw [e, Nat.mul_add, Nat.mul_one]
        have := Nat.mul_le_mul_right (w / 2) (show h / 2 ≤ (1 + h) / 2 by omega)
        omega
      · have e : (1 + h) / 2 = h / 2 + 1 := by omega
        rw [e, Nat.add_mul, Nat.one_mul]
        have := Nat.mul_le_mul_left (h / 2) (show w / 2 ≤ (1 + w) / 2 by omega)
        omega
    match pool, hl with
    | o1 :: o2 :: pool, _ =>
    have hdr : (Y4MHeader.ofRaster first).width = w ∧ (Y4MHeader.ofRaster first).height = h := ⟨hf.displayWidth, hf.displayHeight⟩
    rw [List.flatMap_cons]
    generalize htail : (second :: others).flatMap y4mFrame = tail
    have h10 : 10 ∈ tail := by
      rw [← htail, List.flatMap_cons]
      unfold y4mFrame
      rw [frame_text.1]
      simp
    have hs : splitLine (y4mFrame first ++ tail) = (ascii "FRAME", first.y.displayed w h ++ (first.u.displayed ((1 + w) / 2) ((1 + h) / 2) ++
        (first.v.displayed ((1 + w) / 2) ((1 + h) / 2) ++ tail)), false) := by
      unfold y4mFrame
      rw [frame_text.1, hf.displayWidth, hf.displayHeight]
      simp only [List.append_assoc, List.singleton_append, List.cons_append]
      exact splitLine_line _ _ frame_text.2
    rcases C51_next_frame { header := Y4MHeader.ofRaster first, input := { rest := y4mFrame first ++ tail } } hw hh hdr o1 (hp o1 List.mem_cons_self) with
      ⟨-, h1 | ⟨rest, h1, h2⟩⟩ | ⟨-, h1⟩ | ⟨-, h1⟩ | ⟨rest, x', h1, h2, h3, -⟩
    · exact nomatch h1
    · simp only [hs, Prod.mk.injEq] at h1
      rw [← h1.2.1] at h2
      simp only [List.length_append, ly, lu, lv] at h2
      omega
    · simp only [hs] at h1
      exact absurd rfl h1
    · simp only [hs] at h1
      exact nomatch h1
    · simp only [hs, Prod.mk.injEq] at h1
      obtain ⟨-, rfl, -⟩ := h1
      rw [← List.drop_drop, List.drop_left' ly, ← List.append_assoc, List.drop_append_of_le_length (by simp only [List.length_append, lu, lv]; omega)] at h3
      -- what is left of the chroma planes
      have hne : (first.u.displayed ((1 + w) / 2) ((1 + h) / 2) ++ first.v.displayed ((1 + w) / 2) ((1 + h) / 2)).drop (2 * (h / 2 * (w / 2))) ≠ [] := by
        intro he
        have := congrArg List.length he
        simp only [List.length_drop, List.length_append, lu, lv, List.length_nil] at this
        omega
      have hno : ∀ c ∈ (first.u.displayed ((1 + w) / 2) ((1 + h) / 2) ++ first.v.displayed ((1 + w) / 2) ((1 + h) / 2)).drop (2 * (h / 2 * (w / 2))), c ≠ 70 := by
        rintro c hc rfl
        rcases List.mem_append.1 (List.mem_of_mem_drop hc) with hc | hc
        · exact hF.1 (mem_displayed hc)
        · exact hF.2 (mem_displayed hc)
      generalize (first.u.displayed ((1 + w) / 2) ((1 + h) / 2) ++ first.v.displayed ((1 + w) / 2) ((1 + h) / 2)).drop (2 * (h / 2 * (w / 2))) = left at h3 hne hno
      cases left with
      | nil => exact absurd rfl hne
      | cons c left =>
        have hl1 : (splitLine (c :: left ++ tail)).1 ≠ ascii "FRAME" := splitLine_first (hno c List.mem_cons_self)
        have hl2 : (splitLine (c :: left ++ tail)).2.2 = false := splitLine_newline _ (List.mem_append_right _ h10)
        have second_ : Y4MReader.nextFrame { header := Y4MHeader.ofRaster first, input := { rest := c :: left ++ tail } } (some o2) = .error .format := by
          rcases C51_next_frame { header := Y4MHeader.ofRaster first, input := { rest := c :: left ++ tail } } hw hh hdr o2 (hp o2 (by simp)) with
            ⟨-, h1 | ⟨rest, h1, -⟩⟩ | ⟨h1, -⟩ | ⟨-, h1⟩ | ⟨rest, x', h1, -⟩
          · exact nomatch h1
          · simp only [h1] at hl1
            exact absurd rfl hl1
          · exact h1
          · rw [hl2] at h1
            exact nomatch h1
          · simp only [h1] at hl1
            exact absurd rfl hl1
        rw [List.map_cons, Y4MReader.all, h3]
        simp only [bind, Except.bind]
        rw [List.map_cons, Y4MReader.all, second_]
        rfl

/-- Two pictures of 17x20. -/
example : ∃ reader, Y4MReader.open (y4mFile (grayRaster 17 20 128) [grayRaster 17 20 77]) = .ok reader ∧
    reader.all ((List.replicate 4 (grayRaster 17 20 99)).map some) = .error .format :=
  C51_odd_size_misread (w := 17) (h := 20) (by omega) (by omega) (by omega) _ _ _ _ (grayRaster_ok ..) (by
    constructor <;> exact fun h => absurd (List.eq_of_mem_replicate h) (by decide))
    (fun x hx => by rw [List.eq_of_mem_replicate hx]; exact grayRaster_ok ..) (by decide)

/-- **C51, deviation.** The same file gives different pictures, depending on what was in the picture of the pool. -/
theorem C51_odd_depends_on_pool : ∃ (r : Y4MReader) (old old' x x' : Raster) (r' : Y4MReader), old.Ok 1 1 ∧ old'.Ok 1 1 ∧ r.nextFrame (some old) = .ok (some x, r') ∧
    r.nextFrame (some old') = .ok (some x', r') ∧ x.u.px 0 0 ≠ x'.u.px 0 0 := by
  let tinted (c : UInt8) : Raster := { grayRaster 1 1 0 with u := ⟨8, 8, List.replicate 64 c⟩ }
  have tinted_ok (c : UInt8) : (tinted c).Ok 1 1 := ⟨rfl, rfl, rfl, rfl, rfl, rfl, rfl, rfl, List.length_replicate, List.length_replicate, List.length_replicate⟩
  have step : ∀ c : UInt8, ∃ x, Y4MReader.nextFrame { header := Y4MHeader.ofRaster (grayRaster 1 1 5), input := { rest := ascii "FRAME\n" ++ [5] } } (some (tinted c)) =
      .ok (some x, { header := Y4MHeader.ofRaster (grayRaster 1 1 5), input := { rest := [] } }) := by
    intro c
    have hs : splitLine (ascii "FRAME\n" ++ [5]) = (ascii "FRAME", [5], false) := by decide +kernel
    rcases C51_next_frame { header := Y4MHeader.ofRaster (grayRaster 1 1 5), input := { rest := ascii "FRAME\n" ++ [5] } } (w := 1) (h := 1) (by omega) (by omega) ⟨rfl, rfl⟩
      (tinted c) (tinted_ok c) with ⟨-, h1 | ⟨rest, h1, h2⟩⟩ | ⟨-, h1⟩ | ⟨-, h1⟩ | ⟨rest, x', h1, h2, h3, -⟩
    · exact nomatch h1
    · simp only [hs, Prod.mk.injEq] at h1
      rw [← h1.2.1] at h2
      exact absurd h2 (by decide)
    · simp only [hs] at h1
      exact absurd rfl h1
    · simp only [hs] at h1
      exact nomatch h1
    · simp only [hs, Prod.mk.injEq] at h1
      obtain ⟨-, rfl, -⟩ := h1
      exact ⟨x', h3⟩
  obtain ⟨x, hx⟩ := step 10
  obtain ⟨x', hx'⟩ := step 20
  refine ⟨_, _, _, x, x', _, tinted_ok 10, tinted_ok 20, hx, hx', ?_⟩
  rw [C51_odd_width_shows_old_chroma _ (w := 1) (h := 1) (by omega) (by omega) (by omega) ⟨rfl, rfl⟩ _ _ (tinted_ok 10) _ hx 0 0 (by omega) (by decide) (by decide),
    C51_odd_width_shows_old_chroma _ (w := 1) (h := 1) (by omega) (by omega) (by omega) ⟨rfl, rfl⟩ _ _ (tinted_ok 20) _ hx' 0 0 (by omega) (by decide) (by decide)]
  decide +kernel

end Alfalfa
