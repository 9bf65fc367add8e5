import Verif.Model.Webcam
import Verif.Props.Convert

/-! C81: a played file arrives byte for byte. -/

namespace Alfalfa
open FidelitySpec

/-- A picture has one list of bytes. -/
theorem RawHolds.unique {w h : Nat} (hw : 0 < w) (even : w % 2 = 0) {f g : List UInt8} {x : Raster} (hx : x.Ok w h) (hf : RawHolds w h f x) (hg : RawHolds w h g x)
    (lf : f.length = rawSize w h) (lg : g.length = rawSize w h) : f = g := by
  have hn : NearBy 0 0 x x := ⟨fun u v _ _ => by unfold apart; simp, fun u v _ _ => by unfold apart; simp, fun u v _ _ => by unfold apart; simp⟩
  have := near_bytes hw even hx hf hg lf lg hn
  refine List.ext_getElem (lf.trans lg.symm) fun k h1 h2 => ?_
  have e : apart (g.getD k 0) (f.getD k 0) = 0 := by
    by_cases hk : k < h * w
    · exact Nat.le_zero.1 (this.luma k hk)
    · exact Nat.le_zero.1 (this.chroma k (by omega) (by omega))
  have e2 : g.getD k 0 = f.getD k 0 := by
    unfold apart at e
    exact UInt8.toNat_inj.1 (by omega)
  rw [List.getD_eq_getElem?_getD, List.getD_eq_getElem?_getD, List.getElem?_eq_getElem h1, List.getElem?_eq_getElem h2] at e2
  exact e2.symm

theorem fakeWebcamLoop_going (fps : Nat) {w h : Nat} (hw : 0 < w ∧ w ≤ 65520) (hh : 0 < h ∧ h ≤ 65520) (even : w % 2 = 0 ∧ h % 2 = 0) {header : Y4MHeader}
    (hdr : header.width = w ∧ header.height = h) (tail : List UInt8) : ∀ {frames : List (List UInt8)} {pool : List Raster} {n : Nat} (started : Bool),
    (∀ f ∈ frames, f.length = rawSize w h) → (∀ x ∈ pool, x.Ok w h) → frames.length < pool.length → frames.length < n →
    ∃ rest n', n' ≠ 0 ∧ rest ≠ [] ∧ (∀ x ∈ rest, x.Ok w h) ∧
      fakeWebcamLoop fps n ({ header, input := { rest := frames.flatMap (ascii "FRAME\n" ++ ·) ++ tail } }, pool.map some) started =
        ((if started ∨ frames = [] then [] else Y4MHeader.text
            { width := w, height := h, fpsNumerator := fps, fpsDenominator := 1, aspectNumerator := 1, aspectDenominator := 1 }) ++
          frames.flatMap (ascii "FRAME\n" ++ ·) ++ (fakeWebcamLoop fps n' ({ header, input := { rest := tail } }, rest.map some) (started || !frames.isEmpty)).1,
         (fakeWebcamLoop fps n' ({ header, input := { rest := tail } }, rest.map some) (started || !frames.isEmpty)).2)
  | [], pool, n, started, _, hp, hl, hn => by
    refine ⟨pool, n, by rw [List.length_nil] at hn; omega, fun e => by rw [e] at hl; exact absurd hl (by decide), hp, ?_⟩
    rw [if_pos (.inr rfl)]
    simp
  | f :: frames, old :: pool, n + 1, started, hf, hp, hl, hn => by
    obtain ⟨rest, n', g0, g1, g2, g3⟩ := fakeWebcamLoop_going fps hw hh even hdr tail (n := n) true (fun g hg => hf g (List.mem_cons_of_mem _ hg))
      (fun x hx => hp x (List.mem_cons_of_mem _ hx)) (Nat.lt_of_succ_lt_succ hl) (Nat.lt_of_succ_lt_succ hn)
    obtain ⟨x, x1, x2, x3⟩ := y4m_next hw hh even hdr (hp old (List.mem_cons_self ..)) (hf f (List.mem_cons_self ..)) (frames.flatMap (ascii "FRAME\n" ++ ·) ++ tail)
    obtain ⟨g, k1, k2, k3⟩ := y4m_written hw hh even x2
    have e := RawHolds.unique hw.1 even.1 x2 x3 k3 (hf f (List.mem_cons_self ..)) k2
    subst e
    refine ⟨rest, n', g0, g1, g2, ?_⟩
    have hin : y4mInput ({ header, input := { rest := (f :: frames).flatMap (ascii "FRAME\n" ++ ·) ++ tail } }, (old :: pool).map some) =
        .ok (some x, ({ header, input := { rest := frames.flatMap (ascii "FRAME\n" ++ ·) ++ tail } }, pool.map some)) := by
      show y4mInput (_, some old :: pool.map some) = _
      unfold y4mInput
      dsimp only
      rw [List.flatMap_cons, List.append_assoc (ascii "FRAME\n" ++ f), x1]
    rw [fakeWebcamLoop, hin]
    dsimp only
    rw [g3, k1, if_pos (c := true = true ∨ frames = []) (.inl rfl), Bool.true_or, show (started || !(f :: frames).isEmpty) = true by simp]
    unfold webcamHeader Y4MHeader.ofRaster
    rw [x2.displayWidth, x2.displayHeight]
    cases started <;> simp [List.flatMap_cons]

/-- **C81**: a file of raw video (of even width and height) is sent on byte for byte; only the header is new, with the size of the file and the rate that was asked
for. -/
theorem C81_played {w h : Nat} (hw : 0 < w ∧ w ≤ 65520) (hh : 0 < h ∧ h ≤ 65520) (even : w % 2 = 0 ∧ h % 2 = 0) {header : Y4MHeader} (hfits : header.Fits)
    (hdr : header.width = w ∧ header.height = h) (hcolor : header.color ≠ .c422 ∧ header.color ≠ .c444) {frames : List (List UInt8)}
    (hl : ∀ f ∈ frames, f.length = rawSize w h) {pool : List Raster} (hp : ∀ x ∈ pool, x.Ok w h) (hn : frames.length < pool.length) (fps : Nat) :
    fakeWebcam fps (pool.map some) (rawVideo header frames) = (if frames = [] then [] else
      rawVideo { width := w, height := h, fpsNumerator := fps, fpsDenominator := 1, aspectNumerator := 1, aspectDenominator := 1 } frames, none) := by
  have hopen : Y4MReader.open (rawVideo header frames) =
      .ok { header := { header with color := .c420 }, input := { rest := frames.flatMap (ascii "FRAME\n" ++ ·) } } := by
    unfold rawVideo
    rw [open_text header hfits, if_neg (by rintro (h | h); exacts [hcolor.1 h, hcolor.2 h])]
  unfold fakeWebcam
  rw [hopen]
  dsimp only
  obtain ⟨rest, n', g0, g1, g2, g3⟩ := fakeWebcamLoop_going fps hw hh even (header := { header with color := .c420 }) hdr [] (pool := pool)
    (n := (pool.map some).length + 1) false hl hp hn (by rw [List.length_map]; omega)
  rw [List.append_nil] at g3
  rw [g3]
  have hend : ∀ b, fakeWebcamLoop fps n' ({ header := { header with color := .c420 }, input := { rest := [] } }, rest.map some) b = ([], none) := by
    intro b
    cases n' with
    | zero => rfl
    | succ n' =>
      cases rest with
      | nil => exact absurd rfl g1
      | cons y rest => rfl
  rw [hend]
  by_cases he : frames = []
  · subst he; rfl
  · simp [he, rawVideo]

/-- **C81** (a file that is cut off, or still being written): the whole pictures that it begins with are sent on, whatever follows them. -/
theorem C81_cut_off {w h : Nat} (hw : 0 < w ∧ w ≤ 65520) (hh : 0 < h ∧ h ≤ 65520) (even : w % 2 = 0 ∧ h % 2 = 0) {header : Y4MHeader} (hfits : header.Fits)
    (hdr : header.width = w ∧ header.height = h) (hcolor : header.color ≠ .c422 ∧ header.color ≠ .c444) {frames : List (List UInt8)} (hne : frames ≠ [])
    (hl : ∀ f ∈ frames, f.length = rawSize w h) (tail : List UInt8) {pool : List Raster} (hp : ∀ x ∈ pool, x.Ok w h) (hn : frames.length < pool.length) (fps : Nat) :
    rawVideo { width := w, height := h, fpsNumerator := fps, fpsDenominator := 1, aspectNumerator := 1, aspectDenominator := 1 } frames <+:
      (fakeWebcam fps (pool.map some) (rawVideo header frames ++ tail)).1 := by
  have hopen : Y4MReader.open (rawVideo header frames ++ tail) =
      .ok { header := { header with color := .c420 }, input := { rest := frames.flatMap (ascii "FRAME\n" ++ ·) ++ tail } } := by
    unfold rawVideo
    rw [List.append_assoc, open_text header hfits, if_neg (by rintro (h | h); exacts [hcolor.1 h, hcolor.2 h])]
  unfold fakeWebcam
  rw [hopen]
  dsimp only
  obtain ⟨rest, n', g0, g1, g2, g3⟩ := fakeWebcamLoop_going fps hw hh even (header := { header with color := .c420 }) hdr tail (pool := pool)
    (n := (pool.map some).length + 1) false hl hp hn (by rw [List.length_map]; omega)
  rw [g3, if_neg (by simp [hne])]
  exact ⟨_, rfl⟩

/-- Two pictures of 40 by 30, at 12 pictures in a second. -/
example : fakeWebcam 12 ([grayRaster 40 30 1, grayRaster 40 30 2, grayRaster 40 30 3].map some) (rawVideo exampleHeader exampleVideo) =
    (rawVideo { width := 40, height := 30, fpsNumerator := 12, fpsDenominator := 1, aspectNumerator := 1, aspectDenominator := 1 } exampleVideo, none) := by
  have := C81_played (by decide) (by decide) (by decide) (header := exampleHeader) (by constructor <;> decide) ⟨rfl, rfl⟩ (by decide) (frames := exampleVideo)
    exampleVideo_size (pool := [grayRaster 40 30 1, grayRaster 40 30 2, grayRaster 40 30 3])
    (fun x hx => by
      simp only [List.mem_cons, List.not_mem_nil, or_false] at hx
      rcases hx with rfl | rfl | rfl <;> exact grayRaster_ok ..) (by decide) 12
  rwa [if_neg (by decide)] at this

end Alfalfa
