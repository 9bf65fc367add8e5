import Verif.Model.Estimate
import Verif.Props.Session

/-! Lemmas for C87: the loops of the estimates. -/

namespace Alfalfa

open RenderSpec QuantizerSpec

/-! ### The macroblocks that are looked at -/

/-- The first `k` macroblocks are coded: `P` holds for the modes, and the coefficients are possible. -/
structure SampledUpTo (dw dh w h : Nat) (P : List MBModes → Nat → MBModes → Prop) (k : Nat) (s : Coded) : Prop where
  sized : s.raster.Sized dw dh w h
  modes : s.modes.length = k
  residues : s.residues.length = k
  good : ∀ j m, s.modes[j]? = some m → P s.modes j m
  residueOk : ∀ (j : Nat) (m : MBModes) (r : Residue), s.modes[j]? = some m → s.residues[j]? = some r → r.Ok m

theorem SampledUpTo.step {dw dh w h : Nat} {P : List MBModes → Nat → MBModes → Prop} (hP : ∀ a b j m, j ≤ a.length → P a j m → P (a ++ b) j m) {k : Nat}
    {s : Coded} (hs : SampledUpTo dw dh w h P k s) {t : Raster} {m : MBModes} {r : Residue} (ht : t.Sized dw dh w h) (hm : P s.modes k m) (hr : r.Ok m) :
    SampledUpTo dw dh w h P (k + 1) { raster := t, modes := s.modes ++ [m], residues := s.residues ++ [r] } := by
  refine ⟨ht, ?_, ?_, fun j m' hj => ?_, fun j m' r' h1 h2 => ?_⟩
  · dsimp only; rw [List.length_append, hs.modes, List.length_singleton]
  · dsimp only; rw [List.length_append, hs.residues, List.length_singleton]
  · dsimp only at hj ⊢
    rcases getElem?_snoc hj with ⟨h1, h2⟩ | ⟨h1, h2⟩
    · exact hP _ _ _ _ h1.le (hs.good j m' h2)
    · subst h2; rw [h1, hs.modes]; exact hP _ _ _ _ (by rw [hs.modes]) hm
  · dsimp only at h1 h2
    rcases getElem?_snoc h1 with ⟨a1, a2⟩ | ⟨a1, a2⟩
    · rcases getElem?_snoc h2 with ⟨b1, b2⟩ | ⟨b1, b2⟩
      · exact hs.residueOk j m' r' a2 b2
      · rw [hs.modes] at a1; rw [hs.residues] at b1; omega
    · rcases getElem?_snoc h2 with ⟨b1, b2⟩ | ⟨b1, b2⟩
      · rw [hs.modes] at a1; rw [hs.residues] at b1; omega
      · subst a2; subst b2; exact hr

theorem empty_sampled {dw dh w h : Nat} (P : List MBModes → Nat → MBModes → Prop) {s : Raster} (hs : s.Sized dw dh w h) :
    SampledUpTo dw dh w h P 0 { raster := s, modes := [], residues := [] } :=
  ⟨hs, rfl, rfl, fun _ _ h => (nomatch h), fun _ _ _ h => (nomatch h)⟩

/-- The macroblocks of the frame, four times as far from the left border, are macroblocks of the picture. -/
theorem mapped_bounds {width c : Nat} (h : c < (width / 4 + 15) / 16) : 4 * c < (width + 15) / 16 ∧ c ≤ 4 * c ∧
    16 * ((width / 4 + 15) / 16 - c + 4 * c) ≤ 16 * ((width + 15) / 16) := by
  omega

theorem originalAt_ok {width height : Nat} (hw : 0 < width ∧ width < 2 ^ 14) (hh : 0 < height ∧ height < 2 ^ 14) {o : Raster} (ho : o.Ok width height)
    {place : Nat × Nat} {c r : Nat} (h1 : place.1 < (width + 15) / 16) (h2 : place.2 < (height + 15) / 16) (h3 : c ≤ place.1) (h4 : r ≤ place.2) :
    ∃ t, originalAt o place c r = some t ∧ t.Sized width height ((width + 15) / 16) ((height + 15) / 16) := by
  have so := ho.sized hw hh
  have sb := (blank_ok width height).sized hw hh
  have h5 := Nat.lt_of_le_of_lt h3 h1
  have h6 := Nat.lt_of_le_of_lt h4 h2
  have gy := Plane.getSquare_spec so.y.full (n := 16) (x := 16 * place.1) (y := 16 * place.2) (by rw [so.y.width]; exact mb_bounds h1) (by rw [so.y.height]; exact mb_bounds h2)
  have gu := Plane.getSquare_spec so.u.full (n := 8) (x := 8 * place.1) (y := 8 * place.2) (by rw [so.u.width]; exact mb_bounds h1) (by rw [so.u.height]; exact mb_bounds h2)
  have gv := Plane.getSquare_spec so.v.full (n := 8) (x := 8 * place.1) (y := 8 * place.2) (by rw [so.v.width]; exact mb_bounds h1) (by rw [so.v.height]; exact mb_bounds h2)
  obtain ⟨py, y1, y2⟩ := Plane.putSquare_spec sb.y.full (x := 16 * c) (y := 16 * r) (fun (a b : Fin 16) => o.y.px (16 * place.1 + a) (16 * place.2 + b))
    (by rw [sb.y.width]; exact mb_bounds h5) (by rw [sb.y.height]; exact mb_bounds h6)
  obtain ⟨pu, u1, u2⟩ := Plane.putSquare_spec sb.u.full (x := 8 * c) (y := 8 * r) (fun (a b : Fin 8) => o.u.px (8 * place.1 + a) (8 * place.2 + b))
    (by rw [sb.u.width]; exact mb_bounds h5) (by rw [sb.u.height]; exact mb_bounds h6)
  obtain ⟨pv, v1, v2⟩ := Plane.putSquare_spec sb.v.full (x := 8 * c) (y := 8 * r) (fun (a b : Fin 8) => o.v.px (8 * place.1 + a) (8 * place.2 + b))
    (by rw [sb.v.width]; exact mb_bounds h5) (by rw [sb.v.height]; exact mb_bounds h6)
  refine ⟨{ blankRaster width height with y := py, u := pu, v := pv }, ?_, sb.displayWidth, sb.displayHeight, y2.sized sb.y, u2.sized sb.u, v2.sized sb.v⟩
  unfold originalAt
  rw [ho.displayWidth, ho.displayHeight]
  simp only [gy, gu, gv, y1, u1, v1, Option.bind_eq_bind, Option.bind_some, Option.pure_def]

/-- Pictures whose macroblock at `place` is the same. -/
def SameMacroblock (place : Nat × Nat) (a b : Raster) : Prop :=
  (∀ x y, x / 16 = place.1 → y / 16 = place.2 → a.y.px x y = b.y.px x y) ∧
  (∀ x y, x / 8 = place.1 → y / 8 = place.2 → a.u.px x y = b.u.px x y ∧ a.v.px x y = b.v.px x y)

theorem originalAt_same {width height : Nat} (hw : 0 < width ∧ width < 2 ^ 14) (hh : 0 < height ∧ height < 2 ^ 14) {a b : Raster} (ha : a.Ok width height)
    (hb : b.Ok width height) {place : Nat × Nat} {c r : Nat} (h1 : place.1 < (width + 15) / 16) (h2 : place.2 < (height + 15) / 16)
    (h : SameMacroblock place a b) : originalAt a place c r = originalAt b place c r := by
  have square (o : Raster) (ho : o.Ok width height) :
      o.y.getSquare 16 (16 * place.1) (16 * place.2) = some (fun (i j : Fin 16) => o.y.px (16 * place.1 + i) (16 * place.2 + j)) ∧
      o.u.getSquare 8 (8 * place.1) (8 * place.2) = some (fun (i j : Fin 8) => o.u.px (8 * place.1 + i) (8 * place.2 + j)) ∧
      o.v.getSquare 8 (8 * place.1) (8 * place.2) = some (fun (i j : Fin 8) => o.v.px (8 * place.1 + i) (8 * place.2 + j)) := by
    have so := ho.sized hw hh
    exact ⟨Plane.getSquare_spec so.y.full (by rw [so.y.width]; exact mb_bounds h1) (by rw [so.y.height]; exact mb_bounds h2),
      Plane.getSquare_spec so.u.full (by rw [so.u.width]; exact mb_bounds h1) (by rw [so.u.height]; exact mb_bounds h2),
      Plane.getSquare_spec so.v.full (by rw [so.v.width]; exact mb_bounds h1) (by rw [so.v.height]; exact mb_bounds h2)⟩
  obtain ⟨a1, a2, a3⟩ := square a ha
  obtain ⟨b1, b2, b3⟩ := square b hb
  have e1 : (fun (i j : Fin 16) => a.y.px (16 * place.1 + i) (16 * place.2 + j)) = fun (i j : Fin 16) => b.y.px (16 * place.1 + i) (16 * place.2 + j) :=
    funext fun i => funext fun j => h.1 _ _ (by omega) (by omega)
  have e2 : (fun (i j : Fin 8) => a.u.px (8 * place.1 + i) (8 * place.2 + j)) = fun (i j : Fin 8) => b.u.px (8 * place.1 + i) (8 * place.2 + j) :=
    funext fun i => funext fun j => (h.2 _ _ (by omega) (by omega)).1
  have e3 : (fun (i j : Fin 8) => a.v.px (8 * place.1 + i) (8 * place.2 + j)) = fun (i j : Fin 8) => b.v.px (8 * place.1 + i) (8 * place.2 + j) :=
    funext fun i => funext fun j => (h.2 _ _ (by omega) (by omega)).2
  unfold originalAt
  rw [a1, a2, a3, b1, b2, b3, e1, e2, e3, ha.displayWidth, ha.displayHeight, hb.displayWidth, hb.displayHeight]

/-! ### One macroblock -/

/-- What is asked of the choices for an estimate: the trials of modes keep the size of the picture, the recycled picture has that size, and a search for a new
vector takes place in frames of at most 248 by 248 macroblocks. -/
structure EstimateWork.Ok (width height : Nat) (e : EstimateWork) : Prop where
  early : ∀ k s, Raster.Ok width height s → (e.trials.early k s).Ok width height
  late : ∀ k s, Raster.Ok width height s → (e.trials.late k s).Ok width height
  scratch : e.scratch.Ok width height
  vectors : ∀ k cost, e.interModes k = .new cost → (width / 4 + 15) / 16 ≤ 248 ∧ (height / 4 + 15) / 16 ≤ 248

theorem sampleKeyStep_ok {width height : Nat} (hw : 0 < width ∧ width < 2 ^ 14) (hh : 0 < height ∧ height < 2 ^ 14) {e : EstimateWork} (he : e.Ok width height)
    {q : Quantizer} (hq : q.InRange) {o : Raster} (ho : o.Ok width height) {hd : KeyFrameHeader} (h1 : hd.updateSegmentation = none)
    (h2 : hd.probSkipFalse.isSome = true) {k : Nat} {s : Coded} (hk : k < (width / 4 + 15) / 16 * ((height / 4 + 15) / 16))
    (hs : SampledUpTo width height ((width + 15) / 16) ((height + 15) / 16) (fun _ _ m => m.KeyOk hd) k s) :
    ∃ t, sampleKeyStep e q o ((width / 4 + 15) / 16) s k = some t ∧
      SampledUpTo width height ((width + 15) / 16) ((height + 15) / 16) (fun _ _ m => m.KeyOk hd) (k + 1) t := by
  have hp := pos_of_lt_mul hk
  have hc := Nat.mod_lt k hp
  have hr := div_lt_of hk
  obtain ⟨c1, c2, -⟩ := mapped_bounds hc
  obtain ⟨r1, r2, -⟩ := mapped_bounds hr
  generalize (width / 4 + 15) / 16 = w at *
  obtain ⟨o', o1, o2⟩ := originalAt_ok hw hh ho (place := mapped (k % w) (k / w)) (c := k % w) (r := k / w)
    (by unfold mapped sampleFactor; dsimp only; omega) (by unfold mapped sampleFactor; dsimp only; omega)
    (by unfold mapped sampleFactor; dsimp only; omega) (by unfold mapped sampleFactor; dsimp only; omega)
  have hc' : k % w < (width + 15) / 16 := by omega
  have hr' : k / w < (height + 15) / 16 := by omega
  have l1 := (he.late k _ hs.sized.ok).sized hw hh
  obtain ⟨m, r, e1, m1, m2, m3, m4, m5⟩ := codeIntra_ok (pass := none) (fun _ h => nomatch h) k hq (e.keyModes k) o2 ((he.early k _ hs.sized.ok).sized hw hh) hc' hr'
  obtain ⟨t, t1, t2⟩ := reconstructIntra_solved l1 hc' hr' o q m1 m2.isInter r
  refine ⟨_, by unfold sampleKeyStep keyStep; simp only [o1, e1, t1, Option.bind_eq_bind, Option.bind_some]; rfl, hs.step (fun _ _ _ _ _ h => h) (t2.sized l1)
    ⟨⟨?_, fun v hv => ?_, ?_⟩, m1, m2⟩ m5⟩
  · rw [m4, h1]; simp
  · rw [m4] at hv; exact nomatch hv
  · rw [m3, h2]; rfl

theorem sampleInter_ok (mb : Nat) {q : Quantizer} (hq : q.InRange) {dw dh dw' dh' dw'' dh'' w h : Nat} {o s reference : Raster} (ho : o.Sized dw' dh' w h)
    (hs : s.Sized dw dh w h) (href : reference.Sized dw'' dh'' w h) {rows : List (List UInt8)} {c : MBContext} (hc : c.column < w) (hr : c.row < h)
    {place : Nat × Nat} {mode : Nat} {mv : MotionVector} (hv : VectorOk reference.y rows c mode mv place) (hd : InterFrameHeader) :
    ∃ m r sc, sampleInter q rows reference c place mode mv mb o s = some (m, r) ∧ census m.flipped c = some sc ∧ m.InterOk hd c sc ∧
      m.sel1 = some false ∧ m.skip = some (!r.nonzero) ∧ m.segmentIdUpdate = none ∧ r.Ok m ∧ m.yMode ≠ SPLITMV := by
  have y1 : 16 * c.column + 16 ≤ o.y.width := by rw [ho.y.width]; exact mb_bounds hc
  have y2 : 16 * c.row + 16 ≤ o.y.height := by rw [ho.y.height]; exact mb_bounds hr
  have u1 : 8 * c.column + 8 ≤ o.u.width := by rw [ho.u.width]; exact mb_bounds hc
  have u2 : 8 * c.row + 8 ≤ o.u.height := by rw [ho.u.height]; exact mb_bounds hr
  have v1 : 8 * c.column + 8 ≤ o.v.width := by rw [ho.v.width]; exact mb_bounds hc
  have v2 : 8 * c.row + 8 ≤ o.v.height := by rw [ho.v.height]; exact mb_bounds hr
  have hnone : ∀ s : SecondPass, none = some s → s.Fits := fun _ h => nomatch h
  have hvis := hv.visible
  rw [interSquare_eq href.y.full] at hvis
  obtain ⟨py, g1, g2⟩ := Plane.putSquare_spec hs.y.full (x := 16 * c.column) (y := 16 * c.row) (fun (a b : Fin 16) =>
    UInt8.ofNat (InterSpec.interpolated reference.y (8 * ((16 * place.1 + a : Nat) : Int) + mv.x) (8 * ((16 * place.2 + b : Nat) : Int) + mv.y)))
    (by rw [hs.y.width]; exact mb_bounds hc) (by rw [hs.y.height]; exact mb_bounds hr)
  have sy := g2.sized hs.y
  obtain ⟨b, b1, b2, b3⟩ := codeWhole_ok (pass := none) hnone mb hq ho.y.full sy.full y1 y2 (sy.width.trans ho.y.width.symm) (sy.height.trans ho.y.height.symm)
  have iu := interSquare_eq href.u.full 8 (chromaMvs (fun _ => mv) 0) place.1 place.2
  have iv := interSquare_eq href.v.full 8 (chromaMvs (fun _ => mv) 0) place.1 place.2
  rw [href.u.width.trans hs.u.width.symm] at iu
  rw [href.v.width.trans hs.v.width.symm] at iv
  obtain ⟨pu, e1, e2⟩ := Plane.putSquare_spec hs.u.full (x := 8 * c.column) (y := 8 * c.row) (fun (a b : Fin 8) =>
    UInt8.ofNat (InterSpec.interpolated reference.u (8 * ((8 * place.1 + a : Nat) : Int) + (chromaMvs (fun _ => mv) 0).x)
      (8 * ((8 * place.2 + b : Nat) : Int) + (chromaMvs (fun _ => mv) 0).y)))
    (by rw [hs.u.width]; exact mb_bounds hc) (by rw [hs.u.height]; exact mb_bounds hr)
  obtain ⟨pv, f1, f2⟩ := Plane.putSquare_spec hs.v.full (x := 8 * c.column) (y := 8 * c.row) (fun (a b : Fin 8) =>
    UInt8.ofNat (InterSpec.interpolated reference.v (8 * ((8 * place.1 + a : Nat) : Int) + (chromaMvs (fun _ => mv) 0).x)
      (8 * ((8 * place.2 + b : Nat) : Int) + (chromaMvs (fun _ => mv) 0).y)))
    (by rw [hs.v.width]; exact mb_bounds hc) (by rw [hs.v.height]; exact mb_bounds hr)
  have su := e2.sized hs.u
  have sv := f2.sized hs.v
  obtain ⟨u, c1, c2⟩ := codeChroma_ok (pass := none) hnone mb 16 hq ho.u.full su.full u1 u2 (su.width.trans ho.u.width.symm) (su.height.trans ho.u.height.symm)
  obtain ⟨v, d1, d2⟩ := codeChroma_ok (pass := none) hnone mb 20 hq ho.v.full sv.full v1 v2 (sv.width.trans ho.v.width.symm) (sv.height.trans ho.v.height.symm)
  obtain ⟨sc, s1, s2, s3, s4, s5⟩ := hv.modes
  have hnb : ¬ (mode = B_PRED ∨ mode = SPLITMV) := by
    rcases hv.kind with h | h | h | h <;> subst h <;> decide
  refine ⟨{ skip := some (!(assembleResidue b.1 b.2 u v).nonzero), isInter := true, sel1 := some false, yMode := mode, mvs := fun _ => mv,
            uMvs := chromaMvs fun _ => mv }, assembleResidue b.1 b.2 u v, sc, ?_, s1, ?_, rfl, rfl, rfl,
    assemble_ok b2 (fun h => absurd h hnb) (fun k => ?_) c2 d2 rfl, fun h => hnb (.inr h)⟩
  · unfold sampleInter
    simp only [hvis, g1, b1, iu, iv, e1, f1, c1, d1, Option.bind_eq_bind, Option.bind_some, Option.pure_def]
  · refine ⟨rfl, rfl, by simp, by simp, ?_, rfl, fun h _ => s2 h, fun h _ => s3 h, fun h _ => s4 h, fun h => ⟨mv, fun _ => rfl, s5 h⟩,
      fun _ => ⟨rfl, fun _ => rfl⟩, fun h => absurd (.inr h) hnb, fun _ => rfl⟩
    rcases hv.kind with h | h | h | h <;> subst h <;> dsimp only <;> decide
  · dsimp only
    rw [if_neg hnb]
    exact b3 k

theorem sampleInterStep_ok {width height : Nat} (hw : 0 < width ∧ width < 2 ^ 14) (hh : 0 < height ∧ height < 2 ^ 14) {e : EstimateWork} (he : e.Ok width height)
    {q : Quantizer} (hq : q.InRange) {o : Raster} (ho : o.Ok width height) {references : References} (href : references.last.Ok width height)
    {rows : List (List UInt8)} (hrows : safeRaster references.last.y = some rows) {hd : InterFrameHeader} (h1 : hd.updateSegmentation = none)
    (h2 : hd.probSkipFalse.isSome = true) {k : Nat} {s : Coded} (hk : k < (width / 4 + 15) / 16 * ((height / 4 + 15) / 16))
    (hs : SampledUpTo width height ((width + 15) / 16) ((height + 15) / 16) (fun l j m =>
      m.InterFrameOk hd (gridContext ((width / 4 + 15) / 16) ((height / 4 + 15) / 16) l j) ∧ m.yMode ≠ SPLITMV) k s) :
    ∃ t, sampleInterStep e q rows references o ((width / 4 + 15) / 16) ((height / 4 + 15) / 16) s k = some t ∧
      SampledUpTo width height ((width + 15) / 16) ((height + 15) / 16) (fun l j m =>
        m.InterFrameOk hd (gridContext ((width / 4 + 15) / 16) ((height / 4 + 15) / 16) l j) ∧ m.yMode ≠ SPLITMV) (k + 1) t := by
  have hp := pos_of_lt_mul hk
  have hc := Nat.mod_lt k hp
  have hr := div_lt_of hk
  obtain ⟨c1, c2, c3⟩ := mapped_bounds hc
  obtain ⟨r1, r2, r3⟩ := mapped_bounds hr
  have hvec := he.vectors k
  generalize (width / 4 + 15) / 16 = w at *
  generalize (height / 4 + 15) / 16 = h at *
  obtain ⟨o', o1, o2⟩ := originalAt_ok hw hh ho (place := mapped (k % w) (k / w)) (c := k % w) (r := k / w)
    (by unfold mapped sampleFactor; dsimp only; omega) (by unfold mapped sampleFactor; dsimp only; omega)
    (by unfold mapped sampleFactor; dsimp only; omega) (by unfold mapped sampleFactor; dsimp only; omega)
  have hc' : k % w < (width + 15) / 16 := by omega
  have hr' : k / w < (height + 15) / 16 := by omega
  have l1 := (he.late k _ hs.sized.ok).sized hw hh
  have l0 := (he.early k _ hs.sized.ok).sized hw hh
  have sr := href.sized hw hh
  have hP : ∀ (a b : List MBModes) (j : Nat) (m : MBModes), j ≤ a.length → (m.InterFrameOk hd (gridContext w h a j) ∧ m.yMode ≠ SPLITMV) →
      (m.InterFrameOk hd (gridContext w h (a ++ b) j) ∧ m.yMode ≠ SPLITMV) := fun a b j m hj hm => by rwa [gridContext_append h a b hp hj]
  have pre : ∀ (m : MBModes) (r : Residue), m.skip = some (!r.nonzero) → m.segmentIdUpdate = none → m.PrefixOk hd.updateSegmentation hd.probSkipFalse :=
    fun m r m3 m4 => ⟨by rw [m4, h1]; simp, (fun v hv => by rw [m4] at hv; cases hv), by rw [m3, h2]; rfl⟩
  by_cases hi : ∃ i, e.interModes k = .intra i
  · obtain ⟨i, hi⟩ := hi
    obtain ⟨m, r, e1, m1, m2, m3, m4, m5⟩ := codeIntra_ok (pass := none) (fun _ h => nomatch h) k hq i o2 l0 hc' hr'
    obtain ⟨t, t1, t2⟩ := reconstructIntra_solved l1 hc' hr' (reference references m) q m1 m2.isInter r
    refine ⟨_, by unfold sampleInterStep; dsimp only; rw [o1, hi]; simp only [e1, t1, Option.bind_eq_bind, Option.bind_some]; rfl, hs.step hP (t2.sized l1)
      ⟨⟨pre m r m3 m4, .inl ⟨m1, m2⟩⟩, fun e => by have := m1.yMode; rw [e] at this; revert this; decide⟩ m5⟩
  · have hn : ∀ i, e.interModes k ≠ .intra i := fun i e => hi ⟨i, e⟩
    have hfits : Search.Fits { rows, context := gridContext w h s.modes k, cost := fun _ _ => 0, place := mapped (k % w) (k / w) } references.last.y := by
      refine ⟨sr.y.full, hrows, ?_, ?_, hc, hr, ?_, ?_⟩
      · rw [sr.y.width]
        show 16 * (w - k % w + k % w * 4) ≤ _
        omega
      · rw [sr.y.height]
        show 16 * (h - k / w + k / w * 4) ≤ _
        omega
      · show k % w ≤ k % w * 4
        omega
      · show k / w ≤ k / w * 4
        omega
    have hfit : (e.interModes k).Fits w h := by
      cases hm : e.interModes k with
      | new cost => exact hvec cost hm
      | _ => trivial
    obtain ⟨mode, mv, v1, v2⟩ := interVector_ok hfits hn hfit
    obtain ⟨m, r, sc, e1, e2, e3, e4, m3, m4, m5, m6⟩ := sampleInter_ok k hq o2 l0 sr (c := gridContext w h s.modes k) hc' hr' v2 hd
    have hlast : reference references m = references.last := by
      unfold reference; rw [e4]; rfl
    obtain ⟨t, t1, t2⟩ := reconstructInter_solved l1 hc' hr' (references := references) (m := m) (by rw [hlast]; exact sr) q e3 r
    refine ⟨{ raster := t, modes := s.modes ++ [m], residues := s.residues ++ [r] }, ?_, hs.step hP (t2.sized l1)
      ⟨⟨pre m r m3 m4, .inr ⟨sc, e2, e3⟩⟩, m6⟩ m5⟩
    have hstep : sampleInterStep e q rows references o w h s k = (do
        let o ← originalAt o (mapped (k % w) (k / w)) (k % w) (k / w)
        let (mode, mv) ← interVector rows (gridContext w h s.modes k) (e.interModes k) (mapped (k % w) (k / w))
        let (m, r) ← sampleInter q rows references.last (gridContext w h s.modes k) (mapped (k % w) (k / w)) mode mv k o (e.trials.early k s.raster)
        let raster ← reconstructInter q references m r (k % w) (k / w) (e.trials.late k s.raster)
        pure { raster, modes := s.modes ++ [m], residues := s.residues ++ [r] }) := by
      unfold sampleInterStep
      cases he : e.interModes k with
      | intra i => exact absurd he (hn i)
      | _ => rfl
    dsimp only at v1
    rw [hstep, o1, Option.bind_eq_bind, Option.bind_some, v1]
    simp only [e1, t1, Option.bind_eq_bind, Option.bind_some]
    rfl

end Alfalfa
