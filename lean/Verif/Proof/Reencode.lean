import Verif.Props.Encode
import Verif.Model.Reencode

/-! The macroblocks that re-encoding makes. -/

namespace Alfalfa

open RenderSpec QuantizerSpec

variable {column row : Nat} {o p : Plane}

/-! ### Luma and chroma -/

theorem codePlain_ok (mb : Nat) {q : Quantizer} (hq : q.InRange) (ho : o.Full) (hp : p.Full) (hx : 16 * column + 16 ≤ o.width)
    (hy : 16 * row + 16 ≤ o.height) (hw : p.width = o.width) (hh : p.height = o.height) :
    ∃ b, codePlain mb q o p column row = some b ∧ ∀ k, (b k).Representable .yWithoutY2 := by
  choose c hc1 hc2 using lumaDct_ok ho hp hx hy hw hh
  choose y hy1 hy2 using fun k : Fin 16 => compress_ok (pass := none) (fun _ h => nomatch h) mb ⟨k.val, by omega⟩ hq (type := .yWithoutY2) (hc2 k)
    (.inl (Nat.le_refl _))
  unfold codePlain
  rw [allSome_some hc1, Option.bind_eq_bind, Option.bind_some, allSome_some hy1]
  exact ⟨_, rfl, fun k => codedBlock_representable (hy2 k).small (fun h => nomatch h)⟩

theorem splitLuma_ok (hp : p.Full) (hx : 16 * column + 16 ≤ p.width) (hy : 16 * row + 16 ≤ p.height) {reference : Plane} (hr : reference.Full)
    (hw : reference.width = p.width) (mvs : Fin 16 → MotionVector) :
    ∃ t, forLuma (fun p k => interPredict 4 p reference (mvs k) (4 * column + k.val % 4) (4 * row + k.val / 4)) p = some t ∧
      p.Replaced 16 column row t fun x y => UInt8.ofNat (InterSpec.interpolated reference
        (8 * ((16 * column + x : Nat) : Int) + (mvs (block16 x y)).x) (8 * ((16 * row + y : Nat) : Int) + (mvs (block16 x y)).y)) := by
  obtain ⟨t, e1, e2⟩ := forLuma_replaced (column := column) (row := row) hp
    (step := fun p k => interPredict 4 p reference (mvs k) (4 * column + k.val % 4) (4 * row + k.val / 4))
    (F := fun k c r _ => UInt8.ofNat (InterSpec.interpolated reference
      (8 * ((4 * (4 * column + k.val % 4) + c.val : Nat) : Int) + (mvs k).x) (8 * ((4 * (4 * row + k.val / 4) + r.val : Nat) : Int) + (mvs k).y)))
    (fun s k hs => by
      obtain ⟨b1, b2⟩ := block_bounds16 hx hy k
      exact C36_inter_prediction hs.full hr (hw.trans hs.width.symm) (mvs k) (hs.width ▸ b1) (hs.height ▸ b2))
  refine ⟨t, e1, e2.congr fun x y => ?_⟩
  obtain ⟨b1, b2⟩ := px_block16 column row x y
  rw [← b1, ← b2]

theorem splitChroma_ok (hp : p.Full) (hx : 8 * column + 8 ≤ p.width) (hy : 8 * row + 8 ≤ p.height) {reference : Plane} (hr : reference.Full)
    (hw : reference.width = p.width) (mvs : Fin 4 → MotionVector) :
    ∃ t, forChroma (fun p k => interPredict 4 p reference (mvs k) (2 * column + k.val % 2) (2 * row + k.val / 2)) p = some t ∧
      p.Replaced 8 column row t fun x y => UInt8.ofNat (InterSpec.interpolated reference
        (8 * ((8 * column + x : Nat) : Int) + (mvs (block8 x y)).x) (8 * ((8 * row + y : Nat) : Int) + (mvs (block8 x y)).y)) := by
  obtain ⟨t, e1, e2⟩ := forChroma_replaced (column := column) (row := row) hp
    (step := fun p k => interPredict 4 p reference (mvs k) (2 * column + k.val % 2) (2 * row + k.val / 2))
    (F := fun k c r _ => UInt8.ofNat (InterSpec.interpolated reference
      (8 * ((4 * (2 * column + k.val % 2) + c.val : Nat) : Int) + (mvs k).x) (8 * ((4 * (2 * row + k.val / 2) + r.val : Nat) : Int) + (mvs k).y)))
    (fun s k hs => by
      obtain ⟨b1, b2⟩ := block_bounds8 hx hy k
      exact C36_inter_prediction hs.full hr (hw.trans hs.width.symm) (mvs k) (hs.width ▸ b1) (hs.height ▸ b2))
  refine ⟨t, e1, e2.congr fun x y => ?_⟩
  obtain ⟨b1, b2⟩ := px_block8 column row x y
  rw [← b1, ← b2]

theorem updateLuma_ok (mb : Nat) {q : Quantizer} (hq : q.InRange) {reference : Plane} (hr : reference.Full) {m : MBModes} (hb : m.yMode ≠ B_PRED)
    (ho : o.Full) (hp : p.Full) (hx : 16 * column + 16 ≤ o.width) (hy : 16 * row + 16 ≤ o.height) (hw : p.width = o.width) (hh : p.height = o.height)
    (hrw : reference.width = o.width) :
    ∃ b, updateLuma mb q reference m o p column row = some b ∧ b.1.Representable .y2 ∧ (m.yMode = SPLITMV → b.1 = {}) ∧
      ∀ k, (b.2 k).Representable (if m.yMode = B_PRED ∨ m.yMode = SPLITMV then .yWithoutY2 else .yAfterY2) := by
  unfold updateLuma
  by_cases hs : m.yMode = SPLITMV
  · rw [if_pos hs]
    obtain ⟨t, e1, e2⟩ := splitLuma_ok hp (hw ▸ hx) (hh ▸ hy) hr (hrw.trans hw.symm) m.mvs
    have st : t.Sized o.width o.height := hw ▸ hh ▸ e2.sized
    obtain ⟨b, b1, b2⟩ := codePlain_ok mb hq ho st.full hx hy st.width st.height
    rw [e1, Option.bind_eq_bind, Option.bind_some, b1]
    exact ⟨_, rfl, empty_representable _, fun _ => rfl, fun k => by rw [if_pos (.inr hs)]; exact b2 k⟩
  · rw [if_neg hs]
    obtain ⟨t, e1, e2⟩ := C36_inter_prediction hp hr (hrw.trans hw.symm) (n := 16) m.baseMv (column := column) (row := row) (hw ▸ hx) (hh ▸ hy)
    have st : t.Sized o.width o.height := e2.sized ⟨hp, hw, hh⟩
    obtain ⟨b, b1, b2, b3⟩ := codeWhole_ok (pass := none) (fun _ h => nomatch h) mb hq ho st.full hx hy st.width st.height
    rw [e1, Option.bind_eq_bind, Option.bind_some, b1]
    exact ⟨b, rfl, b2, fun h => absurd h hs, fun k => by rw [if_neg (by simp [hb, hs])]; exact b3 k⟩

theorem predictChroma_ok (hp : p.Full) (hx : 8 * column + 8 ≤ p.width) (hy : 8 * row + 8 ≤ p.height) {reference : Plane} (hr : reference.Full)
    (hw : reference.width = p.width) (split : Bool) (mvs : Fin 4 → MotionVector) :
    ∃ t, predictChroma reference split mvs p column row = some t ∧ t.Sized p.width p.height := by
  unfold predictChroma
  cases split
  · obtain ⟨t, e1, e2⟩ := C36_inter_prediction hp hr hw (n := 8) (mvs 0) (column := column) (row := row) hx hy
    exact ⟨t, e1, e2.sized ⟨hp, rfl, rfl⟩⟩
  · obtain ⟨t, e1, e2⟩ := splitChroma_ok hp hx hy hr hw mvs
    exact ⟨t, e1, e2.sized⟩

/-! ### Macroblocks -/

theorem InterOk.notBPred {h : InterFrameHeader} {c : MBContext} {s : Scorer} {m : MBModes} (hm : m.InterOk h c s) : m.yMode ≠ B_PRED := by
  rcases hm.yMode with h | h | h | h | h <;> rw [h] <;> decide

/-- Inter-predicted: the modes stay, apart from the skip flag, which says whether there are coefficients. -/
theorem updateInter_ok (mb : Nat) {q : Quantizer} (hq : q.InRange) {dw dh dw' dh' dw'' dh'' w h : Nat} {o s : Raster} {references : References}
    (ho : o.Sized dw' dh' w h) (hs : s.Sized dw dh w h) (hc : column < w) (hr : row < h) {hd : InterFrameHeader} {c : MBContext} {sc : Scorer}
    {m : MBModes} (hm : m.InterOk hd c sc) (hseg : m.segmentIdUpdate = none) (href : (reference references m).Sized dw'' dh'' w h) :
    ∃ r, updateInter mb q references m o s column row = some ({ m with skip := some (!r.nonzero) }, r) ∧ r.Ok { m with skip := some (!r.nonzero) } := by
  have y1 : 16 * column + 16 ≤ o.y.width := by rw [ho.y.width]; exact mb_bounds hc
  have y2 : 16 * row + 16 ≤ o.y.height := by rw [ho.y.height]; exact mb_bounds hr
  have u1 : 8 * column + 8 ≤ o.u.width := by rw [ho.u.width]; exact mb_bounds hc
  have u2 : 8 * row + 8 ≤ o.u.height := by rw [ho.u.height]; exact mb_bounds hr
  have v1 : 8 * column + 8 ≤ o.v.width := by rw [ho.v.width]; exact mb_bounds hc
  have v2 : 8 * row + 8 ≤ o.v.height := by rw [ho.v.height]; exact mb_bounds hr
  obtain ⟨r1, r2⟩ := reference_at hm references
  obtain ⟨b, b1, b2, b3, b4⟩ := updateLuma_ok mb hq href.y.full (InterOk.notBPred hm) ho.y.full hs.y.full y1 y2 (hs.y.width.trans ho.y.width.symm)
    (hs.y.height.trans ho.y.height.symm) (href.y.width.trans ho.y.width.symm)
  have hmvs : (if m.yMode = SPLITMV then m.mvs else fun _ => m.baseMv) = m.mvs := by
    by_cases hsp : m.yMode = SPLITMV
    · rw [if_pos hsp]
    · rw [if_neg hsp]; exact funext fun i => InterOk.same hm hsp 15 i
  have humvs : chromaMvs m.mvs = m.uMvs := funext fun i => (hm.chroma i).symm
  obtain ⟨pu, e1, e2⟩ := predictChroma_ok (column := column) (row := row) hs.u.full (by rw [hs.u.width]; exact mb_bounds hc)
    (by rw [hs.u.height]; exact mb_bounds hr) href.u.full (href.u.width.trans hs.u.width.symm) (m.yMode == SPLITMV) m.uMvs
  obtain ⟨pv, f1, f2⟩ := predictChroma_ok (column := column) (row := row) hs.v.full (by rw [hs.v.width]; exact mb_bounds hc)
    (by rw [hs.v.height]; exact mb_bounds hr) href.v.full (href.v.width.trans hs.v.width.symm) (m.yMode == SPLITMV) m.uMvs
  have su := hs.u.of e2
  have sv := hs.v.of f2
  have hnone : ∀ s : SecondPass, none = some s → s.Fits := fun _ h => nomatch h
  obtain ⟨u, c1, c2⟩ := codeChroma_ok (pass := none) hnone mb 16 hq ho.u.full su.full u1 u2 (su.width.trans ho.u.width.symm) (su.height.trans ho.u.height.symm)
  obtain ⟨v, d1, d2⟩ := codeChroma_ok (pass := none) hnone mb 20 hq ho.v.full sv.full v1 v2 (sv.width.trans ho.v.width.symm) (sv.height.trans ho.v.height.symm)
  have hnb : m.yMode ≠ B_PRED := InterOk.notBPred hm
  refine ⟨assembleResidue b.1 b.2 u v, ?_, assemble_ok b2 (fun h => b3 (h.resolve_left hnb)) b4 c2 d2 rfl⟩
  unfold updateInter
  simp only [r1, r2, b1, hmvs, humvs, e1, f1, c1, d1, Option.bind_eq_bind, Option.bind_some, Option.pure_def]
  have hbm : (if m.yMode = SPLITMV then m.bModes else fun _ => 0) = m.bModes := by
    by_cases hsp : m.yMode = SPLITMV
    · rw [if_pos hsp]
    · rw [if_neg hsp]; exact funext fun i => ((hm.noSplit hsp).2 i).symm
  have huv := hm.uvMode
  have hi := hm.isInter
  rw [hbm]
  congr 2
  cases m
  simp only at hseg huv hi ⊢
  rw [hseg, huv, hi]

theorem intraChoice_ok {m : MBModes} (hm : m.IntraOk) : ∃ c, intraChoice m = some c ∧ c.yMode.val = m.yMode ∧ c.uvMode.val = m.uvMode ∧
    ∀ i, (c.bModes i).val = m.bModes i := by
  have h1 : m.yMode < 5 := by rcases hm.yMode with h | h | h | h | h <;> rw [h] <;> decide
  have h2 : m.uvMode < 4 := by rcases hm.uvMode with h | h | h | h <;> rw [h] <;> decide
  have h3 : ∀ i, m.bModes i < 10 := fun i => by
    rcases hm.yMode with h | h | h | h | h
    · rw [hm.dc h]; decide
    · rw [hm.v h]; decide
    · rw [hm.h h]; decide
    · rw [hm.tm h]; decide
    · exact Nat.lt_succ_of_le (hm.free h i)
  unfold intraChoice
  rw [dif_pos ⟨h1, h2, h3⟩]
  exact ⟨_, rfl, rfl, rfl, fun _ => rfl⟩

/-- Two descriptions of the same intra modes are equal but for the skip flag. -/
theorem intra_unique {m m' : MBModes} (h1 : m.IntraOk) (h2 : m.NoInter) (h3 : m.segmentIdUpdate = none) (h1' : m'.IntraOk) (h2' : m'.NoInter)
    (h3' : m'.segmentIdUpdate = none) (hy : m'.yMode = m.yMode) (huv : m'.uvMode = m.uvMode)
    (hb : m.yMode = B_PRED → ∀ i, m'.bModes i = m.bModes i) : m' = { m with skip := m'.skip } := by
  have hbm : m'.bModes = m.bModes := funext fun i => by
    rcases h1.yMode with h | h | h | h | h
    · rw [h1.dc h, h1'.dc (hy.trans h)]
    · rw [h1.v h, h1'.v (hy.trans h)]
    · rw [h1.h h, h1'.h (hy.trans h)]
    · rw [h1.tm h, h1'.tm (hy.trans h)]
    · exact hb h i
  have hmv : m'.mvs = m.mvs := funext fun i => (h2'.mvs i).trans (h2.mvs i).symm
  have hum : m'.uMvs = m.uMvs := funext fun i => (h2'.uMvs i).trans (h2.uMvs i).symm
  obtain ⟨a1, a2, a3, a4, a5, -, -⟩ := h2
  obtain ⟨b1, b2, b3, b4, b5, -, -⟩ := h2'
  cases m; cases m'
  simp only at *
  subst a1 a2 a3 a4 a5 b1 b2 b3 b4 b5 h3 h3' hy huv hbm hmv hum
  rfl

/-- What `intraModes` keeps. -/
theorem intraModes_keeps {choice : IntraChoice} {r : Residue} {m : MBModes} (h : intraModes choice r = some m) :
    m.yMode = choice.yMode.val ∧ m.uvMode = choice.uvMode.val ∧ (choice.yMode.val = B_PRED → ∀ i, m.bModes i = (choice.bModes i).val) := by
  unfold intraModes at h
  dsimp only at h
  by_cases hb : choice.yMode.val = B_PRED
  · rw [if_pos hb] at h
    cases h
    exact ⟨rfl, rfl, fun _ _ => rfl⟩
  · rw [if_neg hb] at h
    obtain ⟨b, -, h2⟩ := Option.bind_eq_some_iff.1 h
    cases h2
    exact ⟨rfl, rfl, fun h => absurd h hb⟩

theorem codeIntra_keeps {pass : Option SecondPass} {mb : Nat} {q : Quantizer} {choice : IntraChoice} {o s : Raster} {m : MBModes} {r : Residue}
    (h : codeIntra pass mb q choice o s column row = some (m, r)) :
    m.yMode = choice.yMode.val ∧ m.uvMode = choice.uvMode.val ∧ (choice.yMode.val = B_PRED → ∀ i, m.bModes i = (choice.bModes i).val) := by
  unfold codeIntra at h
  simp only [Option.bind_eq_bind, Option.bind_eq_some_iff, Option.pure_def, Option.some.injEq, Prod.mk.injEq] at h
  obtain ⟨_, _, _, _, _, _, _, _, _, _, _, hm, rfl, _⟩ := h
  exact intraModes_keeps hm

theorem updateMacroblock_ok (mb : Nat) {q : Quantizer} (hq : q.InRange) {dw dh dw' dh' dw'' dh'' w h : Nat} {o s : Raster} {references : References}
    (ho : o.Sized dw' dh' w h) (hs : s.Sized dw dh w h) (hc : column < w) (hr : row < h) {hd : InterFrameHeader} {c : MBContext}
    {m : MBModes} (hm : m.InterFrameOk hd c) (hseg : m.segmentIdUpdate = none) (href : (reference references m).Sized dw'' dh'' w h) :
    ∃ r, updateMacroblock mb q references m o s column row = some ({ m with skip := some (!r.nonzero) }, r) ∧ r.Ok { m with skip := some (!r.nonzero) } := by
  unfold updateMacroblock
  rcases hm.cases with ⟨i1, i2⟩ | ⟨sc, -, i2⟩
  · obtain ⟨choice, c1, c2, c3, c4⟩ := intraChoice_ok i1
    obtain ⟨m', r, e1, m1, m2, m3, m4, m5⟩ := codeIntra_ok (pass := none) (fun _ h => nomatch h) mb hq choice ho hs hc hr
    obtain ⟨k1, k2, k3⟩ := codeIntra_keeps e1
    have e : m' = { m with skip := m'.skip } := intra_unique i1 i2 hseg m1 m2 m4 (k1.trans c2) (k2.trans c3)
      (fun hb i => (k3 (c2.trans hb) i).trans (c4 i))
    rw [m3] at e
    rw [if_neg (by rw [i2.isInter]; decide), c1, Option.bind_eq_bind, Option.bind_some, e1]
    exact ⟨r, by rw [e], e ▸ m5⟩
  · rw [if_pos i2.isInter]
    exact updateInter_ok mb hq ho hs hc hr i2 hseg href

/-! ### Neighbours whose skip flags differ -/

/-- The modes without the skip flag and the segment. -/
def MBModes.core (m : MBModes) : MBModes := { m with skip := none, segmentIdUpdate := none }

/-- Contexts that differ in skip flags and segments only. -/
structure MBContext.Alike (c c' : MBContext) : Prop where
  column : c.column = c'.column
  row : c.row = c'.row
  width : c.width = c'.width
  height : c.height = c'.height
  above : c.above.map MBModes.core = c'.above.map MBModes.core
  left : c.left.map MBModes.core = c'.left.map MBModes.core
  aboveLeft : c.aboveLeft.map MBModes.core = c'.aboveLeft.map MBModes.core

theorem addMB_core (s : Scorer) (n : Nat) (x : Option MBModes) : s.addMB n x = s.addMB n (x.map MBModes.core) := by
  cases x <;> rfl

theorem MBContext.Alike.census {c c' : MBContext} (h : c.Alike c') (f : Bool) : census f c = census f c' := by
  have e (s : Scorer) (n : Nat) {x y : Option MBModes} (hxy : x.map MBModes.core = y.map MBModes.core) : s.addMB n x = s.addMB n y := by
    rw [addMB_core, hxy, ← addMB_core]
  unfold Alfalfa.census
  simp only [e _ _ h.above, e _ _ h.left, e _ _ h.aboveLeft]

theorem MBContext.Alike.clampMv {c c' : MBContext} (h : c.Alike c') (v : MotionVector) : clampMv v c = clampMv v c' := by
  unfold Alfalfa.clampMv
  rw [h.column, h.row, h.width, h.height]

theorem core_mvs {x y : Option MBModes} (h : x.map MBModes.core = y.map MBModes.core) : x.map (·.mvs) = y.map (·.mvs) := by
  have e (z : Option MBModes) : z.map (·.mvs) = (z.map MBModes.core).map (·.mvs) := by cases z <;> rfl
  rw [e x, h, ← e y]

/-- The same macroblock in another context, with another skip flag and under another header with the same sign biases. -/
theorem MBModes.InterFrameOk.transfer {h h' : InterFrameHeader} {c c' : MBContext} (hc : c.Alike c') (hg : h'.signBiasGolden = h.signBiasGolden)
    (ha : h'.signBiasAlternate = h.signBiasAlternate) (h1 : h'.updateSegmentation = none) {m : MBModes} {skip : Option Bool}
    (h2 : skip.isSome = h'.probSkipFalse.isSome) (hm : m.InterFrameOk h c) :
    ({ m with skip, segmentIdUpdate := none } : MBModes).InterFrameOk h' c' := by
  refine ⟨⟨by rw [h1]; simp, fun v hv => (nomatch hv), h2⟩, ?_⟩
  rcases hm.cases with ⟨⟨a1, a2, a3, a4, a5, a6, a7⟩, ⟨b1, b2, b3, b4, b5, b6, b7⟩⟩ | ⟨sc, s1, s2⟩
  · exact .inl ⟨⟨a1, a2, a3, a4, a5, a6, a7⟩, ⟨b1, b2, b3, b4, b5, b6, b7⟩⟩
  · refine .inr ⟨sc, (hc.census _).symm.trans s1, s2.isInter, s2.sel1, s2.sel2, ?_, s2.yMode, s2.uvMode, fun e i => ?_, fun e i => ?_, s2.zero, fun e => ?_, s2.noSplit,
      fun e => ?_, s2.chroma⟩
    · rw [hg, ha]; exact s2.flipped
    · rw [← hc.clampMv]; exact s2.nearest e i
    · rw [← hc.clampMv]; exact s2.near e i
    · rw [← hc.clampMv]; exact s2.new e
    · obtain ⟨k, groups, g1, g2, g3⟩ := s2.split e
      refine ⟨k, groups, g1, g2, g3.mode, g3.shared, fun g hg i hi hmode => ?_, fun g hg i hi hmode => ?_, g3.zero, fun g hg i hi hmode => ?_⟩
      · rw [← core_mvs hc.left]; exact g3.left g hg i hi hmode
      · rw [← core_mvs hc.above]; exact g3.above g hg i hi hmode
      · rw [← hc.clampMv]; exact g3.new g hg i hi hmode

theorem MBModes.InterFrameOk.reskip {h h' : InterFrameHeader} {c c' : MBContext} (hc : c.Alike c') (hg : h'.signBiasGolden = h.signBiasGolden)
    (ha : h'.signBiasAlternate = h.signBiasAlternate) (h1 : h'.updateSegmentation = none) (h2 : h'.probSkipFalse.isSome = true) {m : MBModes} {b : Bool}
    (hm : m.InterFrameOk h c) (hseg : m.segmentIdUpdate = none) : ({ m with skip := some b } : MBModes).InterFrameOk h' c' := by
  have := hm.transfer (skip := some b) hc hg ha h1 h2.symm
  obtain ⟨seg, _⟩ := m
  dsimp only at hseg
  subst hseg
  exact this

theorem gridContext_alike (w h : Nat) {a b : List MBModes} (hab : a.map MBModes.core = b.map MBModes.core) (k : Nat) :
    (gridContext w h a k).Alike (gridContext w h b k) := by
  have e (j : Nat) : a[j]?.map MBModes.core = b[j]?.map MBModes.core := by
    rw [← List.getElem?_map, hab, List.getElem?_map]
  refine ⟨rfl, rfl, rfl, rfl, ?_, ?_, ?_⟩
  · show (gridAbove w a k).map _ = (gridAbove w b k).map _
    unfold gridAbove; split
    · rfl
    · exact e _
  · show (gridLeft w a k).map _ = (gridLeft w b k).map _
    unfold gridLeft; split
    · rfl
    · exact e _
  · show (gridAboveLeft w a k).map _ = (gridAboveLeft w b k).map _
    unfold gridAboveLeft; split
    · rfl
    · exact e _

/-! ### The loop -/

/-- The modes of the macroblock are those of the old frame, apart from the skip flag. -/
def Kept (old : List MBModes) (_ : List MBModes) (j : Nat) (m : MBModes) : Prop :=
  ∃ m0 b, old[j]? = some m0 ∧ m = { m0 with skip := some b }

theorem updateStep_ok {trials : Trials} {q : Quantizer} (hq : q.InRange) {dw dh w h : Nat} (hT : trials.Local dw dh w h) {o : Raster}
    (ho : o.Sized dw dh w h) {references : References} (href : ∀ m, (reference references m).Sized dw dh w h) {hd : InterFrameHeader}
    {old : List MBModes} (hlen : old.length = w * h) (hold : ∀ (k : Nat) (m : MBModes), old[k]? = some m → m.InterFrameOk hd (gridContext w h old k) ∧ m.segmentIdUpdate = none)
    {k : Nat} {s : Coded} (hk : k < w * h) (hs : CodedUpTo dw dh w h q (reference references) (Kept old) k s) :
    ∃ t, updateStep trials.late q references old o w s k = some t ∧ CodedUpTo dw dh w h q (reference references) (Kept old) (k + 1) t := by
  have hw := pos_of_lt_mul hk
  have hc := Nat.mod_lt k hw
  have hr := div_lt_of hk
  have h0 : old[k]? = some (old[k]'(hlen ▸ hk)) := List.getElem?_eq_getElem _
  obtain ⟨m0, h0⟩ : ∃ m0, old[k]? = some m0 := ⟨_, h0⟩
  obtain ⟨hm, hseg⟩ := hold k m0 h0
  obtain ⟨l1, l2⟩ := hT.late k _ hs.sized
  obtain ⟨r, e1, e2⟩ := updateMacroblock_ok k hq ho hs.sized hc hr hm hseg (href m0)
  have hP : ∀ (a b : List MBModes) (j : Nat) (m : MBModes), j ≤ a.length → Kept old a j m → Kept old (a ++ b) j m := fun _ _ _ _ _ h => h
  unfold updateStep
  rw [h0, Option.bind_eq_bind, Option.bind_some, e1, Option.bind_eq_bind, Option.bind_some]
  dsimp only
  rcases hm.cases with ⟨⟨a1, a2, a3, a4, a5, a6, a7⟩, i2⟩ | ⟨sc, -, i2⟩
  · obtain ⟨t, t1, t2⟩ := reconstructIntra_solved (m := { m0 with skip := some (!r.nonzero) }) l1 hc hr (reference references m0) q ⟨a1, a2, a3, a4, a5, a6, a7⟩ i2.isInter r
    rw [if_neg (by rw [i2.isInter]; decide), t1]
    exact ⟨_, rfl, hs.step hP hw (t2.sized l1) ⟨t2.y.inside, t2.u.inside, t2.v.inside⟩ (fun x hx => (t2.elsewhere x hx).trans (l2 x hx)) ⟨m0, _, h0, rfl⟩ e2⟩
  · have i2' : ({ m0 with skip := some (!r.nonzero) } : MBModes).InterOk hd (gridContext w h old k) sc :=
      ⟨i2.isInter, i2.sel1, i2.sel2, i2.flipped, i2.yMode, i2.uvMode, i2.nearest, i2.near, i2.zero, i2.new, i2.noSplit,
        (fun e => by obtain ⟨k, groups, g1, g2, g3⟩ := i2.split e; exact ⟨k, groups, g1, g2, g3.mode, g3.shared, g3.left, g3.above, g3.zero, g3.new⟩), i2.chroma⟩
    obtain ⟨t, t1, t2⟩ := reconstructInter_solved l1 hc hr (references := references) (m := { m0 with skip := some (!r.nonzero) }) (href _) q i2' r
    rw [if_pos i2.isInter, t1]
    exact ⟨_, rfl, hs.step hP hw (t2.sized l1) ⟨t2.y.inside, t2.u.inside, t2.v.inside⟩ (fun x hx => (t2.elsewhere x hx).trans (l2 x hx)) ⟨m0, _, h0, rfl⟩ e2⟩

theorem updatePass_ok {trials : Trials} {q : Quantizer} (hq : q.InRange) {width height : Nat} (hw : 0 < width ∧ width < 2 ^ 14)
    (hh : 0 < height ∧ height < 2 ^ 14) (hT : trials.Confined width height) {o s : Raster} (ho : o.Ok width height) (hs : s.Ok width height)
    {references : References} (hrefs : references.Ok width height) {hd : InterFrameHeader} {old : List MBModes}
    (hlen : old.length = (width + 15) / 16 * ((height + 15) / 16))
    (hold : ∀ (k : Nat) (m : MBModes), old[k]? = some m → m.InterFrameOk hd (gridContext ((width + 15) / 16) ((height + 15) / 16) old k) ∧ m.segmentIdUpdate = none) :
    ∃ c, updatePass trials.late q references old o width height s = some c ∧
      CodedUpTo width height ((width + 15) / 16) ((height + 15) / 16) q (reference references) (Kept old) ((width + 15) / 16 * ((height + 15) / 16)) c := by
  have href (m : MBModes) : (reference references m).Sized width height ((width + 15) / 16) ((height + 15) / 16) := by
    unfold reference
    split
    · split
      · exact hrefs.alternative.sized hw hh
      · exact hrefs.golden.sized hw hh
    · exact hrefs.last.sized hw hh
  unfold updatePass macroblockDimension
  exact coded_loop (Inv := CodedUpTo width height ((width + 15) / 16) ((height + 15) / 16) q (reference references) (Kept old))
    (fun k s hk hs => updateStep_ok hq (hT.local hw hh) (ho.sized hw hh) href hlen hold hk hs) (empty_coded q _ _ (hs.sized hw hh))

/-- All macroblocks have a reference. -/
theorem allReferences_ok {modes : List MBModes} (h : ∀ m ∈ modes, m.reference.isSome = true) :
    ∃ l, allReferences modes = some l ∧ l.length = modes.length := by
  unfold allReferences
  induction modes with
  | nil => exact ⟨[], rfl, rfl⟩
  | cons m rest ih =>
    obtain ⟨l, h1, h2⟩ := ih fun m hm => h m (List.mem_cons_of_mem _ hm)
    obtain ⟨x, hx⟩ := Option.isSome_iff_exists.1 (h m List.mem_cons_self)
    rw [List.mapM_cons, hx, h1]
    exact ⟨x :: l, rfl, by rw [List.length_cons, List.length_cons, h2]⟩

theorem InterFrameOk.referenceSome {h : InterFrameHeader} {c : MBContext} {m : MBModes} (hm : m.InterFrameOk h c) : m.reference.isSome = true := by
  rcases hm.cases with ⟨-, i2⟩ | ⟨sc, -, i2⟩
  · unfold MBModes.reference; rw [if_pos i2.isInter]; rfl
  · have := (reference_at i2 ⟨grayRaster 1 1 0, grayRaster 1 1 0, grayRaster 1 1 0⟩).1
    rw [this]; rfl

end Alfalfa
