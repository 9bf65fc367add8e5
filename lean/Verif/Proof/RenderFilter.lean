import Verif.Proof.RenderFrame
import Verif.Props.LoopFilter

/-! Whole frames: residue, reconstruction and loop filter. -/

namespace Alfalfa

open IntraSpec RenderSpec TransformSpec LoopFilterSpec

/-! ### The residue -/

theorem residue_zero (x y : Fin 4) : residue (fun _ => 0) x y = 0 := by revert x y; decide +kernel
theorem walsh_zero (x y : Fin 4) : walsh (fun _ => 0) x y = 0 := by revert x y; decide +kernel

theorem Residue.Ok.silent {m : MBModes} {r : Residue} (h : r.Ok m) : r.nonzero = true ↔ AnyCoefficient r := by
  rw [h.nonzero, h.y2.flag]
  unfold AnyCoefficient
  simp only [(h.y _).flag, (h.u _).flag, (h.v _).flag]

theorem dequantize_eq {dc ac : Nat} {b : Block} (h : ∀ i, -32768 ≤ scaled dc ac b i ∧ scaled dc ac b i ≤ 32767) : dequantize dc ac b.coeffs = scaled dc ac b := by
  funext i
  exact toInt16_of_fits (h i)

theorem codeResidues_eq {q : Quantizer} {m : MBModes} {r : Residue} (hr : r.Ok m) (h : FitsIn16 q m r) :
    codeResidues q m r = ⟨lumaResidue q m r, chromaResidue q r.u, chromaResidue q r.v⟩ := by
  have hluma : ∀ k, codeLuma q m r k = lumaCoefficients q m r k := by
    intro k
    unfold codeLuma lumaCoefficients
    funext i
    by_cases hy : HasY2 m
    · rw [if_pos hy]
      unfold walshCoeffs
      by_cases hi : i = 0
      · rw [if_pos hi, if_pos ⟨hy, hi⟩]
        unfold Quantizer.dequantizeY2
        rw [dequantize_eq h.y2, C41_iwht h.walsh]
      · rw [if_neg hi, if_neg fun hc => hi hc.2]
        unfold Quantizer.dequantizeY
        rw [dequantize_eq (h.y k)]
    · rw [if_neg hy, if_neg fun hc => hy hc.1]
      unfold plainCoeffs Quantizer.dequantizeY
      rw [dequantize_eq (h.y k)]
  by_cases hn : r.nonzero = true
  · unfold codeResidues added lumaResidue chromaResidue Quantizer.dequantizeUV
    simp only [hn, if_true, hluma]
    congr 1 <;> funext x y
    · exact idct_eq (h.luma _) _ _
    · rw [dequantize_eq (h.u _)]; exact idct_eq (h.chromaU _) _ _
    · rw [dequantize_eq (h.v _)]; exact idct_eq (h.chromaV _) _ _
  · have hz : ¬ AnyCoefficient r := fun hc => hn (hr.silent.mpr hc)
    unfold AnyCoefficient at hz
    push Not at hz
    obtain ⟨z1, z2, z3, z4⟩ := hz
    have s0 : ∀ (dc ac : Nat) (b : Block), (∀ i, b.coeffs i = 0) → scaled dc ac b = fun _ => 0 := fun dc ac b hb => by
      funext i; unfold scaled; rw [hb, Int.zero_mul]
    have l0 : ∀ k, lumaCoefficients q m r k = fun _ => 0 := fun k => by
      funext i
      unfold lumaCoefficients
      rw [s0 _ _ _ z1, s0 _ _ _ (z2 k), walsh_zero]
      split <;> rfl
    unfold codeResidues added lumaResidue chromaResidue
    simp only [hn, if_false, l0, s0 _ _ _ (z3 _), s0 _ _ _ (z4 _), residue_zero, Bool.false_eq_true]

/-! ### Frames -/

/-- The facts about a parsed frame that its decoding rests on. -/
structure Ready {H : Type} (f : ParsedFrame H) : Prop where
  width : 0 < f.frame.width ∧ f.frame.width < 2 ^ 14
  height : 0 < f.frame.height ∧ f.frame.height < 2 ^ 14
  modes : f.frame.modes.length = (f.frame.width + 15) / 16 * ((f.frame.height + 15) / 16)
  residues : f.frame.residues.length = f.frame.modes.length
  segmentIds : f.segmentIds.length = f.frame.modes.length
  ids : ∀ v ∈ f.segmentIds, v < 4
  residue : ∀ (k : Nat) m (r : Residue), f.frame.modes[k]? = some m → f.frame.residues[k]? = some r → r.Ok m

variable {H : Type} {f : ParsedFrame H}

theorem Ready.at (hf : Ready f) {k : Nat} (hk : k < (f.frame.width + 15) / 16 * ((f.frame.height + 15) / 16)) :
    ∃ m r id, f.frame.modes[k]? = some m ∧ f.frame.residues[k]? = some r ∧ f.segmentIds[k]? = some id ∧ id < 4 ∧ r.Ok m := by
  have h1 : k < f.frame.modes.length := hf.modes ▸ hk
  have h2 : k < f.frame.residues.length := hf.residues ▸ h1
  have h3 : k < f.segmentIds.length := hf.segmentIds ▸ h1
  refine ⟨_, _, _, List.getElem?_eq_getElem h1, List.getElem?_eq_getElem h2, List.getElem?_eq_getElem h3, hf.ids _ (List.getElem_mem h3), ?_⟩
  exact hf.residue k _ _ (List.getElem?_eq_getElem h1) (List.getElem?_eq_getElem h2)

theorem Ready.lt (hf : Ready f) {k : Nat} {m : MBModes} (h : f.frame.modes[k]? = some m) : k < (f.frame.width + 15) / 16 * ((f.frame.height + 15) / 16) := by
  rw [← hf.modes]; exact (List.getElem?_eq_some_iff.1 h).1

theorem place {w h k : Nat} (hk : k < w * h) : k % w < w ∧ k / w < h :=
  ⟨Nat.mod_lt k (Nat.pos_of_ne_zero fun h0 => by subst h0; omega), Nat.div_lt_of_lt_mul hk⟩

/-- The macroblocks as functions of their number, with anything beyond the last one. -/
def modeAt (f : ParsedFrame H) (k : Nat) : MBModes := f.frame.modes[k]?.getD {}
def residueAt (f : ParsedFrame H) (k : Nat) : Residue := f.frame.residues[k]?.getD {}
def idAt (f : ParsedFrame H) (k : Nat) : Nat := f.segmentIds[k]?.getD 0

/-- A loop over a frame with steps that reconstruct one macroblock. -/
theorem forMacroblocks_sums (hf : Ready f) {Q : Nat → Quantizer} {reference : MBModes → Raster}
    {step : Raster → Nat → Nat → MBModes → Residue → Nat → Option Raster}
    (hstep : ∀ (s : Raster) k m r id, f.frame.modes[k]? = some m → id < 4 →
      s.Sized f.frame.width f.frame.height ((f.frame.width + 15) / 16) ((f.frame.height + 15) / 16) →
      k % ((f.frame.width + 15) / 16) < (f.frame.width + 15) / 16 → k / ((f.frame.width + 15) / 16) < (f.frame.height + 15) / 16 →
      ∃ t, step s (k % ((f.frame.width + 15) / 16)) (k / ((f.frame.width + 15) / 16)) m r id = some t ∧
        s.Solved (reference m) m (codeResidues (Q id) m r) (k % ((f.frame.width + 15) / 16)) (k / ((f.frame.width + 15) / 16)) t)
    {s : Raster} (hs : s.Ok f.frame.width f.frame.height) :
    ∃ t, forMacroblocks f step s = some t ∧ t.Ok f.frame.width f.frame.height ∧
      ∀ k, k < (f.frame.width + 15) / 16 * ((f.frame.height + 15) / 16) →
        Sums (reference (modeAt f k)) (modeAt f k) (codeResidues (Q (idAt f k)) (modeAt f k) (residueAt f k))
          (k % ((f.frame.width + 15) / 16)) (k / ((f.frame.width + 15) / 16)) t := by
  have hw : 0 < (f.frame.width + 15) / 16 := by have := hf.width.1; omega
  obtain ⟨t, h1, h2, h3⟩ := macroblocks_solved (h := (f.frame.height + 15) / 16) hw (reference := fun k => reference (modeAt f k)) (m := modeAt f)
    (d := fun k => codeResidues (Q (idAt f k)) (modeAt f k) (residueAt f k))
    (step := fun s k => do
      let m ← f.frame.modes[k]?
      let r ← f.frame.residues[k]?
      let id ← f.segmentIds[k]?
      step s (k % ((f.frame.width + 15) / 16)) (k / ((f.frame.width + 15) / 16)) m r id)
    (fun s k hk hs => by
      obtain ⟨m, r, id, e1, e2, e3, e4, _⟩ := hf.at hk
      obtain ⟨p1, p2⟩ := place hk
      unfold modeAt residueAt idAt
      simp only [e1, e2, e3, Option.bind_eq_bind, Option.bind_some, Option.getD_some]
      exact hstep s k m r id e1 e4 hs p1 p2) (hs.sized hf.width hf.height)
  exact ⟨t, h1, h2.ok, h3⟩

/-- Pictures that satisfy the equations with the same residues are equal. -/
theorem frame_unique (hf : Ready f) {reference : Nat → Raster} {m : Nat → MBModes} {d : Nat → Residues} {s t : Raster}
    (hs : s.Ok f.frame.width f.frame.height) (ht : t.Ok f.frame.width f.frame.height)
    (es : ∀ k, k < (f.frame.width + 15) / 16 * ((f.frame.height + 15) / 16) →
      Sums (reference k) (m k) (d k) (k % ((f.frame.width + 15) / 16)) (k / ((f.frame.width + 15) / 16)) s)
    (et : ∀ k, k < (f.frame.width + 15) / 16 * ((f.frame.height + 15) / 16) →
      Sums (reference k) (m k) (d k) (k % ((f.frame.width + 15) / 16)) (k / ((f.frame.width + 15) / 16)) t) : s = t :=
  sums_unique (hs.sized hf.width hf.height) (ht.sized hf.width hf.height) es et

/-- The equations of the code and those of the specification. -/
theorem sums_iff (hf : Ready f) {Q : Nat → Quantizer} {reference : MBModes → Raster} (hfit : FrameFits Q f) (s : Raster) :
    (∀ k, k < (f.frame.width + 15) / 16 * ((f.frame.height + 15) / 16) →
      Sums (reference (modeAt f k)) (modeAt f k) (codeResidues (Q (idAt f k)) (modeAt f k) (residueAt f k))
        (k % ((f.frame.width + 15) / 16)) (k / ((f.frame.width + 15) / 16)) s) ↔ Unfiltered Q reference f s := by
  constructor
  · intro h k m r id e1 e2 e3
    have := h k (hf.lt e1)
    unfold modeAt residueAt idAt at this
    rw [e1, e2, e3, Option.getD_some, Option.getD_some, Option.getD_some, codeResidues_eq (hf.residue k m r e1 e2) (hfit k m r id e1 e2 e3)] at this
    exact ⟨this.y, this.u, this.v⟩
  · intro h k hk
    obtain ⟨m, r, id, e1, e2, e3, _, e5⟩ := hf.at hk
    have := h k m r id e1 e2 e3
    unfold modeAt residueAt idAt
    rw [e1, e2, e3, Option.getD_some, Option.getD_some, Option.getD_some, codeResidues_eq e5 (hfit k m r id e1 e2 e3)]
    exact ⟨this.y, this.u, this.v⟩

/-! ### The loop filter -/

theorem fold_shows_raster {dw dh w h : Nat} {step : Raster → Nat → Option Raster} {g : Nat → Nat → (Nat → Nat → UInt8) → Nat → Nat → UInt8} :
    ∀ (l : List Nat), (∀ (s : Raster) k, k ∈ l → s.Sized dw dh w h → ∃ t, step s k = some t ∧ s.Shows t (g k)) → ∀ s : Raster, s.Sized dw dh w h →
      ∃ t, l.foldlM step s = some t ∧ t.Sized dw dh w h ∧ s.Shows t fun n img => l.foldl (fun img k => g k n img) img
  | [], _, s, hs => ⟨s, rfl, hs, rfl, rfl, ⟨hs.y.full, rfl, rfl, rfl⟩, ⟨hs.u.full, rfl, rfl, rfl⟩, ⟨hs.v.full, rfl, rfl, rfl⟩⟩
  | a :: l, hl, s, hs => by
    obtain ⟨s1, e1, e2⟩ := hl s a List.mem_cons_self hs
    have hs1 : s1.Sized dw dh w h := ⟨e2.displayWidth.trans hs.displayWidth, e2.displayHeight.trans hs.displayHeight,
      hs.y.of ⟨e2.y.full, e2.y.width, e2.y.height⟩, hs.u.of ⟨e2.u.full, e2.u.width, e2.u.height⟩, hs.v.of ⟨e2.v.full, e2.v.width, e2.v.height⟩⟩
    obtain ⟨t, f1, f2, f3⟩ := fold_shows_raster l (fun s k hk => hl s k (List.mem_cons_of_mem _ hk)) s1 hs1
    refine ⟨t, ?_, f2, ?_⟩
    · rw [List.foldlM_cons, e1]; exact f1
    · exact e2.trans f3

theorem Raster.Sized.has {dw dh w h : Nat} {s : Raster} (hs : s.Sized dw dh w h) {column row : Nat} (hc : column < w) (hr : row < h) : s.Has column row :=
  ⟨⟨hs.y.full, by rw [hs.y.width]; exact mb_bounds hc, by rw [hs.y.height]; exact mb_bounds hr⟩,
    ⟨hs.u.full, by rw [hs.u.width]; exact mb_bounds hc, by rw [hs.u.height]; exact mb_bounds hr⟩,
    ⟨hs.v.full, by rw [hs.v.width]; exact mb_bounds hc, by rw [hs.v.height]; exact mb_bounds hr⟩⟩

theorem limit63_zero (v : Int) : limit63 v = 0 ↔ v ≤ 0 := by unfold limit63; omega

/-- The level that is used for a macroblock. -/
def usedLevel (segmentation : Option Segmentation) (adjustments : Option FilterAdjustments) (level : Nat) (m : MBModes) (id : Nat) : Nat :=
  limit63 (baseLevel segmentation level id + adjustment adjustments m)

theorem loopfilterMacroblock_shows {dw dh w h : Nat} {s : Raster} (hs : s.Sized dw dh w h) {column row : Nat} (hc : column < w) (hr : row < h)
    (keyFrame : Bool) (adjustments : Option FilterAdjustments) {m : MBModes} (href : m.reference = some (referenceIndex m)) {r : Residue} (hr' : r.Ok m)
    (base : Int) {sharpness : Nat} (hsh : sharpness ≤ 7) :
    ∃ t, loopfilterMacroblock keyFrame adjustments { simple := false, level := base, sharpness } m r column row s = some t ∧
      s.Shows t fun n img => if limit63 (base + adjustment adjustments m) = 0 then img
        else LoopFilterSpec.block keyFrame (limit63 (base + adjustment adjustments m)) sharpness (decide (Inside m r)) n column row img := by
  unfold loopfilterMacroblock
  rw [href, Option.bind_eq_bind, Option.bind_some]
  dsimp only
  have hskip : (!(m.y2Coded && !r.nonzero)) = decide (Inside m r) := by
    rw [Bool.eq_iff_iff, decide_eq_true_iff]
    unfold Inside HasY2 MBModes.y2Coded
    rw [← hr'.silent]
    by_cases h1 : m.yMode = B_PRED <;> by_cases h2 : m.yMode = SPLITMV <;> simp [h1, h2]
  have hp : ∀ p : FilterParameters, p.simple = false → p.sharpness = sharpness → p.level = base + adjustment adjustments m →
      ∃ t, (if p.level ≤ 0 then some s else if p.simple = true then none else (p.filter keyFrame).apply (m.y2Coded && !r.nonzero) column row s) = some t ∧
      s.Shows t fun n img => if limit63 (base + adjustment adjustments m) = 0 then img
        else LoopFilterSpec.block keyFrame (limit63 (base + adjustment adjustments m)) sharpness (decide (Inside m r)) n column row img := by
    intro p p1 p2 p3
    rw [← p3]
    by_cases h0 : p.level ≤ 0
    · rw [if_pos h0]
      refine ⟨s, rfl, ?_⟩
      simp only [(limit63_zero p.level).2 h0, if_true]
      exact Raster.Shows.same (hs.has hc hr)
    · rw [if_neg h0, if_neg (by rw [p1]; decide)]
      obtain ⟨t, e1, e2⟩ := apply_shows (params := p) keyFrame (p2 ▸ hsh) (m.y2Coded && !r.nonzero) (hs.has hc hr)
      refine ⟨t, e1, ?_⟩
      simp only [show limit63 p.level ≠ 0 from fun h => h0 ((limit63_zero _).1 h), if_false]
      rw [hskip, p2] at e2
      exact e2
  cases adjustments with
  | none => exact hp _ rfl rfl (Int.add_zero _).symm
  | some a => exact hp _ rfl rfl rfl

theorem macroblockFilterParameters_eq (s : Option Segmentation) (level sharpness : Nat) {id : Nat} (h : id < 4) :
    macroblockFilterParameters s false level sharpness id = some { simple := false, level := baseLevel s level id, sharpness } := by
  unfold macroblockFilterParameters baseLevel
  cases s with
  | none => rfl
  | some s => dsimp only; rw [dif_pos h, dif_pos h]

theorem filterFrame_shows (hf : Ready f) (href : ∀ (k : Nat) m, f.frame.modes[k]? = some m → m.reference = some (referenceIndex m)) (keyFrame : Bool) {level sharpness : Nat}
    (hsh : sharpness ≤ 7) (segmentation : Option Segmentation) (adjustments : Option FilterAdjustments) {s : Raster}
    (hs : s.Ok f.frame.width f.frame.height) :
    ∃ t, loopfilterFrame keyFrame false level sharpness segmentation adjustments f s = some t ∧ t.Ok f.frame.width f.frame.height ∧
      (level = 0 → t = s) ∧ (level ≠ 0 → s.Shows t (filtered keyFrame sharpness (usedLevel segmentation adjustments level) f)) := by
  unfold loopfilterFrame
  by_cases h0 : level = 0
  · rw [if_neg (by rw [h0]; decide)]
    exact ⟨s, rfl, hs, fun _ => rfl, fun h => absurd h0 h⟩
  · rw [if_pos h0]
    obtain ⟨t, h1, h2, h3⟩ := fold_shows_raster (g := fun k n img => filteredAt keyFrame sharpness (usedLevel segmentation adjustments level) f n img k)
      (step := fun s k => do
        let m ← f.frame.modes[k]?
        let r ← f.frame.residues[k]?
        let id ← f.segmentIds[k]?
        let p ← macroblockFilterParameters segmentation false level sharpness id
        loopfilterMacroblock keyFrame adjustments p m r (k % ((f.frame.width + 15) / 16)) (k / ((f.frame.width + 15) / 16)) s)
      (List.range ((f.frame.width + 15) / 16 * ((f.frame.height + 15) / 16)))
      (fun s k hk hs => by
        have hk := List.mem_range.1 hk
        obtain ⟨m, r, id, e1, e2, e3, e4, e5⟩ := hf.at hk
        obtain ⟨p1, p2⟩ := place hk
        unfold filteredAt
        simp only [e1, e2, e3, Option.bind_eq_bind, Option.bind_some, macroblockFilterParameters_eq segmentation level sharpness e4]
        exact loopfilterMacroblock_shows hs p1 p2 keyFrame adjustments (href k m e1) e5 _ hsh) s (hs.sized hf.width hf.height)
    exact ⟨t, h1, h2.ok, fun h => absurd h h0, fun _ => h3⟩

end Alfalfa
