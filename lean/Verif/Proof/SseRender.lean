import Verif.Model.SseRender
import Verif.Spec.SseRender
import Verif.Props.SseTransform
import Verif.Props.SseInter
import Verif.Props.SseIntra
import Verif.Props.SseFilter
import Verif.Props.Render

/-! Macroblocks and frames with the vector code. -/

namespace Alfalfa

open RenderSpec TransformSpec

/-! ### Residue -/

theorem sseIdctAddTo_eq {c : Fin 16 → Int} (hc : ∀ i, Short (c i)) (h : Fits line c) (hb : ∀ column row, Short (both line c column row + 4))
    (p : Plane) (x y : Nat) : sseIdctAddTo c p x y = idctAdd c p x y := by
  rw [(C85_idct_partial hc h hb).2 p x y]; rfl

theorem short_walsh {c : Fin 16 → Int} (h : ∀ column row, Short (both walshLine c column row + 3)) (x y : Fin 4) : Short (walsh c x y) := by
  have := h x y
  unfold Short walsh at *
  omega

variable {q : Quantizer} {m : MBModes} {r : Residue} {column row : Nat}

theorem lumaCoefficients_short (h : SumsFit q m r) (k i : Fin 16) : Short (lumaCoefficients q m r k i) := by
  unfold lumaCoefficients
  split
  · exact short_walsh h.walshSums _ _
  · exact h.y k i

theorem sseWalshCoeffs_eq (h : SumsFit q m r) (hy : HasY2 m) (k : Fin 16) : sseWalshCoeffs q r k = lumaCoefficients q m r k ∧
    walshCoeffs q r k = lumaCoefficients q m r k := by
  have e1 : q.sseDequantizeY2 r.y2.coeffs = scaled q.y2Dc q.y2Ac r.y2 := by
    unfold Quantizer.sseDequantizeY2; rw [C85_dequantize, dequantize_eq h.y2]
  have e2 : q.sseDequantizeY (r.y k).coeffs = scaled q.yDc q.yAc (r.y k) := by
    unfold Quantizer.sseDequantizeY; rw [C85_dequantize, dequantize_eq (h.y k)]
  have e3 : q.dequantizeY2 r.y2.coeffs = scaled q.y2Dc q.y2Ac r.y2 := by unfold Quantizer.dequantizeY2; rw [dequantize_eq h.y2]
  have e4 : q.dequantizeY (r.y k).coeffs = scaled q.yDc q.yAc (r.y k) := by unfold Quantizer.dequantizeY; rw [dequantize_eq (h.y k)]
  obtain ⟨w1, w2⟩ := C85_iwht_partial h.walsh h.walshSums
  constructor
  · funext i
    unfold sseWalshCoeffs lumaCoefficients
    simp only [hy, true_and, e1, e2, w2]
  · funext i
    unfold walshCoeffs lumaCoefficients
    simp only [hy, true_and, e3, e4, ← w1, w2]

theorem ssePlainCoeffs_eq (h : SumsFit q m r) (hy : ¬ HasY2 m) (k : Fin 16) : ssePlainCoeffs q r k = lumaCoefficients q m r k ∧
    plainCoeffs q r k = lumaCoefficients q m r k := by
  have e : lumaCoefficients q m r k = scaled q.yDc q.yAc (r.y k) := by
    funext i
    unfold lumaCoefficients
    rw [if_neg fun hc => hy hc.1]
  rw [e]
  unfold ssePlainCoeffs plainCoeffs Quantizer.sseDequantizeY Quantizer.dequantizeY
  rw [C85_dequantize, dequantize_eq (h.y k)]
  exact ⟨rfl, rfl⟩

theorem sseApplyWalsh_eq (h : SumsFit q m r) (hy : HasY2 m) : sseApplyWalsh q r column row = applyWalsh q r column row := by
  funext p
  unfold sseApplyWalsh applyWalsh
  congr 1
  funext p k
  unfold sseAddLuma addLuma
  rw [(sseWalshCoeffs_eq h hy k).1, (sseWalshCoeffs_eq h hy k).2]
  exact sseIdctAddTo_eq (lumaCoefficients_short h k) (h.luma k) (h.lumaSums k) _ _ _

theorem sseAddPlain_eq (h : SumsFit q m r) (hy : ¬ HasY2 m) :
    sseAddLuma (ssePlainCoeffs q r) column row = addLuma (plainCoeffs q r) column row := by
  funext p k
  unfold sseAddLuma addLuma
  rw [(ssePlainCoeffs_eq h hy k).1, (ssePlainCoeffs_eq h hy k).2]
  exact sseIdctAddTo_eq (lumaCoefficients_short h k) (h.luma k) (h.lumaSums k) _ _ _

theorem sseAddChroma_eq {blocks : Fin 4 → Block} (h1 : ∀ k i, Short (scaled q.uvDc q.uvAc (blocks k) i)) (h2 : ∀ k, Fits line (scaled q.uvDc q.uvAc (blocks k)))
    (h3 : ∀ k column row, Short (both line (scaled q.uvDc q.uvAc (blocks k)) column row + 4)) :
    sseAddChroma q blocks column row = addChroma q blocks column row := by
  funext p
  unfold sseAddChroma addChroma
  congr 1
  funext p k
  unfold Quantizer.sseDequantizeUV Quantizer.dequantizeUV
  rw [C85_dequantize, dequantize_eq (h1 k)]
  exact sseIdctAddTo_eq (h1 k) (h2 k) (h3 k) _ _ _

/-! ### Macroblocks -/

theorem sseReconstructIntra_eq (z : Leftovers) (h : SumsFit q m r) (hs : m.yMode ≠ SPLITMV) (s : Raster) :
    sseReconstructIntra z q m r column row s = reconstructIntra q m r column row s := by
  have eu : ∀ plane p, sseIntraChroma z plane q m r r.u column row p = intraChroma q m r r.u column row p := fun plane p => by
    unfold sseIntraChroma intraChroma
    rw [(C85_intra _ _ (fun _ => 0) p m.uvMode column row).2.1, sseAddChroma_eq h.u h.chromaU h.uSums]
  have ev : ∀ plane p, sseIntraChroma z plane q m r r.v column row p = intraChroma q m r r.v column row p := fun plane p => by
    unfold sseIntraChroma intraChroma
    rw [(C85_intra _ _ (fun _ => 0) p m.uvMode column row).2.1, sseAddChroma_eq h.v h.chromaV h.vSums]
  have ey : ∀ p, sseIntraLuma z q m r column row p = intraLuma q m r column row p := fun p => by
    unfold sseIntraLuma intraLuma
    split
    · next hb =>
      congr 1
      funext p k
      unfold sseIntraBlock intraBlock
      rw [(C85_intra _ _ (fun _ => 0) p _ _ _).2.2, sseAddPlain_eq h fun hy => hy.1 hb]
    · next hb => rw [(C85_intra _ _ _ p _ _ _).1, sseApplyWalsh_eq h ⟨hb, hs⟩]
  unfold sseReconstructIntra reconstructIntra
  simp only [eu, ev, ey]

theorem sseInterPredictTo_eq {n : Nat} {p reference : Plane} (hp : reference.Full) (hw : p.width = reference.width) {mv : MotionVector} {column row : Nat}
    (hn : n = 8 ∨ n = 16 ∨ (n = 4 ∧ ClearOfEnd reference mv column row)) : sseInterPredictTo n p reference mv column row = interPredict n p reference mv column row := by
  unfold sseInterPredictTo interPredict
  rw [hw]
  rcases hn with hn | hn | ⟨rfl, hn⟩
  · rw [C85_inter_block hp (Or.inl hn)]
  · rw [C85_inter_block hp (Or.inr hn)]
  · rw [C85_inter_four hp _ _ _ hn]

/-- A loop whose steps agree where an invariant holds that one of them keeps. -/
theorem foldlM_congr {α β : Type} (P : β → Prop) {f g : β → α → Option β} : ∀ (l : List α), (∀ a ∈ l, ∀ s, P s → f s a = g s a) →
    (∀ a ∈ l, ∀ s t, P s → g s a = some t → P t) → ∀ s, P s → l.foldlM f s = l.foldlM g s
  | [], _, _, _, _ => rfl
  | a :: l, h1, h2, s, hs => by
    rw [List.foldlM_cons, List.foldlM_cons, h1 a List.mem_cons_self s hs]
    cases e : g s a with
    | none => rfl
    | some t =>
      exact foldlM_congr P l (fun a ha => h1 a (List.mem_cons_of_mem _ ha)) (fun a ha => h2 a (List.mem_cons_of_mem _ ha)) t
        (h2 a List.mem_cons_self s t hs e)

theorem foldlM_keeps {α β : Type} (P : β → Prop) {g : β → α → Option β} : ∀ (l : List α), (∀ a ∈ l, ∀ s t, P s → g s a = some t → P t) →
    ∀ s t, P s → l.foldlM g s = some t → P t
  | [], _, s, t, hs, h => by cases h; exact hs
  | a :: l, h2, s, t, hs, h => by
    rw [List.foldlM_cons] at h
    cases e : g s a with
    | none => rw [e] at h; simp at h
    | some s1 =>
      rw [e] at h
      exact foldlM_keeps P l (fun a ha => h2 a (List.mem_cons_of_mem _ ha)) s1 t (h2 a List.mem_cons_self s s1 hs e) h

theorem putSquare_width {n : Nat} {p t : Plane} {x y : Nat} {f : Square n} (h : p.putSquare x y f = some t) : t.width = p.width := by
  unfold Plane.putSquare at h
  cases e : p.subRange n x y with
  | none => rw [e] at h; simp at h
  | some u =>
    rw [e] at h
    refine foldlM_keeps (fun t : Plane => t.width = p.width) _ (fun r _ s t hs h => ?_) p t rfl h
    refine foldlM_keeps (fun t : Plane => t.width = p.width) _ (fun c _ s t hs h => ?_) s t hs h
    unfold Grid.put at h
    split at h
    · cases h; exact hs
    · cases h

theorem interPredict_width {n : Nat} {p reference t : Plane} {mv : MotionVector} (h : interPredict n p reference mv column row = some t) :
    t.width = p.width := by
  unfold interPredict at h
  cases e : p.subRange n (n * column) (n * row) with
  | none => rw [e] at h; simp at h
  | some u =>
    rw [e] at h
    cases e : interSquare n reference p.width mv column row with
    | none => rw [e] at h; simp at h
    | some f => rw [e] at h; exact putSquare_width h

theorem sseInterLuma_eq {p reference : Plane} (h : SumsFit q m r) (hb : m.yMode ≠ B_PRED) (hp : reference.Full) (hw : p.width = reference.width)
    (hc : m.yMode = SPLITMV → ∀ k : Fin 16, ClearOfEnd reference (m.mvs k) (4 * column + k.val % 4) (4 * row + k.val / 4)) :
    sseInterLuma q reference m r column row p = interLuma q reference m r column row p := by
  unfold sseInterLuma interLuma
  split
  · next hs =>
    rw [sseAddPlain_eq h fun hy => hy.2 hs]
    congr 1
    exact foldlM_congr (fun p : Plane => p.width = reference.width) _
      (fun k _ s hw => sseInterPredictTo_eq hp hw (Or.inr (Or.inr ⟨rfl, hc hs k⟩))) (fun k _ s t hw e => (interPredict_width e).trans hw) p hw
  · next hs => rw [sseInterPredictTo_eq hp hw (Or.inr (Or.inl rfl)), sseApplyWalsh_eq h ⟨hb, hs⟩]

theorem sseInterChroma_eq {p reference : Plane} {blocks : Fin 4 → Block} (h1 : ∀ k i, Short (scaled q.uvDc q.uvAc (blocks k) i))
    (h2 : ∀ k, Fits line (scaled q.uvDc q.uvAc (blocks k))) (h3 : ∀ k column row, Short (both line (scaled q.uvDc q.uvAc (blocks k)) column row + 4))
    (hp : reference.Full) (hw : p.width = reference.width)
    (hc : m.yMode = SPLITMV → ∀ k : Fin 4, ClearOfEnd reference (m.uMvs k) (2 * column + k.val % 2) (2 * row + k.val / 2)) :
    sseInterChroma q reference m r blocks column row p = interChroma q reference m r blocks column row p := by
  unfold sseInterChroma interChroma
  rw [sseAddChroma_eq h1 h2 h3]
  split
  · next hs =>
    congr 1
    exact foldlM_congr (fun p : Plane => p.width = reference.width) _
      (fun k _ s hw => sseInterPredictTo_eq hp hw (Or.inr (Or.inr ⟨rfl, hc hs k⟩))) (fun k _ s t hw e => (interPredict_width e).trans hw) p hw
  · next hs => rw [sseInterPredictTo_eq hp hw (Or.inl rfl)]

theorem sseReconstructInter_eq {dw dh w h : Nat} {s : Raster} (hs : s.Sized dw dh w h) {references : References}
    (href : (reference references m).Sized dw dh w h) (hfit : SumsFit q m r) {hd : InterFrameHeader} {c : MBContext} {sc : Scorer}
    (hm : m.InterOk hd c sc) (hc : m.yMode = SPLITMV → SplitClear (reference references m) m column row) :
    sseReconstructInter q references m r column row s = reconstructInter q references m r column row s := by
  obtain ⟨r1, r2⟩ := reference_at hm references
  have hb : m.yMode ≠ B_PRED := by
    rcases hm.yMode with e | e | e | e | e <;> rw [e] <;> decide
  unfold sseReconstructInter reconstructInter
  simp only [r1, r2, Option.bind_eq_bind, Option.bind_some]
  rw [sseInterLuma_eq hfit hb href.y.full (hs.y.width.trans href.y.width.symm) fun e => (hc e).y,
    sseInterChroma_eq hfit.u hfit.chromaU hfit.uSums href.u.full (hs.u.width.trans href.u.width.symm) fun e => (hc e).u,
    sseInterChroma_eq hfit.v hfit.chromaV hfit.vSums href.v.full (hs.v.width.trans href.v.width.symm) fun e => (hc e).v]

/-! ### Frames -/

variable {H : Type} {f : ParsedFrame H}

/-- A loop over a frame, with two steps that agree on pictures of the right size and keep the size. -/
theorem forMacroblocks_congr (hf : Ready f) {g g' : Raster → Nat → Nat → MBModes → Residue → Nat → Option Raster}
    (hg : ∀ (s : Raster) k m r id, f.frame.modes[k]? = some m → f.frame.residues[k]? = some r → f.segmentIds[k]? = some id → id < 4 →
      s.Sized f.frame.width f.frame.height ((f.frame.width + 15) / 16) ((f.frame.height + 15) / 16) →
      k % ((f.frame.width + 15) / 16) < (f.frame.width + 15) / 16 → k / ((f.frame.width + 15) / 16) < (f.frame.height + 15) / 16 →
      g s (k % ((f.frame.width + 15) / 16)) (k / ((f.frame.width + 15) / 16)) m r id = g' s (k % ((f.frame.width + 15) / 16)) (k / ((f.frame.width + 15) / 16)) m r id ∧
      ∀ t, g' s (k % ((f.frame.width + 15) / 16)) (k / ((f.frame.width + 15) / 16)) m r id = some t →
        t.Sized f.frame.width f.frame.height ((f.frame.width + 15) / 16) ((f.frame.height + 15) / 16))
    {s : Raster} (hs : s.Ok f.frame.width f.frame.height) : forMacroblocks f g s = forMacroblocks f g' s := by
  unfold forMacroblocks
  refine foldlM_congr (Raster.Sized f.frame.width f.frame.height ((f.frame.width + 15) / 16) ((f.frame.height + 15) / 16)) _ (fun k hk s hs => ?_)
    (fun k hk s t hs h => ?_) s (hs.sized hf.width hf.height)
  all_goals
    obtain ⟨m, r, id, e1, e2, e3, e4, _⟩ := hf.at (List.mem_range.1 hk)
    obtain ⟨p1, p2⟩ := place (List.mem_range.1 hk)
    have hg := hg s k m r id e1 e2 e3 e4 hs p1 p2
  · simp only [e1, e2, e3, Option.bind_eq_bind, Option.bind_some]
    exact hg.1
  · simp only [e1, e2, e3, Option.bind_eq_bind, Option.bind_some] at h
    exact hg.2 t h

theorem sseLoopfilterMacroblock_eq {dw dh w h : Nat} {s : Raster} (hs : s.Sized dw dh w h) {column row : Nat} (hc : column < w) (hr : row < h)
    (z : Leftovers) (keyFrame : Bool) (adjustments : Option FilterAdjustments) (m : MBModes) (r : Residue) {p : FilterParameters} (hp : p.sharpness ≤ 7) :
    sseLoopfilterMacroblock z keyFrame adjustments p m r column row s = loopfilterMacroblock keyFrame adjustments p m r column row s := by
  have key : ∀ (p : FilterParameters) (skip : Bool), p.sharpness ≤ 7 →
      (p.filter keyFrame).sseApply (z.xmm5 column row) skip column row s = (p.filter keyFrame).apply skip column row s := fun p skip hp =>
    C85_loopFilter _ p hp keyFrame skip (hs.has hc hr) (hs.v.width.trans hs.u.width.symm)
  unfold sseLoopfilterMacroblock loopfilterMacroblock
  cases adjustments with
  | none => dsimp only; simp only [key p _ hp]
  | some a =>
    dsimp only
    congr 1
    funext id
    rw [key (p.adjust a id m.yMode) _ hp]

theorem sseLoopfilterFrame_eq (hf : Ready f) (href : ∀ (k : Nat) m, f.frame.modes[k]? = some m → m.reference = some (referenceIndex m)) (z : Leftovers) (keyFrame : Bool)
    {level sharpness : Nat} (hsh : sharpness ≤ 7) (segmentation : Option Segmentation) (adjustments : Option FilterAdjustments) {s : Raster}
    (hs : s.Ok f.frame.width f.frame.height) :
    sseLoopfilterFrame z keyFrame false level sharpness segmentation adjustments f s =
      loopfilterFrame keyFrame false level sharpness segmentation adjustments f s := by
  unfold sseLoopfilterFrame loopfilterFrame
  split
  · refine forMacroblocks_congr hf (fun s k m r id e1 e2 e3 e4 hs p1 p2 => ?_) hs
    rw [macroblockFilterParameters_eq segmentation level sharpness e4]
    simp only [Option.bind_eq_bind, Option.bind_some]
    refine ⟨sseLoopfilterMacroblock_eq hs p1 p2 z keyFrame adjustments m r hsh, fun t ht => ?_⟩
    obtain ⟨t', h1, h2⟩ := loopfilterMacroblock_shows hs p1 p2 keyFrame adjustments (href k m e1) (hf.residue k m r e1 e2) (baseLevel segmentation level id) hsh
    rw [ht] at h1
    cases h1
    exact ⟨h2.displayWidth.trans hs.displayWidth, h2.displayHeight.trans hs.displayHeight,
      hs.y.of ⟨h2.y.full, h2.y.width, h2.y.height⟩, hs.u.of ⟨h2.u.full, h2.u.width, h2.u.height⟩, hs.v.of ⟨h2.v.full, h2.v.width, h2.v.height⟩⟩
  · rfl

theorem sseDecodeKeyFrame_eq {f : ParsedFrame KeyFrameHeader} (hf : KeyFrameOk f.frame) (hr : Ready f) (z : Leftovers) {segmentation : Option Segmentation}
    (hfit : FrameSumsFit (macroblockQuantizer segmentation f.frame.header.quantIndices) f) {s : Raster} (hs : s.Ok f.frame.width f.frame.height) :
    sseDecodeKeyFrame z segmentation f s = decodeKeyFrame segmentation f s := by
  obtain ⟨Q, hQ⟩ := quantizers_exist hf.header.quantIndices segmentation
  unfold sseDecodeKeyFrame decodeKeyFrame
  refine forMacroblocks_congr hr (fun s k m r id e1 e2 e3 e4 hs p1 p2 => ?_) hs
  rw [hQ id e4]
  simp only [Option.bind_eq_bind, Option.bind_some]
  have hm := hf.modes k m e1
  refine ⟨sseReconstructIntra_eq z (hfit k m r id _ e1 e2 e3 (hQ id e4)) ?_ s, fun t ht => ?_⟩
  · rcases hm.intra.yMode with e | e | e | e | e <;> rw [e] <;> decide
  · obtain ⟨t', h1, h2⟩ := reconstructIntra_solved hs p1 p2 s (Q id) hm.intra hm.noInter.isInter r
    rw [ht] at h1
    cases h1
    exact h2.sized hs

theorem sseDecodeInterFrame_eq {f : ParsedFrame InterFrameHeader} (hf : InterFrameOk f.frame) (hr : Ready f) (z : Leftovers) {segmentation : Option Segmentation}
    {refs : References} (hrefs : refs.Ok f.frame.width f.frame.height)
    (hfit : FrameSumsFit (macroblockQuantizer segmentation f.frame.header.quantIndices) f) (hclear : FrameClear refs f)
    {s : Raster} (hs : s.Ok f.frame.width f.frame.height) : sseDecodeInterFrame z segmentation refs f s = decodeInterFrame segmentation refs f s := by
  obtain ⟨Q, hQ⟩ := quantizers_exist hf.header.quantIndices segmentation
  unfold sseDecodeInterFrame decodeInterFrame
  refine forMacroblocks_congr hr (fun s k m r id e1 e2 e3 e4 hs p1 p2 => ?_) hs
  rw [hQ id e4]
  simp only [Option.bind_eq_bind, Option.bind_some]
  have hm := hf.modes k m e1
  have hfit := hfit k m r id _ e1 e2 e3 (hQ id e4)
  rcases hm.cases with ⟨hi, hn⟩ | ⟨sc, _, hi⟩
  · rw [if_neg (by rw [hn.isInter]; decide), if_neg (by rw [hn.isInter]; decide)]
    refine ⟨sseReconstructIntra_eq z hfit ?_ s, fun t ht => ?_⟩
    · rcases hi.yMode with e | e | e | e | e <;> rw [e] <;> decide
    · obtain ⟨t', h1, h2⟩ := reconstructIntra_solved hs p1 p2 s (Q id) hi hn.isInter r
      rw [ht] at h1
      cases h1
      exact h2.sized hs
  · rw [if_pos hi.isInter, if_pos hi.isInter]
    have href := (references_sized hrefs m).sized hr.width hr.height
    refine ⟨sseReconstructInter_eq hs href hfit hi (hclear k m e1 hi.isInter), fun t ht => ?_⟩
    obtain ⟨t', h1, h2⟩ := reconstructInter_solved hs p1 p2 href (Q id) hi r
    rw [ht] at h1
    cases h1
    exact h2.sized hs

end Alfalfa
