import Verif.Model.ZeroOut
import Verif.Spec.ZeroOut
import Verif.Props.Terminate

/-! Lemmas about the program that removes coefficients. -/

namespace Alfalfa

theorem zeroOut_fun : (fun m : MBModes => { m with skip := some true }) = MBModes.zeroOut := rfl

theorem gridAbove_map {α β : Type} (f : α → β) (w : Nat) (cells : List α) (k : Nat) : gridAbove w (cells.map f) k = (gridAbove w cells k).map f := by
  unfold gridAbove
  split <;> simp

theorem gridLeft_map {α β : Type} (f : α → β) (w : Nat) (cells : List α) (k : Nat) : gridLeft w (cells.map f) k = (gridLeft w cells k).map f := by
  unfold gridLeft
  split <;> simp

theorem gridAboveLeft_map {α β : Type} (f : α → β) (w : Nat) (cells : List α) (k : Nat) :
    gridAboveLeft w (cells.map f) k = (gridAboveLeft w cells k).map f := by
  unfold gridAboveLeft
  split <;> simp

/-- A context in which the neighbours are marked. -/
def MBContext.zeroOut (c : MBContext) : MBContext :=
  { c with above := c.above.map MBModes.zeroOut, left := c.left.map MBModes.zeroOut, aboveLeft := c.aboveLeft.map MBModes.zeroOut }

theorem gridContext_zeroOut (w h : Nat) (modes : List MBModes) (k : Nat) :
    gridContext w h (modes.map MBModes.zeroOut) k = (gridContext w h modes k).zeroOut := by
  unfold gridContext MBContext.zeroOut
  rw [gridAbove_map, gridLeft_map, gridAboveLeft_map]

theorem addMB_zeroOut (s : Scorer) (n : Nat) (o : Option MBModes) : s.addMB n (o.map MBModes.zeroOut) = s.addMB n o := by
  cases o <;> rfl

theorem census_zeroOut (b : Bool) (c : MBContext) : census b c.zeroOut = census b c := by
  unfold census MBContext.zeroOut
  simp only [addMB_zeroOut]

theorem map_mvs_zeroOut (o : Option MBModes) : (o.map MBModes.zeroOut).map (·.mvs) = o.map (·.mvs) := by
  cases o <;> rfl

theorem splitOk_zeroOut {c : MBContext} {best : MotionVector} {groups : List (List (Fin 16))} {m : MBModes} (h : m.SplitOk c best groups) :
    m.zeroOut.SplitOk c.zeroOut best groups := by
  refine ⟨h.mode, h.shared, ?_, ?_, h.zero, h.new⟩
  · intro g hg i hi hm
    have := h.left g hg i hi hm
    unfold MBContext.zeroOut
    rw [map_mvs_zeroOut]
    exact this
  · intro g hg i hi hm
    have := h.above g hg i hi hm
    unfold MBContext.zeroOut
    rw [map_mvs_zeroOut]
    exact this

theorem interOk_zeroOut {h : InterFrameHeader} {c : MBContext} {s : Scorer} {m : MBModes} (hm : m.InterOk h c s) : m.zeroOut.InterOk h c.zeroOut s :=
  { isInter := hm.isInter, sel1 := hm.sel1, sel2 := hm.sel2, flipped := hm.flipped, yMode := hm.yMode, uvMode := hm.uvMode, nearest := hm.nearest,
    near := hm.near, zero := hm.zero, new := hm.new, noSplit := hm.noSplit, chroma := hm.chroma
    split := fun hs => by
      obtain ⟨k, groups, h1, h2, h3⟩ := hm.split hs
      exact ⟨k, groups, h1, h2, splitOk_zeroOut h3⟩ }

theorem interFrameOk_zeroOut {h : InterFrameHeader} (hp : h.probSkipFalse ≠ none) {c : MBContext} {m : MBModes} (hm : m.InterFrameOk h c) :
    m.zeroOut.InterFrameOk h c.zeroOut := by
  refine ⟨⟨hm.pre.segmentPresent, hm.pre.segmentRange, ?_⟩, ?_⟩
  · cases hq : h.probSkipFalse with
    | none => exact absurd hq hp
    | some q => rfl
  · rcases hm.cases with ⟨a, b⟩ | ⟨s, hs, hi⟩
    · exact Or.inl ⟨⟨a.yMode, a.uvMode, a.free, a.dc, a.v, a.h, a.tm⟩, ⟨b.isInter, b.sel1, b.sel2, b.flipped, b.partitionId, b.mvs, b.uMvs⟩⟩
    · exact Or.inr ⟨s, by rw [census_zeroOut]; exact hs, interOk_zeroOut hi⟩

theorem emptyResidue_ok (m : MBModes) : Residue.Ok m {} :=
  ⟨fun _ => rfl, fun _ => rfl, representable_default _, fun _ => by exact representable_default _, fun _ => representable_default _,
    fun _ => representable_default _, by
      simp [show ({} : Residue).nonzero = false from rfl, show ({} : Residue).y2.hasNonzero = false from rfl]⟩

/-- The frame without coefficients. -/
def Frame.emptied (f : Frame InterFrameHeader) : Frame InterFrameHeader :=
  { f with modes := f.modes.map MBModes.zeroOut, residues := f.residues.map fun _ => {} }

theorem emptied_ok {f : Frame InterFrameHeader} (hf : InterFrameOk f) (hp : f.header.probSkipFalse ≠ none) : InterFrameOk f.emptied where
  header := hf.header
  width := hf.width
  height := hf.height
  count := (List.length_map _).trans hf.count
  countResidues := by
    have := hf.countResidues
    unfold Frame.emptied
    simp only [List.length_map]
    exact this
  modes := by
    intro k m hm
    unfold Frame.emptied at hm ⊢
    simp only [List.getElem?_map, Option.map_eq_some_iff] at hm
    obtain ⟨m, hm, rfl⟩ := hm
    simp only
    rw [gridContext_zeroOut]
    exact interFrameOk_zeroOut hp (hf.modes k m hm)
  residues := by
    intro k m r hm hr
    unfold Frame.emptied at hr
    simp only [List.getElem?_map, Option.map_eq_some_iff] at hr
    obtain ⟨_, _, rfl⟩ := hr
    exact emptyResidue_ok m

theorem writeResidues_skipped (probs : CoeffProbs) (w : Nat) (all all' : List Residue) : ∀ (l : List (MBModes × Option Nat × Option Nat)) (k : Nat)
    (rs rs' : List Residue) (parts : List Bits), (∀ x ∈ l, x.1.skip = some true) → rs.length = rs'.length →
    writeResidues probs w all k l rs parts = writeResidues probs w all' k l rs' parts := by
  intro l
  induction l with
  | nil => intro k rs rs' parts _ _; rw [writeResidues, writeResidues]
  | cons x l ih =>
    obtain ⟨m, la, ll⟩ := x
    intro k rs rs' parts hs hl
    cases rs with
    | nil =>
      obtain rfl : rs' = [] := List.length_eq_zero_iff.1 (by simpa using hl.symm)
      rw [writeResidues, writeResidues]
    | cons r rs =>
      cases rs' with
      | nil => simp at hl
      | cons r' rs' =>
        have hm : m.skip = some true := hs (m, la, ll) (by simp)
        have go := fun p => ih (k + 1) rs rs' p (fun x hx => hs x (by simp [hx])) (by simpa using hl)
        rw [writeResidues, writeResidues]
        unfold writeResidue
        rw [hm]
        simp only [Option.getD_some, if_true, Option.bind_eq_bind, Option.bind_some, go]

/-- What is left of the blocks does not matter, as no macroblock writes any. -/
theorem serialize_zeroOut (f : Frame InterFrameHeader) (hc : f.residues.length = f.modes.length) (t : ProbabilityTables) :
    interKind.serialize t f.zeroOut = interKind.serialize t f.emptied := by
  have h1 : ∀ t, interKind.serializeFirst t f.zeroOut = interKind.serializeFirst t f.emptied := fun _ => rfl
  have h2 : ∀ t, interKind.serializeTokens t f.zeroOut = interKind.serializeTokens t f.emptied := by
    intro t
    unfold FrameKind.serializeTokens
    simp only
    rw [writeResidues_skipped _ _ _ f.emptied.residues _ _ _ f.emptied.residues]
    · rfl
    · intro x hx
      have := (List.of_mem_zip (a := x.1) (b := x.2) hx).1
      obtain ⟨m, -, e⟩ := List.mem_map.1 this
      rw [← e]
      rfl
    · unfold Frame.zeroOut Frame.emptied
      simp [hc]
  unfold FrameKind.serialize
  simp only
  rw [show f.zeroOut.header = f.emptied.header from rfl, h1, h2]
  rfl

theorem applyMap_zeroOut (s : Segmentation) (w : Nat) (modes : List MBModes) : ∀ k,
    Segmentation.applyMap w k (modes.map MBModes.zeroOut) s = Segmentation.applyMap w k modes s := by
  induction modes generalizing s with
  | nil => intro k; rfl
  | cons m rest ih =>
    intro k
    rw [List.map_cons]
    unfold Segmentation.applyMap
    simp only [ih]
    rfl

theorem applySegmentation_zeroOut (w : Nat) (modes : List MBModes) (o : Option Segmentation) :
    applySegmentation w (modes.map MBModes.zeroOut) o = applySegmentation w modes o := by
  cases o with
  | none => unfold applySegmentation; rw [List.map_map]; rfl
  | some s => unfold applySegmentation; simp only [applyMap_zeroOut]

end Alfalfa
