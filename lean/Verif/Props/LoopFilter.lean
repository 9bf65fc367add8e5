import Verif.Proof.LoopFilter
import Verif.Props.Intra

/-! C39: the loop filter.  C40: its strength. -/

namespace Alfalfa

open LoopFilterSpec

/-! ### C40 -/

/-- **C40**: for every level, however it has been adjusted, and every sharpness of three bits, the level that is used is in 0 .. 63, the
limits are those of the format, the interior limit is at least 1, and all of them fit in a byte. -/
theorem C40_strength (p : FilterParameters) (keyFrame : Bool) (hs : p.sharpness ≤ 7) :
    let f := p.filter keyFrame
    f.level = limit63 p.level ∧ f.interior = interior f.level p.sharpness ∧ f.macroblockLimit = 2 * (f.level + 2) + f.interior ∧
      f.subblockLimit = 2 * f.level + f.interior ∧ f.hevThreshold = threshold keyFrame f.level ∧
      f.level ≤ 63 ∧ 1 ≤ f.interior ∧ f.interior ≤ 63 ∧ f.macroblockLimit ≤ 193 ∧ f.subblockLimit ≤ 189 := by
  have h1 := limit63_le p.level
  have h2 := interior_le (sharpness := p.sharpness) h1
  rw [filter_eq p keyFrame hs]
  exact ⟨rfl, rfl, rfl, rfl, rfl, h1, h2.1, h2.2, by dsimp only; omega, by dsimp only; omega⟩

/-- The level of a macroblock as the format defines it: the level of the frame or segment is limited to 0 .. 63, then the adjustments for
the reference and the mode are added, then it is limited again. -/
def formatLevel (frameOrSegment : Int) (adjustments : Option FilterAdjustments) (reference : Fin 4) (yMode : Nat) : Nat :=
  match adjustments with
  | none => limit63 frameOrSegment
  | some a => limit63 (limit63 frameOrSegment + a.ref reference +
      (if reference = 0 then (if yMode = B_PRED then a.mode 0 else 0) else if yMode = ZEROMV then a.mode 1
        else if yMode = SPLITMV then a.mode 3 else a.mode 2))

/-- **C40** (adjustments), for levels of frames and segments that are in 0 .. 63 themselves.  The full statement, without the last
hypothesis, is false: see `C40_adjust_deviation`. -/
theorem C40_adjust_partial (p : FilterParameters) (a : FilterAdjustments) (reference : Fin 4) (yMode : Nat) (keyFrame : Bool)
    (hs : p.sharpness ≤ 7) (h : 0 ≤ p.level ∧ p.level ≤ 63) :
    ((p.adjust a reference yMode).filter keyFrame).level = formatLevel p.level (some a) reference yMode := by
  have := (C40_strength (p.adjust a reference yMode) keyFrame (by exact hs)).1
  rw [this]
  unfold FilterParameters.adjust formatLevel modeAdjustment
  dsimp only
  have e : (limit63 p.level : Int) = p.level := by unfold limit63; omega
  rw [e, Int.add_assoc]

/-- **C40** (deviation): the level of a segment is not limited before the other adjustments are added to it, and a macroblock may be
filtered with another level than the format defines. -/
theorem C40_adjust_deviation : ∃ (p : FilterParameters) (a : FilterAdjustments) (reference : Fin 4) (yMode : Nat),
    p.level = 50 + 40 ∧ ((p.adjust a reference yMode).filter false).level = 63 ∧ formatLevel p.level (some a) reference yMode = 43 :=
  ⟨⟨false, 90, 0⟩, ⟨fun _ => -20, fun _ => 0⟩, 1, ZEROMV, by decide, by decide, by decide⟩

/-- Without adjustments there is no difference. -/
theorem C40_no_adjustments (p : FilterParameters) (keyFrame : Bool) (hs : p.sharpness ≤ 7) (reference : Fin 4) (yMode : Nat) :
    (p.filter keyFrame).level = formatLevel p.level none reference yMode := (C40_strength p keyFrame hs).1

/-- The hypotheses are met. -/
example : let p : FilterParameters := ⟨false, 41, 5⟩
    let a : FilterAdjustments := ⟨![2, 0, -2, -2], ![4, -2, 2, 4]⟩
    p.filter false = ⟨41, 4, 90, 86, 3⟩ ∧ (p.adjust a 1 ZEROMV).filter true = ⟨39, 4, 86, 82, 1⟩ ∧ ((p.adjust a 0 B_PRED).filter true).level = 47 ∧
      ((p.adjust a 2 SPLITMV).filter true).level = 43 ∧ (FilterParameters.filter ⟨false, -3, 5⟩ true) = ⟨0, 1, 5, 1, 0⟩ := by decide

/-! ### C39 -/

/-- **C39** (lines): what the code makes of any eight pixels across an edge is what the format defines. -/
theorem C39_lines (f : LoopFilter) (v : Fin 8 → UInt8) (i : Fin 8) :
    f.macroblockLine v i = UInt8.ofNat (macroblock f.interior f.macroblockLimit f.hevThreshold (fun i => (v i).toNat) i) ∧
      f.subblockLine v i = UInt8.ofNat (subblock f.interior f.subblockLimit f.hevThreshold (fun i => (v i).toNat) i) := by
  rw [macroblockLine_eq, subblockLine_eq]; exact ⟨rfl, rfl⟩

theorem s2u_le (v : Int) : s2u v ≤ 255 := by have := c_range v; unfold s2u; omega

/-- **C39** (range): the numbers that the filters give are pixels. -/
theorem C39_range (I E T : Nat) {v : Fin 8 → Nat} (hv : ∀ i, v i ≤ 255) (i : Fin 8) : macroblock I E T v i ≤ 255 ∧ subblock I E T v i ≤ 255 := by
  constructor
  · unfold macroblock
    split
    · split
      · dsimp only
        split <;> first | exact s2u_le _ | exact hv _
      · dsimp only
        split <;> first | exact s2u_le _ | exact hv _
    · exact hv i
  · unfold subblock
    split
    · split
      · dsimp only
        split <;> first | exact s2u_le _ | exact hv _
      · dsimp only
        split <;> first | exact s2u_le _ | exact hv _
    · exact hv i

/-- **C39** (no edge): nothing changes when two neighbours differ by more than the interior limit, or the step across the edge exceeds
the edge limit. -/
theorem C39_unfiltered (f : LoopFilter) (v : Fin 8 → UInt8) :
    ((∃ i : Fin 8, i.val < 7 ∧ i ≠ 3 ∧ f.interior < far (v i).toNat (v (i + 1)).toNat) → f.macroblockLine v = v ∧ f.subblockLine v = v) ∧
    (f.macroblockLimit < far (v 3).toNat (v 4).toNat * 2 + far (v 2).toNat (v 5).toNat / 2 → f.macroblockLine v = v) ∧
    (f.subblockLimit < far (v 3).toNat (v 4).toNat * 2 + far (v 2).toNat (v 5).toNat / 2 → f.subblockLine v = v) := by
  have hm : ¬ filterYes f.interior f.macroblockLimit (fun i => (v i).toNat) → f.macroblockLine v = v := fun h => by
    rw [macroblockLine_eq]; funext i; unfold onPixels macroblock; rw [if_neg h, UInt8.ofNat_toNat]
  have hs : ¬ filterYes f.interior f.subblockLimit (fun i => (v i).toNat) → f.subblockLine v = v := fun h => by
    rw [subblockLine_eq]; funext i; unfold onPixels subblock; rw [if_neg h, UInt8.ofNat_toNat]
  refine ⟨?_, fun h => hm fun hy => absurd hy.2 (by dsimp only; omega), fun h => hs fun hy => absurd hy.2 (by dsimp only; omega)⟩
  rintro ⟨i, h7, h3, h⟩
  exact ⟨hm fun hy => absurd (hy.1 i h7 h3) (by dsimp only; omega), hs fun hy => absurd (hy.1 i h7 h3) (by dsimp only; omega)⟩

/-- **C39** (reach): at most three pixels on each side of an edge between macroblocks change, and at most two inside a macroblock. -/
theorem C39_reach (f : LoopFilter) (v : Fin 8 → UInt8) :
    f.macroblockLine v 0 = v 0 ∧ f.macroblockLine v 7 = v 7 ∧
      f.subblockLine v 0 = v 0 ∧ f.subblockLine v 1 = v 1 ∧ f.subblockLine v 6 = v 6 ∧ f.subblockLine v 7 = v 7 := by
  rw [macroblockLine_eq, subblockLine_eq]
  exact ⟨macroblock_only _ _ _ v 0 (by decide), macroblock_only _ _ _ v 7 (by decide), subblock_only _ _ _ v 0 (by decide),
    subblock_only _ _ _ v 1 (by decide), subblock_only _ _ _ v 6 (by decide), subblock_only _ _ _ v 7 (by decide)⟩

theorem base_flat (outer : Bool) (a : Nat) : base outer (fun _ => a) = 0 := by
  unfold base
  rw [Int.sub_self]; cases outer <;> rfl

/-- **C39** (flat): eight equal pixels stay as they are, whatever the limits. -/
theorem C39_flat (I E T : Nat) (a : UInt8) :
    onPixels (macroblock I E T) (fun _ => a) = (fun _ => a) ∧ onPixels (subblock I E T) (fun _ => a) = (fun _ => a) := by
  have hu := s2u_u2s a
  have q : ∀ o, commonQ o (fun _ => a.toNat) = 0 := fun o => by unfold commonQ; rw [base_flat]; decide
  have p : ∀ o, commonP o (fun _ => a.toNat) = 0 := fun o => by unfold commonP; rw [base_flat]; decide
  have e9 : c ((9 * 0 + 63) / 128) = 0 := by decide
  have e18 : c ((18 * 0 + 63) / 128) = 0 := by decide
  have e27 : c ((27 * 0 + 63) / 128) = 0 := by decide
  constructor
  · funext i
    unfold onPixels macroblock
    simp only [q, p, base_flat, e9, e18, e27, Int.add_zero, Int.sub_zero, hu]
    (split <;> try split) <;> dsimp only <;> (try split) <;> exact UInt8.ofNat_toNat
  · funext i
    unfold onPixels subblock
    simp only [q, p, show ((0 : Int) + 1) / 2 = 0 by decide, Int.add_zero, Int.sub_zero, hu]
    (split <;> try split) <;> dsimp only <;> (try split) <;> exact UInt8.ofNat_toNat

/-- **C39** (macroblocks): filtering any macroblock of any picture succeeds, and the three planes then show what the format defines: see
`LoopFilterSpec.block`. -/
theorem C39_macroblock (p : FilterParameters) (keyFrame : Bool) (hs : p.sharpness ≤ 7) (skip : Bool) {column row : Nat} {r : Raster}
    (hr : r.Has column row) : ∃ t, (p.filter keyFrame).apply skip column row r = some t ∧
      r.Shows t fun n => LoopFilterSpec.block keyFrame (limit63 p.level) p.sharpness (!skip) n column row :=
  apply_shows keyFrame hs skip hr

theorem acrossVertical_flat {g : (Fin 8 → Nat) → Fin 8 → Nat} (hg : ∀ a, onPixels g (fun _ => a) = fun _ => a) (n x y : Nat) (a : UInt8) :
    acrossVertical g n x y (fun _ _ => a) = fun _ _ => a := by
  funext u v; unfold acrossVertical; split
  · exact congrFun (hg a) _
  · rfl

theorem acrossHorizontal_flat {g : (Fin 8 → Nat) → Fin 8 → Nat} (hg : ∀ a, onPixels g (fun _ => a) = fun _ => a) (n x y : Nat) (a : UInt8) :
    acrossHorizontal g n x y (fun _ _ => a) = fun _ _ => a := by
  funext u v; unfold acrossHorizontal; split
  · exact congrFun (hg a) _
  · rfl

theorem foldl_flat {ι α : Type} {g : ι → α → α} {a : α} (h : ∀ k, g k a = a) : ∀ l : List ι, l.foldl (fun x k => g k x) a = a
  | [] => rfl
  | k :: l => by rw [List.foldl_cons, h]; exact foldl_flat h l

/-- **C39** (flat pictures): a picture of one colour stays as it is. -/
theorem C39_flat_picture (keyFrame : Bool) (level sharpness : Nat) (inside : Bool) (n column row : Nat) (a : UInt8) :
    LoopFilterSpec.block keyFrame level sharpness inside n column row (fun _ _ => a) = fun _ _ => a := by
  have hm := fun I E T a => (C39_flat I E T a).1
  have hs := fun I E T a => (C39_flat I E T a).2
  have fv : ∀ E T (l : List Nat), l.foldl (fun img k => acrossVertical (subblock (interior level sharpness) E T) n (n * column + k) (n * row) img)
      (fun _ _ => a) = fun _ _ => a := fun E T l => foldl_flat (fun k => acrossVertical_flat (hs _ _ _) _ _ _ _) l
  have fh : ∀ E T (l : List Nat), l.foldl (fun img k => acrossHorizontal (subblock (interior level sharpness) E T) n (n * column) (n * row + k) img)
      (fun _ _ => a) = fun _ _ => a := fun E T l => foldl_flat (fun k => acrossHorizontal_flat (hs _ _ _) _ _ _ _) l
  unfold LoopFilterSpec.block
  simp only [acrossVertical_flat (hm _ _ _), acrossHorizontal_flat (hm _ _ _), ite_self, fv, fh]

/-- The theorems are not about filters that do nothing: a step of 12 is smoothed over six pixels, a smaller one next to a high variance
over two. -/
example : let v : Fin 8 → UInt8 := ![100, 100, 100, 100, 112, 112, 112, 112]
    let f : LoopFilter := FilterParameters.filter ⟨false, 40, 0⟩ true
    (List.finRange 8).map (f.macroblockLine v) = [100, 102, 103, 105, 107, 109, 110, 112] ∧
      (List.finRange 8).map (f.subblockLine v) = [100, 100, 103, 104, 107, 109, 112, 112] ∧
      (List.finRange 8).map (f.subblockLine ![100, 100, 100, 105, 110, 110, 110, 110]) = [100, 100, 100, 106, 109, 110, 110, 110] := by
  decide +kernel

end Alfalfa
