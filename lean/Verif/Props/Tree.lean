import Verif.Proof.Tree

/-! # Tree-coded symbols (C04, and the tree part of C12) -/

namespace Alfalfa

/-- The coding trees of the codec with the symbols each must be able to code: the luma modes of key frames and of
inter frames, the chroma modes, the sub-block modes, the short motion vector magnitudes, the motion vector
references, the split motion vector references, the split layouts, and the segment ids. -/
def codecTrees : List (List Int × List Nat) := [
  (kfYModeTree, [DC_PRED, V_PRED, H_PRED, TM_PRED, B_PRED]),
  (yModeTree, [DC_PRED, V_PRED, H_PRED, TM_PRED, B_PRED]),
  (uvModeTree, [DC_PRED, V_PRED, H_PRED, TM_PRED]),
  (bModeTree, [B_DC_PRED, B_TM_PRED, B_VE_PRED, B_HE_PRED, B_LD_PRED, B_RD_PRED, B_VR_PRED, B_VL_PRED, B_HD_PRED,
    B_HU_PRED]),
  (smallMvTree, [0, 1, 2, 3, 4, 5, 6, 7]),
  (mvRefTree, [NEARESTMV, NEARMV, ZEROMV, NEWMV, SPLITMV]),
  (submvRefTree, [LEFT4X4, ABOVE4X4, ZERO4X4, NEW4X4]),
  (splitMvTree, [0, 1, 2, 3]),
  (segmentIdTree, [0, 1, 2, 3])]

theorem codecTrees_good : ∀ t ∈ codecTrees, goodTree t.1 t.2 = true ∧ 2 ≤ t.1.length ∧ ∀ v ∈ t.2, goodSymbol t.1 v = true := by
  decide +kernel

/-- **C04.** In every tree of the codec every symbol can be written under any probabilities (one per inner node), and
reading with the same tree and probabilities gives it back, consuming exactly what was written. -/
theorem C04_tree_round_trip (t : List Int × List Nat) (ht : t ∈ codecTrees) (v : Nat) (hv : v ∈ t.2) (probs : List Prob)
    (hp : 2 * probs.length = t.1.length) :
    ∃ bits, writeTree t.1 v probs = some bits ∧ RoundTrips (readTree t.1 probs) bits v := by
  obtain ⟨bits, h1, h2⟩ := tree_parses ((codecTrees_good t ht).2.2 v hv) hp
  exact ⟨bits, h1, h2.roundTrips⟩

/-- **C04**, the other direction: whatever the bits, reading a tree ends, does not index out of range, and gives one of
the tree's symbols. -/
theorem C04_tree_read_total (t : List Int × List Nat) (ht : t ∈ codecTrees) (probs : List Prob)
    (hp : 2 * probs.length = t.1.length) (d : BoolDecoder) :
    ∃ v d', readTree t.1 probs d = some (v, d') ∧ v ∈ t.2 :=
  readTree_produces (codecTrees_good t ht).1 (codecTrees_good t ht).2.1 hp d

/-- The hypotheses are met, for instance, by the deepest symbol of the sub-block mode tree under its fixed probabilities. -/
example : (bModeTree, [B_DC_PRED, B_TM_PRED, B_VE_PRED, B_HE_PRED, B_LD_PRED, B_RD_PRED, B_VR_PRED, B_VL_PRED, B_HD_PRED,
    B_HU_PRED]) ∈ codecTrees ∧ 2 * invariantBModeProbs.length = bModeTree.length ∧
    writeTree bModeTree B_HU_PRED invariantBModeProbs =
      some [(true, 120), (true, 90), (true, 79), (true, 133), (true, 80), (true, 111), (true, 151)] := by
  decide +kernel

end Alfalfa
