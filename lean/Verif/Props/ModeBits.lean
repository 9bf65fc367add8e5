import Verif.Proof.ModeBits
import Verif.Props.Macroblock

/-! C106: the modes and motion vectors of every macroblock are coded with the code words, in the order and in the contexts
the format gives, so that they mean the same to other implementations of the format.  The round trips of C08 cannot see an
error the reader and the writer share. -/

namespace Alfalfa

open ModeSpec

theorem writeGroups_flatMap {step : Fin 16 → Option Bits} {bits : Fin 16 → Bits} : ∀ groups : List (List (Fin 16)),
    (∀ g ∈ groups, g ≠ []) → (∀ g ∈ groups, ∀ i, g.head? = some i → step i = some (bits i)) →
    writeGroups step groups = some (groups.flatMap fun g => bits (g.headD 0))
  | [], _, _ => rfl
  | [] :: _, h, _ => absurd rfl (h [] List.mem_cons_self)
  | (i :: g) :: rest, h, hs => by
    unfold writeGroups
    rw [hs _ List.mem_cons_self i rfl, writeGroups_flatMap rest (fun g hg => h g (List.mem_cons_of_mem _ hg))
      (fun g hg => hs g (List.mem_cons_of_mem _ hg))]
    rfl

theorem writeGroups_single {step : Fin 16 → Option Bits} {bits : Fin 16 → Bits} (h : ∀ i, step i = some (bits i)) :
    writeGroups step singleGroups = some ((List.finRange 16).flatMap bits) := by
  rw [writeGroups_flatMap (bits := bits) singleGroups (by decide +kernel) (fun _ _ i _ => h i)]
  rfl

theorem lumaMode_lt {m : MBModes} (h : m.IntraOk) : m.yMode < 5 := by
  rcases h.yMode with h | h | h | h | h <;> rw [h] <;> decide

theorem chromaMode_lt {m : MBModes} (h : m.IntraOk) : m.uvMode < 4 := by
  rcases h.uvMode with h | h | h | h <;> rw [h] <;> decide

theorem writeSegmentId_spec {u : Option UpdateSegmentation} {k : Option Nat} {m : MBModes} (h : m.PrefixOk u k) :
    writeSegmentId u m.segmentIdUpdate = some (segmentBits u m) := by
  unfold segmentBits
  cases hs : m.segmentIdUpdate with
  | none => rfl
  | some v =>
    show writeTree segmentIdTree v (segmentTreeProbs u) = _
    rw [writeTree_coded 3 (segment_path v (h.segmentRange v hs)) (Nat.le_of_eq (segmentTreeProbs_length u).symm)]
    unfold segmentTreeProbs
    cases u.bind (·.mbSegmentationMap) <;> rfl

theorem writeSkip_spec {u : Option UpdateSegmentation} {k : Option Nat} {m : MBModes} (h : m.PrefixOk u k) :
    writeSkip k m.skip = some (skipBits k m) := by
  have := h.skipPresent
  unfold writeSkip skipBits
  revert this
  cases m.skip <;> cases k <;> simp [encOptional]

theorem keyBlock_spec {c : MBContext} {m : MBModes} (hm : ∀ i, m.bModes i ≤ 9)
    (ha : ∀ n, c.above = some n → n.IntraOk) (hl : ∀ n, c.left = some n → n.IntraOk) (i : Fin 16) :
    writeKeyBMode (c.above.map (·.bModes)) (c.left.map (·.bModes)) m.bModes i = some (keyBlockBits c m i) := by
  have hc : KeyContext c := ⟨ha, hl⟩
  unfold writeKeyBMode keyBlockBits
  have h1 := getD_aboveOf_le (i := i) (fun j _ => hm j) hc.above_le
  have h2 := getD_leftOf_le (i := i) (fun j _ => hm j) hc.left_le
  rw [aboveOf_blockAbove _ _ (c.left.map (·.bModes))] at h1 ⊢
  rw [leftOf_blockLeft _ (c.above.map (·.bModes))] at h2 ⊢
  obtain ⟨p, hp, hlen⟩ := kfBModeProbs_some _ _ h1 h2
  have hlen' : 9 ≤ p.length := by
    have : bModeTree.length = 18 := rfl
    omega
  simp only [hp, Option.bind_eq_bind, Option.bind_some, Option.getD_some]
  exact writeTree_coded 9 (block_path _ (Nat.lt_succ_of_le (hm i))) hlen'

/-- **C106**, key frames.  For every macroblock a key frame can carry, in every neighbourhood, the writer produces exactly
the bits, with the probabilities, that the format gives for it, and the parser reads those bits as that macroblock. -/
theorem C106_key_modes (h : KeyFrameHeader) (c : MBContext) (m : MBModes) (hm : m.KeyOk h)
    (ha : ∀ n, c.above = some n → n.IntraOk) (hl : ∀ n, c.left = some n → n.IntraOk) :
    writeKeyMB h c m = some (keyBits h c m) ∧ RoundTrips (parseKeyMB h c) (keyBits h c m) m := by
  have hw : writeKeyMB h c m = some (keyBits h c m) := by
    have hb : writeKeyBModes m c = some (if m.yMode = B_PRED then (List.finRange 16).flatMap (keyBlockBits c m) else []) := by
      unfold writeKeyBModes
      by_cases hy : m.yMode = B_PRED
      · rw [if_pos hy, if_pos hy]
        exact writeGroups_single (keyBlock_spec (fun i => IntraOk.bModes_le hm.intra i) ha hl)
      · rw [if_neg hy, if_neg hy]
    unfold writeKeyMB writeKeyModes keyBits
    rw [writeSegmentId_spec hm.pre, writeSkip_spec hm.pre, hb,
      writeTree_coded 4 (keyLuma_path _ (lumaMode_lt hm.intra)) (by decide),
      writeTree_coded 3 (chroma_path _ (chromaMode_lt hm.intra)) (by decide)]
    simp only [Option.bind_eq_bind, Option.bind_some, List.append_assoc]
    rfl
  obtain ⟨bits, h1, h2⟩ := C08_key_macroblock_round_trip h c m hm ha hl
  rw [hw] at h1
  cases h1
  exact ⟨hw, h2⟩

theorem part_spec {t : ProbabilityTables} {c : MBContext} {best : MotionVector} {m : MBModes} {groups : List (List (Fin 16))}
    (hm : m.SplitOk c best groups) {g : List (Fin 16)} (hg : g ∈ groups) {i : Fin 16} (hi : g.head? = some i) :
    writeSubMv (c.above.map (·.mvs)) (c.left.map (·.mvs)) best t.mvProbs (fun i => (m.bModes i, m.mvs i)) i =
      some (partBits t c best m i) := by
  unfold writeSubMv partBits
  simp only
  rw [aboveOf_blockAbove _ _ (c.left.map (·.mvs)), leftOf_blockLeft _ (c.above.map (·.mvs)), submvRefIndex_eq]
  have hctx : ∀ l a : MotionVector, partContext l a < 5 := fun l a => by
    unfold partContext
    split <;> split <;> (try split) <;> decide
  have tab : ∀ n < 5, submvRefProbs2[n]? = some (submvRefProbs2.getD n []) ∧ 3 ≤ (submvRefProbs2.getD n []).length := by decide +kernel
  have hmode : m.bModes i ∈ [LEFT4X4, ABOVE4X4, ZERO4X4, NEW4X4] := by simpa using hm.mode i
  have hv : writeNewMv (m.bModes i) NEW4X4 ((m.mvs i).sub best) t.mvProbs =
      some (if m.bModes i = NEW4X4 then vector t.mvProbs ((m.mvs i).sub best) else []) := by
    unfold writeNewMv
    by_cases hn : m.bModes i = NEW4X4
    · rw [if_pos hn, if_pos hn]
      exact encMv_coded _ (hm.new g hg i hi hn)
    · rw [if_neg hn, if_neg hn]
  rw [(tab _ (hctx _ _)).1, hv]
  simp only [Option.bind_eq_bind, Option.bind_some]
  rw [writeTree_coded 3 (partMode_path _ hmode) (tab _ (hctx _ _)).2]
  rfl

theorem vectors_spec {h : InterFrameHeader} {t : ProbabilityTables} {c : MBContext} {m : MBModes} {s : Scorer}
    (hs : census m.flipped c = some s) (hm : m.InterOk h c s) : writeInterModes t c m = some (vectorBits t c m) := by
  obtain ⟨s', hs', _, _, hbase, _⟩ := census_near m.flipped c
  rw [hs] at hs'
  cases hs'
  have hy : m.yMode ∈ [ZEROMV, NEARESTMV, NEARMV, NEWMV, SPLITMV] := by
    rcases hm.yMode with h | h | h | h | h <;> rw [h] <;> decide
  unfold writeInterModes vectorBits
  rw [hs]
  simp only [Option.bind_eq_bind, Option.bind_some]
  rw [mvRefProbs_near hs]
  simp only [Option.bind_some]
  rw [writeTree_coded 4 (vectorMode_path _ hy) (Nat.le_of_eq rfl), hbase]
  unfold writeNewMv writeSplit
  by_cases hn : m.yMode = NEWMV
  · have hsp : ¬ m.yMode = SPLITMV := by rw [hn]; decide
    obtain ⟨v, hv, hcod⟩ := hm.new hn
    rw [← hv 15, hbase] at hcod
    simp only [if_pos hn, if_neg hsp]
    rw [show m.baseMv = m.mvs 15 from rfl, encMv_coded _ hcod]
    simp
  · by_cases hsp : m.yMode = SPLITMV
    · obtain ⟨k, groups, hk, hg, hok⟩ := hm.split hsp
      have hk4 : k < 4 := (List.getElem?_eq_some_iff.1 hg).1
      have hne : ∀ k < 4, ∀ g ∈ mvPartitions.getD k [], g ≠ [] := by decide +kernel
      have hfirst : ∀ k < 4, firstBlocks k = (mvPartitions.getD k []).map (·.headD 0) := by decide +kernel
      have hgd : mvPartitions.getD k [] = groups := by simp [List.getD, hg]
      rw [hbase] at hok
      simp only [if_neg hn, if_pos hsp, hk, Option.bind_eq_bind, Option.bind_some, Option.getD_some]
      rw [writeTree_coded 3 (splitting_path k hk4) (Nat.le_of_eq rfl)]
      simp only [Option.bind_some, hg]
      rw [writeGroups_flatMap (bits := partBits t c (clampMv (near m.flipped c).base c) m) groups
        (by rw [← hgd]; exact hne k hk4) (fun g hg' i hi => part_spec hok hg' hi), hfirst k hk4, hgd]
      simp [List.flatMap_map]
    · simp only [if_neg hn, if_neg hsp]
      simp

/-- **C106**, inter frames.  For every macroblock an inter frame can carry, in every neighbourhood and under every
probability table, the writer produces exactly the bits, with the probabilities, that the format gives for it, and the
parser reads those bits as that macroblock. -/
theorem C106_inter_modes (h : InterFrameHeader) (t : ProbabilityTables) (c : MBContext) (m : MBModes) (hm : m.InterFrameOk h c) :
    writeInterMB h t c m = some (interBits h t c m) ∧ RoundTrips (parseInterMB h t c) (interBits h t c m) m := by
  have hw : writeInterMB h t c m = some (interBits h t c m) := by
    have hr : writeModes t c m = some (if m.isInter then vectorBits t c m else intraBits t m) := by
      unfold writeModes
      rcases hm.cases with ⟨h1, h2⟩ | ⟨s, hs, h2⟩
      · rw [h2.isInter]
        simp only [Bool.false_eq_true, if_false]
        have hb : writeIntraBModes m = some (if m.yMode = B_PRED then
            (List.finRange 16).flatMap (fun i => coded invariantBModeProbs (block (m.bModes i))) else []) := by
          unfold writeIntraBModes
          by_cases hy : m.yMode = B_PRED
          · rw [if_pos hy, if_pos hy]
            exact writeGroups_single fun i => writeTree_coded 9
              (block_path _ (Nat.lt_succ_of_le (IntraOk.bModes_le h1 i))) (by decide)
          · rw [if_neg hy, if_neg hy]
        unfold intraBits
        rw [hb, writeTree_coded 4 (luma_path _ (lumaMode_lt h1)) (by simp), writeTree_coded 3 (chroma_path _ (chromaMode_lt h1)) (by simp)]
        simp
      · rw [h2.isInter]
        exact vectors_spec hs h2
    unfold writeInterMB interBits
    rw [writeSegmentId_spec hm.pre, writeSkip_spec hm.pre, hr]
    cases m.sel1 <;> cases m.sel2 <;> simp [encOptional]
  obtain ⟨bits, h1, h2⟩ := C08_inter_macroblock_round_trip h t c m hm
  rw [hw] at h1
  cases h1
  exact ⟨hw, h2⟩

/-- **C106**, the vectors named by their neighbours: an inter macroblock that says it has the nearest or the near vector has
the one the format derives from the three neighbours, kept within reach of the picture. -/
theorem C106_named_vectors (h : InterFrameHeader) (c : MBContext) (m : MBModes) (hm : m.InterFrameOk h c)
    (hi : m.isInter = true) :
    (m.yMode = NEARESTMV → ∀ i, m.mvs i = clampMv (near m.flipped c).nearest c) ∧
    (m.yMode = NEARMV → ∀ i, m.mvs i = clampMv (near m.flipped c).near c) ∧
    (m.yMode = ZEROMV → ∀ i, m.mvs i = {}) := by
  rcases hm.cases with ⟨_, h2⟩ | ⟨s, hs, h2⟩
  · rw [h2.isInter] at hi
    cases hi
  · obtain ⟨s', hs', h3, h4, _⟩ := census_near m.flipped c
    rw [hs] at hs'
    cases hs'
    rw [← h3, ← h4]
    exact ⟨h2.nearest, h2.near, h2.zero⟩

/-- **C106**, split macroblocks: blocks in the same part (the same half, quarter or sixteenth) have the same vector. -/
theorem C106_parts (h : InterFrameHeader) (c : MBContext) (m : MBModes) (hm : m.InterFrameOk h c) (hi : m.isInter = true)
    (hs : m.yMode = SPLITMV) : ∃ k < 4, m.partitionId = some k ∧
      ∀ i j, partOf k i = partOf k j → m.bModes i = m.bModes j ∧ m.mvs i = m.mvs j := by
  rcases hm.cases with ⟨_, h2⟩ | ⟨s, _, h2⟩
  · rw [h2.isInter] at hi
    cases hi
  · obtain ⟨k, groups, hk, hg, hok⟩ := h2.split hs
    have hk4 : k < 4 := (List.getElem?_eq_some_iff.1 hg).1
    have hgd : mvPartitions.getD k [] = groups := by simp [List.getD, hg]
    have hall : ∀ k < 4, ∀ i j, partOf k i = partOf k j →
        ((mvPartitions.getD k []).any fun g => decide (i ∈ g) && decide (j ∈ g)) = true := by decide +kernel
    refine ⟨k, hk4, hk, fun i j hij => ?_⟩
    obtain ⟨g, hg', hij'⟩ := List.any_eq_true.1 (hall k hk4 i j hij)
    rw [hgd] at hg'
    rw [Bool.and_eq_true, decide_eq_true_eq, decide_eq_true_eq] at hij'
    exact hok.shared g hg' i hij'.1 j hij'.2

/-! ### Concrete cases -/

/-- Three neighbours: the two outer ones move alike, the one between them differently. -/
def nearExample : MBContext :=
  { column := 1, row := 1, width := 4, height := 4
    above := some { isInter := true, sel1 := some false, yMode := NEWMV, mvs := fun _ => ⟨6, -4⟩ }
    left := some { isInter := true, sel1 := some false, yMode := SPLITMV, mvs := fun i => ⟨2 * i.val, 8⟩ }
    aboveLeft := some { isInter := true, sel1 := some false, yMode := NEWMV, mvs := fun _ => ⟨6, -4⟩ } }

example : (near false nearExample).nearest = ⟨6, -4⟩ ∧ (near false nearExample).near = ⟨30, 8⟩ ∧
    (near false nearExample).nearestCount = 3 ∧ (near false nearExample).nearCount = 2 ∧
    (near false nearExample).splitCount = 2 ∧ (near false nearExample).base = ⟨6, -4⟩ := by decide +kernel

example : (near true nearExample).nearest = ⟨-6, 4⟩ := by decide +kernel

/-- A macroblock of a key frame with sixteen modes of its own, which a key frame can carry. -/
def keyExample : MBModes := { yMode := B_PRED, uvMode := H_PRED, bModes := fun i => i.val % 10 }

example : keyExample.IntraOk ∧ keyExample.NoInter := by
  refine ⟨⟨by decide, by decide, fun _ => by decide, ?_, ?_, ?_, ?_⟩, ⟨rfl, rfl, rfl, rfl, rfl, fun _ => rfl, fun _ => rfl⟩⟩ <;>
    (intro h; exact absurd h (by decide))

/-- A new vector in that neighbourhood: 20 to the right of the base and 1000 up. -/
example : component (fun _ => 7) 20 = [(true, 7), (false, 7), (true, 7), (false, 7), (false, 7), (false, 7), (false, 7),
    (false, 7), (false, 7), (false, 7), (false, 7)] ∧ CodableFrom ⟨6, -4⟩ ⟨26, -1004⟩ := by
  refine ⟨by decide +kernel, 20, -1000, ⟨by decide, by decide, by decide⟩, ⟨by decide, by decide, by decide⟩, by decide +kernel⟩

end Alfalfa
