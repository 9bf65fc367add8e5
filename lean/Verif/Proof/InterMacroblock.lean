import Verif.Proof.Macroblock
import Mathlib.Algebra.BigOperators.Fin
import Mathlib.Tactic.FinCases

namespace Alfalfa

/-! ### The census -/

/-- What holds of a census after adding neighbours of total weight `w` in `n` steps. -/
structure Scorer.Bounded (w n : Nat) (s : Scorer) : Prop where
  total : ∑ i, s.scores i ≤ w
  split : s.splitScore ≤ w
  index : s.index ≤ n

theorem sum_update_add (f : Fin 4 → Nat) (k : Fin 4) (n : Nat) :
    ∑ i, (Function.update f k (f k + n)) i = ∑ i, f i + n := by
  fin_cases k <;> simp [Fin.sum_univ_four, Function.update] <;> omega

theorem Scorer.addMv_bounded {w n : Nat} {s : Scorer} (h : s.Bounded w n) (hn : n < 3) (k : Nat) (mv : MotionVector) :
    ∃ s', s.addMv k mv = some s' ∧ s'.flipped = s.flipped ∧ s'.splitScore = s.splitScore ∧ ∑ i, s'.scores i ≤ w + k ∧ s'.index ≤ n + 1 := by
  have h1 := h.total
  have h2 := h.index
  unfold Scorer.addMv
  by_cases c1 : mv.empty = true
  · rw [if_pos c1]
    refine ⟨_, rfl, rfl, rfl, ?_, ?_⟩
    · simp only [sum_update_add]; omega
    · simp only; omega
  · rw [if_neg c1]
    have c2 : s.index < 4 := by omega
    rw [dif_pos c2]
    by_cases c3 : mv ≠ s.mvs ⟨s.index, c2⟩
    · rw [if_pos c3, dif_pos (by omega : s.index + 1 < 4)]
      refine ⟨_, rfl, rfl, rfl, ?_, ?_⟩
      · simp only [sum_update_add]; omega
      · simp only; omega
    · rw [if_neg c3]
      refine ⟨_, rfl, rfl, rfl, ?_, ?_⟩
      · simp only [sum_update_add]; omega
      · simp only; omega

theorem Scorer.addMB_bounded {w n : Nat} {s : Scorer} (h : s.Bounded w n) (hn : n < 3) (k : Nat) (mb : Option MBModes) :
    ∃ s', s.addMB k mb = some s' ∧ s'.Bounded (w + k) (n + 1) := by
  have hsame : s.Bounded (w + k) (n + 1) :=
    ⟨Nat.le_trans h.total (by omega), Nat.le_trans h.split (by omega), Nat.le_trans h.index (by omega)⟩
  cases mb with
  | none => exact ⟨s, rfl, hsame⟩
  | some mb =>
    unfold Scorer.addMB
    by_cases c : mb.isInter = true
    · simp only [c, if_true]
      obtain ⟨s', h1, _, h3, h4, h5⟩ := Scorer.addMv_bounded h hn k (if mb.flipped ≠ s.flipped then mb.baseMv.neg else mb.baseMv)
      rw [h1]
      have := h.split
      refine ⟨_, rfl, ?_⟩
      by_cases c2 : mb.yMode = SPLITMV
      · rw [if_pos c2]; exact ⟨h4, by simp only; omega, h5⟩
      · rw [if_neg c2]; exact ⟨h4, by omega, h5⟩
    · simp only [c]
      exact ⟨s, rfl, hsame⟩

theorem Scorer.calculate_bounded {w : Nat} {s : Scorer} (h : s.Bounded w 3) :
    ∃ s', s.calculate = some s' ∧ (∀ i, s'.scores i ≤ w) ∧ s'.splitScore ≤ w := by
  obtain ⟨s1, e1, t1, t2⟩ : ∃ s1, s.mergeThird = some s1 ∧ (∀ i, s1.scores i ≤ w) ∧ s1.splitScore ≤ w := by
    have ht := h.total
    rw [Fin.sum_univ_four] at ht
    have hs : ∀ i, s.scores i ≤ w := by intro i; fin_cases i <;> simp <;> omega
    unfold Scorer.mergeThird
    by_cases c : s.scores 3 ≠ 0
    · rw [if_pos c, dif_pos (by have := h.index; omega : s.index < 4)]
      split
      · refine ⟨_, rfl, fun i => ?_, h.split⟩
        fin_cases i <;> simp [Function.update] <;> omega
      · exact ⟨_, rfl, hs, h.split⟩
    · rw [if_neg c]; exact ⟨_, rfl, hs, h.split⟩
  unfold Scorer.calculate
  rw [e1]
  refine ⟨_, rfl, fun i => ?_, ?_⟩
  · have hu : ∀ i, (if s1.scores 1 < s1.scores 2 then
      { s1 with
        scores := Function.update (Function.update s1.scores 1 (s1.scores 2)) 2 (s1.scores 1)
        mvs := Function.update (Function.update s1.mvs 1 (s1.mvs 2)) 2 (s1.mvs 1) }
      else s1).scores i ≤ w := by
      intro i
      split
      · have a := t1 0; have b := t1 1; have c := t1 2; have d := t1 3
        fin_cases i <;> simp [Function.update] <;> omega
      · exact t1 i
    revert hu
    generalize (if s1.scores 1 < s1.scores 2 then _ else s1 : Scorer) = s2
    intro hu
    split
    · exact hu i
    · exact hu i
  · have hu : (if s1.scores 1 < s1.scores 2 then
      { s1 with
        scores := Function.update (Function.update s1.scores 1 (s1.scores 2)) 2 (s1.scores 1)
        mvs := Function.update (Function.update s1.mvs 1 (s1.mvs 2)) 2 (s1.mvs 1) }
      else s1).splitScore ≤ w := by
      split
      · exact t2
      · exact t2
    revert hu
    generalize (if s1.scores 1 < s1.scores 2 then _ else s1 : Scorer) = s2
    intro hu
    split
    · exact hu
    · exact hu

theorem census_bounded (flipped : Bool) (c : MBContext) :
    ∃ s, census flipped c = some s ∧ (∀ i, s.scores i ≤ 5) ∧ s.splitScore ≤ 5 := by
  have h0 : Scorer.Bounded 0 0 { flipped } := ⟨by simp, Nat.le_refl _, Nat.le_refl _⟩
  obtain ⟨s1, e1, b1⟩ := Scorer.addMB_bounded h0 (by omega) 2 c.above
  obtain ⟨s2, e2, b2⟩ := Scorer.addMB_bounded b1 (by omega) 2 c.left
  obtain ⟨s3, e3, b3⟩ := Scorer.addMB_bounded b2 (by omega) 1 c.aboveLeft
  obtain ⟨s4, e4, b4⟩ := Scorer.calculate_bounded b3
  refine ⟨s4, ?_, b4⟩
  unfold census
  simp only [e1, e2, e3, Option.bind_eq_bind, Option.bind_some, e4]

theorem mvRefProbs_some {s : Scorer} (h : ∀ i, s.scores i ≤ 5) (h' : s.splitScore ≤ 5) :
    ∃ p, mvRefProbs s = some p ∧ 2 * p.length = mvRefTree.length := by
  have key : ∀ n, n ≤ 5 → ∀ k : Fin 4, ∃ p, (mvCountsToProbs[n]?).bind (·[k.val]?) = some p := by
    intro n hn k
    have : ∀ n : Fin 6, ∀ k : Fin 4, ((mvCountsToProbs[n.val]?).bind (·[k.val]?)).isSome = true := by decide
    exact Option.isSome_iff_exists.mp (this ⟨n, by omega⟩ k)
  obtain ⟨p0, h0⟩ := key _ (h 0) 0
  obtain ⟨p1, h1⟩ := key _ (h 1) 1
  obtain ⟨p2, h2⟩ := key _ (h 2) 2
  obtain ⟨p3, h3⟩ := key _ h' 3
  refine ⟨[p0, p1, p2, p3], ?_, rfl⟩
  unfold mvRefProbs
  have h0' : (mvCountsToProbs[s.scores 0]?).bind (·[0]?) = some p0 := h0
  have h1' : (mvCountsToProbs[s.scores 1]?).bind (·[1]?) = some p1 := h1
  have h2' : (mvCountsToProbs[s.scores 2]?).bind (·[2]?) = some p2 := h2
  have h3' : (mvCountsToProbs[s.splitScore]?).bind (·[3]?) = some p3 := h3
  simp only [h0', h1', h2', h3', Option.bind_eq_bind, Option.bind_some]
  rfl

/-! ### Difference vectors -/

theorem sub_base (base : MotionVector) (dx dy : Int) (hx : CodableComponent dx) (hy : CodableComponent dy) :
    MotionVector.sub { x := toInt16 (dx + base.x), y := toInt16 (dy + base.y) } base = { x := dx, y := dy } := by
  unfold CodableComponent at hx hy
  unfold MotionVector.sub MotionVector.add MotionVector.neg toInt16
  simp only [MotionVector.mk.injEq, Int.bmod_def]
  omega

theorem parses_newMv {base v : MotionVector} (h : CodableFrom base v) (p : Fin 2 → Fin 19 → Prob) :
    ∃ bits d, encMv (v.sub base) p = some bits ∧ Parses (readMv p) bits d ∧ d.add base = v := by
  obtain ⟨dx, dy, hx, hy, rfl⟩ := h
  rw [sub_base base dx dy hx hy]
  obtain ⟨bits, h1, h2⟩ := parses_mv { x := dx, y := dy } p hx.1 (by have := hx.2; simp only; omega) hy.1 (by have := hy.2; simp only; omega)
  exact ⟨bits, _, h1, h2, rfl⟩

theorem produces_newMv (base : MotionVector) (p : Fin 2 → Fin 19 → Prob) :
    Produces (readMv p) (fun d => CodableFrom base (d.add base)) :=
  (produces_mv p).mono fun d h => ⟨d.x, d.y, ⟨h.1.1, by have := h.1.2; omega, by have := h.1.2; omega⟩,
    ⟨h.2.1, by have := h.2.2; omega, by have := h.2.2; omega⟩, rfl⟩

/-! ### Split motion vectors -/

theorem submv_probs_fin : ∀ n : Fin 5, ∃ p, submvRefProbs2[n.val]? = some p ∧ 2 * p.length = submvRefTree.length := by
  intro n
  refine ⟨_, List.getElem?_eq_getElem (by have : submvRefProbs2.length = 5 := rfl; omega), ?_⟩
  revert n; decide

theorem submv_probs (l a : MotionVector) : ∃ p, submvRefProbs2[submvRefIndex l a]? = some p ∧ 2 * p.length = submvRefTree.length := by
  have hb : submvRefIndex l a < 5 := by
    unfold submvRefIndex
    split_ifs <;> omega
  exact submv_probs_fin ⟨_, hb⟩

theorem subMode_mem {k : Nat} (h : k = LEFT4X4 ∨ k = ABOVE4X4 ∨ k = ZERO4X4 ∨ k = NEW4X4) : k ∈ [LEFT4X4, ABOVE4X4, ZERO4X4, NEW4X4] := by
  simpa using h

/-- What the first block of a group must satisfy. -/
def SubOk (above left : Option (Fin 16 → MotionVector)) (best : MotionVector) (cells : Fin 16 → MotionVector) (i : Fin 16)
    (x : Nat × MotionVector) : Prop :=
  (x.1 = LEFT4X4 ∧ x.2 = (leftOf cells left i).getD {}) ∨ (x.1 = ABOVE4X4 ∧ x.2 = (aboveOf cells above i).getD {}) ∨
    (x.1 = ZERO4X4 ∧ x.2 = {}) ∨ (x.1 = NEW4X4 ∧ CodableFrom best x.2)

theorem parses_subMv {above left : Option (Fin 16 → MotionVector)} {best : MotionVector} (p : Fin 2 → Fin 19 → Prob)
    {t cells : Fin 16 → Nat × MotionVector} {i : Fin 16} (hc : ∀ j ∈ deps i, cells j = t j)
    (h : SubOk above left best (fun j => (t j).2) i (t i)) :
    ∃ bits, writeSubMv above left best p t i = some bits ∧ Parses (readSubMv above left best p cells i) bits (t i) := by
  unfold writeSubMv readSubMv
  have hl : leftOf (fun j => (cells j).2) left i = leftOf (fun j => (t j).2) left i := leftOf_congr fun j hj => by rw [hc j hj]
  have ha : aboveOf (fun j => (cells j).2) above i = aboveOf (fun j => (t j).2) above i := aboveOf_congr fun j hj => by rw [hc j hj]
  simp only [hl, ha]
  unfold SubOk at h
  revert h
  generalize (leftOf (fun j => (t j).2) left i).getD {} = lv
  generalize (aboveOf (fun j => (t j).2) above i).getD {} = av
  intro h
  obtain ⟨probs, hp, hlen⟩ := submv_probs lv av
  rw [hp, liftM_bind rfl]
  generalize t i = x at h
  obtain ⟨k, v⟩ := x
  simp only at h
  have hk : k ∈ [LEFT4X4, ABOVE4X4, ZERO4X4, NEW4X4] := by
    rcases h with h | h | h | h <;> rw [h.1] <;> decide
  obtain ⟨a, hw, hr⟩ := tree_rt (nodes := submvRefTree) (by decide) hk hlen
  rcases h with ⟨rfl, rfl⟩ | ⟨rfl, rfl⟩ | ⟨rfl, rfl⟩ | ⟨rfl, hv⟩
  · refine ⟨a ++ [], ?_, Parses.bind hr (Parses.pure _)⟩
    simp only [Option.bind_eq_bind, Option.bind_some, hw, writeNewMv]; rfl
  · refine ⟨a ++ [], ?_, Parses.bind hr (Parses.pure _)⟩
    simp only [Option.bind_eq_bind, Option.bind_some, hw, writeNewMv]; rfl
  · refine ⟨a ++ [], ?_, Parses.bind hr (Parses.pure _)⟩
    simp only [Option.bind_eq_bind, Option.bind_some, hw, writeNewMv]; rfl
  · obtain ⟨b, d, h1, h2, h3⟩ := parses_newMv hv p
    refine ⟨a ++ b, ?_, Parses.bind hr ?_⟩
    · simp only [Option.bind_eq_bind, Option.bind_some, hw, writeNewMv, if_true, h1]; rfl
    · exact Parses.bindPure h2 (by rw [h3])

theorem produces_subMv (above left : Option (Fin 16 → MotionVector)) (best : MotionVector) (p : Fin 2 → Fin 19 → Prob)
    (cells : Fin 16 → Nat × MotionVector) (i : Fin 16) :
    Produces (readSubMv above left best p cells i) (SubOk above left best (fun j => (cells j).2) i) := by
  unfold readSubMv SubOk
  generalize (leftOf (fun j => (cells j).2) left i).getD {} = lv
  generalize (aboveOf (fun j => (cells j).2) above i).getD {} = av
  obtain ⟨probs, hp, hlen⟩ := submv_probs lv av
  rw [liftM_bind hp]
  refine Produces.bind (tree_prod (nodes := submvRefTree) (syms := [LEFT4X4, ABOVE4X4, ZERO4X4, NEW4X4]) (by decide) hlen) fun k hk => ?_
  simp only [List.mem_cons, List.not_mem_nil, or_false] at hk
  rcases hk with rfl | rfl | rfl | rfl
  · exact Produces.pure (Or.inl ⟨rfl, rfl⟩)
  · exact Produces.pure (Or.inr (Or.inl ⟨rfl, rfl⟩))
  · exact Produces.pure (Or.inr (Or.inr (Or.inl ⟨rfl, rfl⟩)))
  · exact Produces.bind (produces_newMv best p) fun d hd => Produces.pure (Or.inr (Or.inr (Or.inr ⟨rfl, hd⟩)))

theorem SubOk.congr {above left : Option (Fin 16 → MotionVector)} {best : MotionVector} {c c' : Fin 16 → MotionVector} {i : Fin 16}
    {x : Nat × MotionVector} (hc : ∀ j ∈ deps i, c j = c' j) (h : SubOk above left best c i x) : SubOk above left best c' i x := by
  unfold SubOk at h ⊢
  rwa [← leftOf_congr hc, ← aboveOf_congr hc]

theorem SplitOk.head {c : MBContext} {best : MotionVector} {groups : List (List (Fin 16))} {m : MBModes} (h : m.SplitOk c best groups)
    {g : List (Fin 16)} (hg : g ∈ groups) {i : Fin 16} (hi : g.head? = some i) :
    SubOk (c.above.map (·.mvs)) (c.left.map (·.mvs)) best m.mvs i (m.bModes i, m.mvs i) := by
  rcases h.mode i with hm | hm | hm | hm
  · exact Or.inl ⟨hm, h.left g hg i hi hm⟩
  · exact Or.inr (Or.inl ⟨hm, h.above g hg i hi hm⟩)
  · exact Or.inr (Or.inr (Or.inl ⟨hm, h.zero g hg i hi hm⟩))
  · exact Or.inr (Or.inr (Or.inr ⟨hm, h.new g hg i hi hm⟩))

theorem partition_lookup {k : Nat} {groups : List (List (Fin 16))} (h : mvPartitions[k]? = some groups) :
    k ∈ [0, 1, 2, 3] ∧ groupsOk [] groups = true ∧ ∀ i : Fin 16, i ∈ ([] : List (Fin 16)) ++ groups.flatten := by
  have hk : k < 4 := (List.getElem?_eq_some_iff.mp h).1
  obtain ⟨g, h1, h2⟩ := partitions_ok ⟨k, hk⟩
  have : groups = g := by have := h.symm.trans h1; simpa using this
  subst this
  refine ⟨?_, h2⟩
  simp; omega

theorem parses_subMvs {above left : Option (Fin 16 → MotionVector)} {best : MotionVector} (p : Fin 2 → Fin 19 → Prob)
    {t : Fin 16 → Nat × MotionVector} {groups : List (List (Fin 16))} (hok : groupsOk [] groups = true)
    (hcov : ∀ i : Fin 16, i ∈ ([] : List (Fin 16)) ++ groups.flatten) (hsh : ∀ g ∈ groups, ∀ i ∈ g, ∀ j ∈ g, t i = t j)
    (hst : ∀ g ∈ groups, ∀ i, g.head? = some i → SubOk above left best (fun j => (t j).2) i (t i)) :
    ∃ b, writeGroups (writeSubMv above left best p t) groups = some b ∧
      Parses (fillGroups (readSubMv above left best p) groups (fun _ => (0, {}))) b t := by
  obtain ⟨b, hb, cells', pb, hc⟩ := parses_fillGroups (readSubMv above left best p) (writeSubMv above left best p t) t groups
    (fun _ => (0, {})) [] (fun _ h => absurd h List.not_mem_nil) hok hsh
    (fun g hg' i hi cells hc => parses_subMv p hc (hst g hg' i hi))
  have e : cells' = t := funext fun i => hc i (hcov i)
  rw [e] at pb
  exact ⟨b, hb, pb⟩

theorem parses_split {t : ProbabilityTables} {c : MBContext} {s : Scorer} {m : MBModes} (hy : m.yMode = SPLITMV) {k : Nat}
    {groups : List (List (Fin 16))} (hk : m.partitionId = some k) (hg : mvPartitions[k]? = some groups)
    (h : m.SplitOk c (clampMv (s.mvs 0) c) groups) :
    ∃ bits, writeSplit t c (clampMv (s.mvs 0) c) m = some bits ∧
      Parses (readInterVectors t c s SPLITMV) bits (some k, fun i => (m.bModes i, m.mvs i)) := by
  obtain ⟨hk4, hok, hcov⟩ := partition_lookup hg
  obtain ⟨a, ha, pa⟩ := tree_rt (nodes := splitMvTree) (by decide) hk4 (probs := splitMvProbs) (by decide)
  have hsh : ∀ g ∈ groups, ∀ i ∈ g, ∀ j ∈ g, (m.bModes i, m.mvs i) = (m.bModes j, m.mvs j) := by
    intro g hg' i hi j hj
    obtain ⟨h1, h2⟩ := h.shared g hg' i hi j hj
    rw [h1, h2]
  have hst : ∀ g ∈ groups, ∀ i, g.head? = some i → SubOk (c.above.map (·.mvs)) (c.left.map (·.mvs)) (clampMv (s.mvs 0) c) m.mvs i (m.bModes i, m.mvs i) :=
    fun g hg' i hi => SplitOk.head h hg' hi
  unfold writeSplit readInterVectors
  rw [if_pos hy, hk, if_neg (by decide), if_neg (by decide), if_neg (by decide), if_neg (by decide), if_pos rfl]
  generalize clampMv (s.mvs 0) c = best at *
  obtain ⟨b, hb, pb⟩ := parses_subMvs (t := fun i => (m.bModes i, m.mvs i)) t.mvProbs hok hcov hsh hst
  refine ⟨a ++ b, ?_, ?_⟩
  · simp only [Option.bind_eq_bind, Option.bind_some, ha, hb, hg, Option.pure_def]
  · refine Parses.bind pa ?_
    rw [liftM_bind hg]
    exact Parses.bindPure pb rfl

theorem parses_vectors {h : InterFrameHeader} {t : ProbabilityTables} {c : MBContext} {s : Scorer} {m : MBModes} (hm : m.InterOk h c s) :
    ∃ v w, writeNewMv m.yMode NEWMV (m.baseMv.sub (clampMv (s.mvs 0) c)) t.mvProbs = some v ∧
      writeSplit t c (clampMv (s.mvs 0) c) m = some w ∧
      Parses (readInterVectors t c s m.yMode) (v ++ w) (m.partitionId, fun i => (m.bModes i, m.mvs i)) := by
  have hns : m.yMode ≠ SPLITMV → writeSplit t c (clampMv (s.mvs 0) c) m = some [] := fun e => by unfold writeSplit; rw [if_neg e]
  have hres : ∀ v, m.yMode ≠ SPLITMV → (∀ i, m.mvs i = v) →
      (m.partitionId, fun i => (m.bModes i, m.mvs i)) = (none, fun _ => (0, v)) := by
    intro v e hv
    obtain ⟨h1, h2⟩ := hm.noSplit e
    simp only [h1, h2, hv]
  rcases hm.yMode with hy | hy | hy | hy | hy
  · refine ⟨[], [], by rw [hy]; rfl, hns (by rw [hy]; decide), ?_⟩
    rw [hres _ (by rw [hy]; decide) (hm.nearest hy), hy]
    exact Parses.pure _
  · refine ⟨[], [], by rw [hy]; rfl, hns (by rw [hy]; decide), ?_⟩
    rw [hres _ (by rw [hy]; decide) (hm.near hy), hy]
    exact Parses.pure _
  · refine ⟨[], [], by rw [hy]; rfl, hns (by rw [hy]; decide), ?_⟩
    rw [hres _ (by rw [hy]; decide) (hm.zero hy), hy]
    exact Parses.pure _
  · obtain ⟨v, hv, hcod⟩ := hm.new hy
    obtain ⟨bits, d, h1, h2, h3⟩ := parses_newMv hcod t.mvProbs
    refine ⟨bits, [], ?_, hns (by rw [hy]; decide), ?_⟩
    · unfold writeNewMv MBModes.baseMv
      rw [if_pos hy, hv]; exact h1
    · rw [hres v (by rw [hy]; decide) hv, hy, List.append_nil]
      unfold readInterVectors
      rw [if_neg (by decide), if_neg (by decide), if_neg (by decide), if_pos rfl]
      exact Parses.bindPure h2 (by rw [h3])
  · obtain ⟨k, groups, h1, h2, h3⟩ := hm.split hy
    obtain ⟨w, hw, pw⟩ := parses_split (t := t) hy h1 h2 h3
    refine ⟨[], w, by rw [hy]; rfl, hw, ?_⟩
    rw [hy, h1]; exact pw

theorem InterOk.yMode_mem {h : InterFrameHeader} {c : MBContext} {s : Scorer} {m : MBModes} (hm : m.InterOk h c s) :
    m.yMode ∈ [NEARESTMV, NEARMV, ZEROMV, NEWMV, SPLITMV] := by
  simpa using hm.yMode

theorem parses_interModes {h : InterFrameHeader} {t : ProbabilityTables} {c : MBContext} {s : Scorer} {m : MBModes}
    (hs : census m.flipped c = some s) (hm : m.InterOk h c s) :
    ∃ bits, writeInterModes t c m = some bits ∧
      Parses (readInterModes t c m.flipped) bits (m.yMode, m.partitionId, fun i => (m.bModes i, m.mvs i)) := by
  obtain ⟨s', hs', hb1, hb2⟩ := census_bounded m.flipped c
  have : s' = s := by have := hs'.symm.trans hs; simpa using this
  subst this
  obtain ⟨p, hp, hlen⟩ := mvRefProbs_some hb1 hb2
  obtain ⟨y, hy, py⟩ := tree_rt (nodes := mvRefTree) (by decide) (InterOk.yMode_mem hm) hlen
  obtain ⟨v, w, hv, hw, pvw⟩ := parses_vectors (t := t) hm
  refine ⟨y ++ (v ++ w), ?_, ?_⟩
  · unfold writeInterModes
    simp only [hs, Option.bind_eq_bind, Option.bind_some, hp, hy, hv, hw]; rfl
  · unfold readInterModes
    rw [liftM_bind hs, liftM_bind hp]
    exact Parses.bind py (Parses.bindPure pvw rfl)

/-! ### Intra macroblocks of inter frames -/

theorem writeGroups_singles (f : Fin 16 → Option Bits) (g : Fin 16 → Bits) (h : ∀ i, f i = some (g i)) :
    writeGroups f singleGroups = some ((List.finRange 16).flatMap g) := by
  have : ∀ l : List (Fin 16), writeGroups f (l.map ([·])) = some (l.flatMap g) := by
    intro l
    induction l with
    | nil => rfl
    | cons i l ih =>
      rw [List.map_cons]
      unfold writeGroups
      rw [h i, ih]; rfl
  exact this _

theorem parses_intraBModes {m : MBModes} (h : m.IntraOk) :
    ∃ bits, writeIntraBModes m = some bits ∧ Parses (readIntraBModes m.yMode) bits m.bModes := by
  unfold writeIntraBModes readIntraBModes
  by_cases hb : m.yMode = B_PRED
  · rw [if_pos hb, if_pos hb]
    have key : ∀ i, ∃ bits, writeTree bModeTree (m.bModes i) invariantBModeProbs = some bits ∧
        Parses (readTree bModeTree invariantBModeProbs) bits (m.bModes i) := fun i =>
      tree_rt (nodes := bModeTree) (by decide) (bMode_mem (IntraOk.bModes_le h i)) (by decide)
    choose g hg using key
    refine ⟨_, writeGroups_singles _ g fun i => (hg i).1, ?_⟩
    exact Parses.fin fun i => (hg i).2
  · rw [if_neg hb, if_neg hb]
    obtain ⟨v, h1, h2⟩ := implied_spec h hb
    refine ⟨[], rfl, ?_⟩
    rw [h2, liftM_bind h1]
    exact Parses.pure _

theorem produces_intraBModes {yMode : Nat} (hy : yMode ∈ [DC_PRED, V_PRED, H_PRED, TM_PRED, B_PRED]) :
    Produces (readIntraBModes yMode) (BModesOk yMode) := by
  unfold readIntraBModes
  by_cases hb : yMode = B_PRED
  · subst hb
    rw [if_pos rfl]
    exact (Produces.fin (n := 16) (P := fun _ x => x ≤ 9) fun _ => (tree_prod (nodes := bModeTree)
      (syms := [B_DC_PRED, B_TM_PRED, B_VE_PRED, B_HE_PRED, B_LD_PRED, B_RD_PRED, B_VR_PRED, B_VL_PRED, B_HD_PRED, B_HU_PRED])
      (by decide) (by decide)).mono fun x hx => bMode_le hx).mono fun b hb => BModesOk.bpred hb
  · rw [if_neg hb]
    obtain ⟨v, h1, h2⟩ := produces_implied hy hb
    rw [liftM_bind h1]
    exact Produces.pure (BModesOk.implied hb h2)

/-! ### Inter frame macroblocks -/

/-- The part of the record the header gives. -/
def MBModes.headerPart (m : MBModes) : MBModes :=
  { segmentIdUpdate := m.segmentIdUpdate, skip := m.skip, isInter := m.isInter, sel1 := m.sel1, sel2 := m.sel2, flipped := m.flipped }

theorem parses_modes {h : InterFrameHeader} {t : ProbabilityTables} {c : MBContext} {m : MBModes} (hm : m.InterFrameOk h c) :
    ∃ bits, writeModes t c m = some bits ∧ Parses (readModes t c m.headerPart) bits m := by
  unfold writeModes readModes
  rcases hm.cases with ⟨h1, h2⟩ | ⟨s, hs, h2⟩
  · have e : m.headerPart.isInter = false := h2.isInter
    rw [e, h2.isInter]
    obtain ⟨y, hy, py⟩ := tree_rt (nodes := yModeTree) (by decide) (yMode_mem h1) (probs := List.ofFn t.yModeProbs) (by simp [yModeTree])
    obtain ⟨b, hb, pb⟩ := parses_intraBModes h1
    obtain ⟨uv, huv, puv⟩ := tree_rt (nodes := uvModeTree) (by decide) (uvMode_mem h1) (probs := List.ofFn t.uvModeProbs) (by simp [uvModeTree])
    refine ⟨y ++ (b ++ uv), ?_, Parses.bind py (Parses.bind pb (Parses.bindPure puv ?_))⟩
    · simp only [Option.bind_eq_bind, hy, hb, huv, Option.bind_some, Bool.false_eq_true, if_false]; rfl
    · have := NoInter.eq h2
      rw [this]
      rfl
  · have e : m.headerPart.isInter = true := h2.isInter
    rw [e, h2.isInter]
    obtain ⟨bits, h3, h4⟩ := parses_interModes (t := t) hs h2
    refine ⟨bits, h3, Parses.bindPure h4 ?_⟩
    have h5 : chromaMvs m.mvs = m.uMvs := funext fun i => (h2.chroma i).symm
    have h6 := h2.uvMode
    have h7 := h2.isInter
    clear h4 h3 hs h2 hm e
    obtain ⟨_, _, _, _, _, _, _, _, _, _, _, _⟩ := m
    simp only at h5 h6 h7
    simp only [MBModes.headerPart, h5, h6, h7]

theorem flipped_eq {h : InterFrameHeader} {c : MBContext} {m : MBModes} (hm : m.InterFrameOk h c) :
    flippedOf h m.isInter m.sel1 m.sel2 = m.flipped := by
  unfold flippedOf
  rcases hm.cases with ⟨_, h2⟩ | ⟨s, _, h2⟩
  · rw [h2.isInter, h2.flipped]; rfl
  · rw [Bool.eq_iff_iff, h2.flipped, h2.isInter]
    have h3 := h2.sel1; have h4 := h2.sel2
    revert h3 h4
    rcases m.sel1 with _ | _ | _ <;> rcases m.sel2 with _ | _ | _ <;> simp

theorem parses_interMB {h : InterFrameHeader} (t : ProbabilityTables) {c : MBContext} {m : MBModes} (hm : m.InterFrameOk h c) :
    ∃ bits, writeInterMB h t c m = some bits ∧ Parses (parseInterMB h t c) bits m := by
  obtain ⟨s, hs, ps⟩ := parses_segmentId hm.pre
  obtain ⟨k, hk, pk⟩ := parses_skip hm.pre
  obtain ⟨r, hr, pr⟩ := parses_modes (t := t) hm
  have h1 : m.sel1.isSome = m.isInter := by
    rcases hm.cases with ⟨_, h2⟩ | ⟨s, _, h2⟩
    · rw [h2.sel1, h2.isInter]; rfl
    · rw [h2.sel1, h2.isInter]
  have h2 : m.sel2.isSome = m.sel1.getD false := by
    rcases hm.cases with ⟨_, h2⟩ | ⟨s, _, h2⟩
    · rw [h2.sel1, h2.sel2]; rfl
    · rw [Bool.eq_iff_iff, h2.sel2]
      rcases m.sel1 with _ | _ | _ <;> simp
  refine ⟨s ++ (k ++ ((m.isInter, UInt8.ofNat h.probInter) ::
    (encOptional (fun b => [(b, UInt8.ofNat h.probReferencesLast)]) m.sel1 ++
      (encOptional (fun b => [(b, UInt8.ofNat h.probReferencesGolden)]) m.sel2 ++ r)))), ?_, ?_⟩
  · unfold writeInterMB
    simp only [Option.bind_eq_bind, Option.bind_some, hs, hk, hr]; rfl
  · unfold parseInterMB
    refine Parses.bind ps (Parses.bind pk (Parses.bit (Parses.bind (Parses.optional h1 fun y _ => Parses.getBit _ _)
      (Parses.bind (Parses.optional h2 fun y _ => Parses.getBit _ _) ?_))))
    rw [flipped_eq hm]
    exact pr

theorem produces_vectors {h : InterFrameHeader} {t : ProbabilityTables} {c : MBContext} {s : Scorer} {m : MBModes} {yMode : Nat}
    (hy : yMode ∈ [NEARESTMV, NEARMV, ZEROMV, NEWMV, SPLITMV]) (h1 : m.isInter = true) (h2 : m.sel1.isSome = true)
    (h3 : m.sel2.isSome = true ↔ m.sel1 = some true)
    (h4 : m.flipped = true ↔ (m.sel1 = some true ∧ m.sel2 = some false ∧ h.signBiasGolden = true) ∨
      (m.sel1 = some true ∧ m.sel2 = some true ∧ h.signBiasAlternate = true)) (h5 : m.uvMode = 0) :
    Produces (readInterVectors t c s yMode) (fun r => MBModes.InterOk h c s { m with
      yMode, partitionId := r.1, bModes := fun i => (r.2 i).1, mvs := fun i => (r.2 i).2, uMvs := chromaMvs fun i => (r.2 i).2 }) := by
  unfold readInterVectors
  simp only [List.mem_cons, List.not_mem_nil, or_false] at hy
  have n56 : (5 : Nat) ≠ 6 := by decide
  have n57 : (5 : Nat) ≠ 7 := by decide
  have n58 : (5 : Nat) ≠ 8 := by decide
  have n59 : (5 : Nat) ≠ 9 := by decide
  have n67 : (6 : Nat) ≠ 7 := by decide
  have n68 : (6 : Nat) ≠ 8 := by decide
  have n69 : (6 : Nat) ≠ 9 := by decide
  have n78 : (7 : Nat) ≠ 8 := by decide
  have n79 : (7 : Nat) ≠ 9 := by decide
  have n89 : (8 : Nat) ≠ 9 := by decide
  have ns : ∀ {a b : Nat} {P : Prop}, a ≠ b → a = b → P := fun h e => absurd e h
  rcases hy with rfl | rfl | rfl | rfl | rfl
  · rw [if_pos rfl]
    exact Produces.pure ⟨h1, h2, h3, h4, Or.inl rfl, h5, fun _ _ => rfl, ns n56, ns n57, ns n58,
      fun _ => ⟨rfl, fun _ => rfl⟩, ns n59, fun _ => rfl⟩
  · rw [if_neg (by decide), if_pos rfl]
    exact Produces.pure ⟨h1, h2, h3, h4, Or.inr (Or.inl rfl), h5, ns n56.symm, fun _ _ => rfl, ns n67, ns n68,
      fun _ => ⟨rfl, fun _ => rfl⟩, ns n69, fun _ => rfl⟩
  · rw [if_neg (by decide), if_neg (by decide), if_pos rfl]
    exact Produces.pure ⟨h1, h2, h3, h4, Or.inr (Or.inr (Or.inl rfl)), h5, ns n57.symm, ns n67.symm, fun _ _ => rfl, ns n78,
      fun _ => ⟨rfl, fun _ => rfl⟩, ns n79, fun _ => rfl⟩
  · rw [if_neg (by decide), if_neg (by decide), if_neg (by decide), if_pos rfl]
    refine Produces.bind (produces_newMv (clampMv (s.mvs 0) c) t.mvProbs) fun d hd => Produces.pure ?_
    exact ⟨h1, h2, h3, h4, Or.inr (Or.inr (Or.inr (Or.inl rfl))), h5, ns n58.symm, ns n68.symm, ns n78.symm, fun _ => ⟨_, fun _ => rfl, hd⟩,
      fun _ => ⟨rfl, fun _ => rfl⟩, ns n89, fun _ => rfl⟩
  · rw [if_neg (by decide), if_neg (by decide), if_neg (by decide), if_neg (by decide), if_pos rfl]
    refine Produces.bind (tree_prod (nodes := splitMvTree) (syms := [0, 1, 2, 3]) (by decide) (by decide)) fun k hk => ?_
    have hk4 : k < 4 := by simp at hk; omega
    obtain ⟨groups, hg, hok, hcov⟩ := partitions_ok ⟨k, hk4⟩
    rw [liftM_bind hg]
    refine Produces.bind (produces_fillGroups _ (fun _ => True)
      (fun (cells : Fin 16 → Nat × MotionVector) i x =>
        SubOk (c.above.map fun n : MBModes => n.mvs) (c.left.map fun n : MBModes => n.mvs) (clampMv (s.mvs 0) c) (fun j => (cells j).2) i x)
      (fun c1 c2 i x hc hx => SubOk.congr (c := fun j => (c1 j).2) (fun j hj => by simp only [hc j hj]) hx)
      (fun cells i _ => (produces_subMv _ _ _ _ cells i).mono fun _ hx => ⟨trivial, hx⟩) groups (fun _ => (0, {})) []
      (fun _ h => absurd h List.not_mem_nil) hok) fun cells hcells => Produces.pure ?_
    have hq : ∀ g ∈ groups, ∀ i, g.head? = some i → _ := fun g hg i hi => (hcells.2 g hg i hi).2.1
    have hmode : ∀ g ∈ groups, ∀ i, g.head? = some i →
        (cells i).1 = LEFT4X4 ∨ (cells i).1 = ABOVE4X4 ∨ (cells i).1 = ZERO4X4 ∨ (cells i).1 = NEW4X4 := by
      intro g hg i hi
      rcases hq g hg i hi with h | h | h | h
      · exact Or.inl h.1
      · exact Or.inr (Or.inl h.1)
      · exact Or.inr (Or.inr (Or.inl h.1))
      · exact Or.inr (Or.inr (Or.inr h.1))
    refine ⟨h1, h2, h3, h4, Or.inr (Or.inr (Or.inr (Or.inr rfl))), h5, ns n59.symm, ns n69.symm, ns n79.symm, ns n89.symm,
      fun e => absurd rfl e, fun _ => ⟨k, groups, rfl, hg, ?_, ?_, ?_, ?_, ?_, ?_⟩, fun _ => rfl⟩
    · intro i
      have := hcov i
      rw [List.nil_append, List.mem_flatten] at this
      obtain ⟨g, hg', hi⟩ := this
      cases g with
      | nil => exact absurd hi List.not_mem_nil
      | cons j g =>
        have e := (hcells.2 _ hg' j rfl).2.2 i hi
        simp only [e]
        exact hmode _ hg' j rfl
    · intro g hg' i hi j hj
      cases g with
      | nil => exact absurd hi List.not_mem_nil
      | cons l g =>
        have e := (hcells.2 _ hg' l rfl).2.2
        simp only [e i hi, e j hj, and_self]
    · intro g hg' i hi e
      rcases hq g hg' i hi with h | h | h | h
      · exact h.2
      all_goals exact absurd (e.symm.trans h.1) (by decide)
    · intro g hg' i hi e
      rcases hq g hg' i hi with h | h | h | h
      on_goal 2 => exact h.2
      all_goals exact absurd (e.symm.trans h.1) (by decide)
    · intro g hg' i hi e
      rcases hq g hg' i hi with h | h | h | h
      on_goal 3 => exact h.2
      all_goals exact absurd (e.symm.trans h.1) (by decide)
    · intro g hg' i hi e
      rcases hq g hg' i hi with h | h | h | h
      on_goal 4 => exact h.2
      all_goals exact absurd (e.symm.trans h.1) (by decide)

theorem produces_interMB (h : InterFrameHeader) (t : ProbabilityTables) (c : MBContext) :
    Produces (parseInterMB h t c) (MBModes.InterFrameOk h c) := by
  unfold parseInterMB
  refine Produces.bind (produces_segmentId _) fun sg hsg => Produces.bind (produces_skip _) fun sk hsk => ?_
  refine Produces.bind (Produces.getBit _) fun inter _ => Produces.bind (Produces.optional (Produces.getBit _)) fun s1 hs1 => ?_
  refine Produces.bind (Produces.optional (Produces.getBit _)) fun s2 hs2 => ?_
  have h1 := hs1.1
  have h2 := hs2.1
  clear hs1 hs2
  unfold readModes
  cases inter with
  | false =>
    have e1 : s1 = none := by simpa using h1
    subst e1
    have e2 : s2 = none := by simpa using h2
    subst e2
    simp only [Bool.false_eq_true, if_false]
    refine Produces.bind (tree_prod (nodes := yModeTree) (syms := [DC_PRED, V_PRED, H_PRED, TM_PRED, B_PRED]) (by decide)
      (by simp [yModeTree])) fun y hy => ?_
    refine Produces.bind (produces_intraBModes hy) fun b hb => ?_
    refine Produces.bind (tree_prod (nodes := uvModeTree) (syms := [DC_PRED, V_PRED, H_PRED, TM_PRED]) (by decide)
      (by simp [uvModeTree])) fun uv huv => Produces.pure ⟨⟨hsg.1, hsg.2, hsk⟩, Or.inl ⟨?_, ?_⟩⟩
    · exact ⟨by simpa using hy, by simpa using huv, hb.1, hb.2.1, hb.2.2.1, hb.2.2.2.1, hb.2.2.2.2⟩
    · exact ⟨rfl, rfl, rfl, rfl, rfl, fun _ => rfl, fun _ => rfl⟩
  | true =>
    simp only [if_true]
    unfold readInterModes
    obtain ⟨s, hs, hb1, hb2⟩ := census_bounded (flippedOf h true s1 s2) c
    obtain ⟨p, hp, hlen⟩ := mvRefProbs_some hb1 hb2
    rw [liftM_bind hs, liftM_bind hp]
    have hfl : flippedOf h true s1 s2 = true ↔ (s1 = some true ∧ s2 = some false ∧ h.signBiasGolden = true) ∨
      (s1 = some true ∧ s2 = some true ∧ h.signBiasAlternate = true) := by
      unfold flippedOf
      revert h1 h2
      rcases s1 with _ | _ | _ <;> rcases s2 with _ | _ | _ <;> simp
    have hs2 : s2.isSome = true ↔ s1 = some true := by
      rw [h2]
      rcases s1 with _ | _ | _ <;> simp
    refine Produces.bind (Produces.bind (tree_prod (nodes := mvRefTree) (syms := [NEARESTMV, NEARMV, ZEROMV, NEWMV, SPLITMV])
      (by decide) hlen) fun y hy => (produces_vectors (h := h) (t := t) (c := c) (s := s)
        (m := { segmentIdUpdate := sg, skip := sk, isInter := true, sel1 := s1, sel2 := s2, flipped := flippedOf h true s1 s2 })
        hy rfl h1 hs2 hfl rfl).bind (Q := fun (r : Nat × Option Nat × (Fin 16 → Nat × MotionVector)) => MBModes.InterOk h c s
          { segmentIdUpdate := sg, skip := sk, isInter := true, sel1 := s1, sel2 := s2, flipped := flippedOf h true s1 s2
            yMode := r.1, partitionId := r.2.1, bModes := fun i => (r.2.2 i).1, mvs := fun i => (r.2.2 i).2
            uMvs := chromaMvs fun i => (r.2.2 i).2 }) fun r hr => Produces.pure hr) fun r hr => Produces.pure ?_
    exact ⟨⟨hsg.1, hsg.2, hsk⟩, Or.inr ⟨s, hs, hr⟩⟩

end Alfalfa
