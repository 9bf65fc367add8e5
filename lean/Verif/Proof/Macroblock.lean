import Verif.Props.Tree
import Verif.Proof.MotionVector
import Verif.Spec.Macroblock
import Mathlib.Tactic.IntervalCases

namespace Alfalfa

/-! ### Trees -/

theorem tree_rt {nodes : List Int} {syms : List Nat} (hm : (nodes, syms) ∈ codecTrees) {v : Nat} (hv : v ∈ syms)
    {probs : List Prob} (hp : 2 * probs.length = nodes.length) :
    ∃ bits, writeTree nodes v probs = some bits ∧ Parses (readTree nodes probs) bits v :=
  tree_parses ((codecTrees_good _ hm).2.2 v hv) hp

theorem tree_prod {nodes : List Int} {syms : List Nat} (hm : (nodes, syms) ∈ codecTrees)
    {probs : List Prob} (hp : 2 * probs.length = nodes.length) : Produces (readTree nodes probs) (· ∈ syms) :=
  readTree_produces (codecTrees_good _ hm).1 (codecTrees_good _ hm).2.1 hp

theorem Produces.liftM {α β : Type} {o : Option α} {P : α → Prop} {f : α → Parser β} {Q : β → Prop}
    (h : ∃ x, o = some x ∧ P x) (hf : ∀ x, o = some x → P x → Produces (f x) Q) :
    Produces ((MonadLift.monadLift o : Parser α) >>= f) Q := by
  obtain ⟨x, hx, hp⟩ := h
  intro d
  obtain ⟨y, d', h1, h2⟩ := hf x hx hp d
  refine ⟨y, d', ?_, h2⟩
  rw [← h1, hx]
  rfl

/-! ### Groups of blocks -/

/-- The blocks of the same macroblock above and to the left of block `i`. -/
def deps (i : Fin 16) : List (Fin 16) :=
  (if i.val < 4 then [] else [⟨i.val - 4, by omega⟩]) ++ (if i.val % 4 = 0 then [] else [⟨i.val - 1, by omega⟩])

theorem aboveOf_congr {T : Type} {c c' : Fin 16 → T} {above : Option (Fin 16 → T)} {i : Fin 16}
    (h : ∀ j ∈ deps i, c j = c' j) : aboveOf c above i = aboveOf c' above i := by
  unfold aboveOf
  by_cases hi : i.val < 4
  · rw [dif_pos hi, dif_pos hi]
  · rw [dif_neg hi, dif_neg hi, h]
    unfold deps; rw [if_neg hi]; simp

theorem leftOf_congr {T : Type} {c c' : Fin 16 → T} {left : Option (Fin 16 → T)} {i : Fin 16}
    (h : ∀ j ∈ deps i, c j = c' j) : leftOf c left i = leftOf c' left i := by
  unfold leftOf
  by_cases hi : i.val % 4 = 0
  · rw [dif_pos hi, dif_pos hi]
  · rw [dif_neg hi, dif_neg hi, h]
    unfold deps; rw [if_neg hi]; simp

/-- Every group is nonempty, disjoint from the earlier ones, and its first block depends on earlier groups only. -/
def groupsOk : List (Fin 16) → List (List (Fin 16)) → Bool
  | _, [] => true
  | _, [] :: _ => false
  | done, (i :: g) :: rest =>
    (deps i).all (fun j => done.contains j) && done.all (fun j => !(i :: g).contains j) && groupsOk (done ++ (i :: g)) rest

theorem parses_fillGroups {T : Type} (step : (Fin 16 → T) → Fin 16 → Parser T) (wr : Fin 16 → Option Bits) (t : Fin 16 → T) :
    ∀ (groups : List (List (Fin 16))) (cells : Fin 16 → T) (done : List (Fin 16)), (∀ j ∈ done, cells j = t j) →
      groupsOk done groups = true → (∀ g ∈ groups, ∀ i ∈ g, ∀ j ∈ g, t i = t j) →
      (∀ g ∈ groups, ∀ i, g.head? = some i → ∀ cells, (∀ j ∈ deps i, cells j = t j) →
        ∃ bits, wr i = some bits ∧ Parses (step cells i) bits (t i)) →
      ∃ bits, writeGroups wr groups = some bits ∧ ∃ cells', Parses (fillGroups step groups cells) bits cells' ∧
        ∀ j ∈ done ++ groups.flatten, cells' j = t j
  | [], cells, done, hd, _, _, _ => ⟨[], rfl, cells, Parses.pure _, by simpa using hd⟩
  | [] :: _, _, _, _, h, _, _ => by cases h
  | (i :: g) :: rest, cells, done, hd, hok, hsh, hst => by
    unfold groupsOk at hok
    simp only [Bool.and_eq_true, List.all_eq_true, List.contains_iff_mem] at hok
    obtain ⟨a, ha, pa⟩ := hst _ List.mem_cons_self i rfl cells (fun j hj => hd j (hok.1.1 j hj))
    obtain ⟨b, hb, cells', pb, hc⟩ := parses_fillGroups step wr t rest (fun j => if j ∈ i :: g then t i else cells j)
      (done ++ (i :: g))
      (fun j hj => by
        by_cases hjg : j ∈ i :: g
        · rw [if_pos hjg]; exact hsh _ List.mem_cons_self i List.mem_cons_self j hjg
        · rw [if_neg hjg]
          rcases List.mem_append.mp hj with hj | hj
          · exact hd j hj
          · exact absurd hj hjg)
      hok.2 (fun g' hg' => hsh g' (List.mem_cons_of_mem _ hg')) (fun g' hg' => hst g' (List.mem_cons_of_mem _ hg'))
    refine ⟨a ++ b, ?_, cells', ?_, ?_⟩
    · unfold writeGroups; rw [ha, hb]; rfl
    · unfold fillGroups; exact Parses.bind pa pb
    · rw [List.flatten_cons, ← List.append_assoc]; exact hc

theorem produces_fillGroups {T : Type} (step : (Fin 16 → T) → Fin 16 → Parser T) (P : T → Prop)
    (Q : (Fin 16 → T) → Fin 16 → T → Prop)
    (hQ : ∀ c c' i x, (∀ j ∈ deps i, c j = c' j) → Q c i x → Q c' i x)
    (hstep : ∀ c i, (∀ j ∈ deps i, P (c j)) → Produces (step c i) (fun x => P x ∧ Q c i x)) :
    ∀ (groups : List (List (Fin 16))) (cells : Fin 16 → T) (done : List (Fin 16)), (∀ j ∈ done, P (cells j)) →
      groupsOk done groups = true →
      Produces (fillGroups step groups cells) (fun c' => (∀ j ∈ done, c' j = cells j) ∧
        (∀ g ∈ groups, ∀ i, g.head? = some i → P (c' i) ∧ Q c' i (c' i) ∧ ∀ j ∈ g, c' j = c' i))
  | [], cells, done, _, _ => Produces.pure ⟨fun _ _ => rfl, fun _ h => absurd h List.not_mem_nil⟩
  | [] :: _, _, _, _, h => by cases h
  | (i :: g) :: rest, cells, done, hd, hok => by
    unfold groupsOk at hok
    simp only [Bool.and_eq_true, List.all_eq_true, List.contains_iff_mem, Bool.not_eq_true'] at hok
    have hdis : ∀ j ∈ done, j ∉ i :: g := by
      intro j hj hjg
      have := hok.1.2 j hj
      rw [← Bool.not_eq_true, List.contains_iff_mem] at this
      exact this hjg
    unfold fillGroups
    refine Produces.bind (hstep cells i fun j hj => hd j (hok.1.1 j hj)) fun x hx => ?_
    refine (produces_fillGroups step P Q hQ hstep rest (fun j => if j ∈ i :: g then x else cells j) (done ++ (i :: g))
      (fun j hj => ?_) hok.2).mono fun c' hc => ⟨fun j hj => ?_, fun g' hg' k hk => ?_⟩
    · beta_reduce
      by_cases hjg : j ∈ i :: g
      · rw [if_pos hjg]; exact hx.1
      · rw [if_neg hjg]
        rcases List.mem_append.mp hj with hj | hj
        · exact hd j hj
        · exact absurd hj hjg
    · rw [hc.1 j (List.mem_append_left _ hj), if_neg (hdis j hj)]
    · rcases List.mem_cons.mp hg' with rfl | hg'
      · have hki : i = k := by simpa using hk
        subst hki
        have hall : ∀ j ∈ i :: g, c' j = x := fun j hj => by
          rw [hc.1 j (List.mem_append_right _ hj), if_pos hj]
        rw [hall i List.mem_cons_self]
        refine ⟨hx.1, hQ cells c' i x (fun j hj => ?_) hx.2, hall⟩
        have hjd := hok.1.1 j hj
        rw [hc.1 j (List.mem_append_left _ hjd), if_neg (hdis j hjd)]
      · exact hc.2 g' hg' k hk

theorem singleGroups_ok : groupsOk [] singleGroups = true := by decide +kernel
theorem singleGroups_mem : ∀ i : Fin 16, [i] ∈ singleGroups := by decide +kernel
theorem singleGroups_cover : ∀ i : Fin 16, i ∈ ([] : List (Fin 16)) ++ singleGroups.flatten := by decide +kernel
theorem singleGroups_eq : ∀ g ∈ singleGroups, ∀ i ∈ g, ∀ j ∈ g, i = j := by decide +kernel

theorem partitions_ok : ∀ k : Fin 4, ∃ g, mvPartitions[k.val]? = some g ∧ groupsOk [] g = true ∧
    ∀ i : Fin 16, i ∈ ([] : List (Fin 16)) ++ g.flatten := by
  intro k
  refine ⟨_, List.getElem?_eq_getElem (by have : mvPartitions.length = 4 := rfl; omega), ?_⟩
  revert k; decide +kernel

/-! ### Segment id and skip flag -/

theorem segmentTreeProbs_length (u : Option UpdateSegmentation) : (segmentTreeProbs u).length = 3 := by
  unfold segmentTreeProbs
  split
  · simp
  · rfl

theorem any_map_iff (u : Option UpdateSegmentation) :
    u.any (·.updateMbSegmentationMap) = true ↔ ∃ s, u = some s ∧ s.updateMbSegmentationMap = true := by
  cases u <;> simp

theorem parses_segmentId {u : Option UpdateSegmentation} {k : Option Nat} {m : MBModes} (h : m.PrefixOk u k) :
    ∃ bits, writeSegmentId u m.segmentIdUpdate = some bits ∧ Parses (parseSegmentId u) bits m.segmentIdUpdate := by
  have hflag : m.segmentIdUpdate.isSome = u.any (·.updateMbSegmentationMap) := by
    rw [Bool.eq_iff_iff, h.segmentPresent, any_map_iff]
  unfold parseSegmentId
  cases hs : m.segmentIdUpdate with
  | none =>
    rw [hs] at hflag
    refine ⟨[], rfl, ?_⟩
    rw [← hflag]; exact Parses.pure _
  | some v =>
    rw [hs] at hflag
    obtain ⟨bits, h1, h2⟩ := tree_rt (nodes := segmentIdTree) (syms := [0, 1, 2, 3]) (by decide) (v := v)
      (by have := h.segmentRange v hs; simp; omega) (probs := segmentTreeProbs u) (by rw [segmentTreeProbs_length]; rfl)
    refine ⟨bits, h1, ?_⟩
    rw [← hflag]
    exact Parses.map h2

theorem parses_skip {u : Option UpdateSegmentation} {k : Option Nat} {m : MBModes} (h : m.PrefixOk u k) :
    ∃ bits, writeSkip k m.skip = some bits ∧ Parses (parseSkip k) bits m.skip := by
  unfold writeSkip parseSkip
  rw [h.skipPresent, if_neg (by cases k.isSome <;> simp)]
  exact ⟨_, rfl, Parses.optional h.skipPresent fun y _ => Parses.getBit _ _⟩

theorem produces_segmentId (u : Option UpdateSegmentation) : Produces (parseSegmentId u) (fun x =>
    (x.isSome = true ↔ ∃ s, u = some s ∧ s.updateMbSegmentationMap = true) ∧ ∀ v, x = some v → v < 4) := by
  refine (Produces.optional (tree_prod (nodes := segmentIdTree) (syms := [0, 1, 2, 3]) (by decide)
    (by rw [segmentTreeProbs_length]; rfl))).mono fun x hx => ⟨?_, fun v hv => ?_⟩
  · rw [hx.1, any_map_iff]
  · have := hx.2 v hv
    simp at this; omega

theorem produces_skip (k : Option Nat) : Produces (parseSkip k) (fun x => x.isSome = k.isSome) :=
  (Produces.optional (Produces.getBit _)).mono fun _ hx => hx.1

/-! ### Intra modes -/

theorem implied_spec {m : MBModes} (h : m.IntraOk) (hb : m.yMode ≠ B_PRED) :
    ∃ v, impliedSubblockMode m.yMode = some v ∧ m.bModes = fun _ => v := by
  rcases h.yMode with hy | hy | hy | hy | hy
  · exact ⟨_, by rw [hy]; rfl, funext (h.dc hy)⟩
  · exact ⟨_, by rw [hy]; rfl, funext (h.v hy)⟩
  · exact ⟨_, by rw [hy]; rfl, funext (h.h hy)⟩
  · exact ⟨_, by rw [hy]; rfl, funext (h.tm hy)⟩
  · exact absurd hy hb

theorem IntraOk.bModes_le {m : MBModes} (h : m.IntraOk) (i : Fin 16) : m.bModes i ≤ 9 := by
  rcases h.yMode with hy | hy | hy | hy | hy
  · rw [h.dc hy]; decide
  · rw [h.v hy]; decide
  · rw [h.h hy]; decide
  · rw [h.tm hy]; decide
  · exact h.free hy i

theorem kfBModeProbs_some (a l : Nat) (ha : a ≤ 9) (hl : l ≤ 9) : ∃ p, kfBModeProbs a l = some p ∧ 2 * p.length = bModeTree.length := by
  have : ∀ a l : Fin 10, ∃ p, kfBModeProbs a.val l.val = some p ∧ 2 * p.length = bModeTree.length := by
    have : ∀ a l : Fin 10, (match kfBModeProbs a.val l.val with | some p => decide (2 * p.length = bModeTree.length) | none => false) = true := by
      decide +kernel
    intro a l
    have := this a l
    split at this
    · exact ⟨_, by assumption, of_decide_eq_true this⟩
    · cases this
  exact this ⟨a, by omega⟩ ⟨l, by omega⟩

theorem getD_aboveOf_le {c : Fin 16 → Nat} {above : Option (Fin 16 → Nat)} {i : Fin 16} (hc : ∀ j ∈ deps i, c j ≤ 9)
    (ha : ∀ f, above = some f → ∀ j, f j ≤ 9) : (aboveOf c above i).getD B_DC_PRED ≤ 9 := by
  unfold aboveOf
  by_cases hi : i.val < 4
  · rw [dif_pos hi]
    cases above with
    | none => exact Nat.zero_le _
    | some f => exact ha f rfl _
  · rw [dif_neg hi]
    exact hc _ (by unfold deps; rw [if_neg hi]; simp)

theorem getD_leftOf_le {c : Fin 16 → Nat} {left : Option (Fin 16 → Nat)} {i : Fin 16} (hc : ∀ j ∈ deps i, c j ≤ 9)
    (ha : ∀ f, left = some f → ∀ j, f j ≤ 9) : (leftOf c left i).getD B_DC_PRED ≤ 9 := by
  unfold leftOf
  by_cases hi : i.val % 4 = 0
  · rw [dif_pos hi]
    cases left with
    | none => exact Nat.zero_le _
    | some f => exact ha f rfl _
  · rw [dif_neg hi]
    exact hc _ (by unfold deps; rw [if_neg hi]; simp)

theorem bMode_mem {v : Nat} (h : v ≤ 9) : v ∈ [B_DC_PRED, B_TM_PRED, B_VE_PRED, B_HE_PRED, B_LD_PRED, B_RD_PRED, B_VR_PRED, B_VL_PRED, B_HD_PRED,
    B_HU_PRED] := by interval_cases v <;> decide

theorem bMode_le {v : Nat} (h : v ∈ [B_DC_PRED, B_TM_PRED, B_VE_PRED, B_HE_PRED, B_LD_PRED, B_RD_PRED, B_VR_PRED, B_VL_PRED, B_HD_PRED,
    B_HU_PRED]) : v ≤ 9 := by
  have : ∀ v ∈ [B_DC_PRED, B_TM_PRED, B_VE_PRED, B_HE_PRED, B_LD_PRED, B_RD_PRED, B_VR_PRED, B_VL_PRED, B_HD_PRED,
    B_HU_PRED], v ≤ 9 := by decide
  exact this v h

theorem yMode_mem {m : MBModes} (h : m.IntraOk) : m.yMode ∈ [DC_PRED, V_PRED, H_PRED, TM_PRED, B_PRED] := by
  simpa using h.yMode

theorem uvMode_mem {m : MBModes} (h : m.IntraOk) : m.uvMode ∈ [DC_PRED, V_PRED, H_PRED, TM_PRED] := by
  simpa using h.uvMode

theorem parses_keyBModes {m : MBModes} (h : m.IntraOk) {c : MBContext}
    (ha : ∀ f, c.above.map (·.bModes) = some f → ∀ j, f j ≤ 9) (hl : ∀ f, c.left.map (·.bModes) = some f → ∀ j, f j ≤ 9) :
    ∃ bits, writeKeyBModes m c = some bits ∧
      Parses (readKeyBModes (c.above.map (·.bModes)) (c.left.map (·.bModes)) m.yMode) bits m.bModes := by
  unfold readKeyBModes writeKeyBModes
  revert ha hl
  generalize c.above.map (·.bModes) = above
  generalize c.left.map (·.bModes) = left
  intro ha hl
  by_cases hb : m.yMode = B_PRED
  · rw [if_pos hb, if_pos hb]
    obtain ⟨bits, h1, cells', h2, h3⟩ := parses_fillGroups (readKeyBMode above left) (writeKeyBMode above left m.bModes) m.bModes
      singleGroups (fun _ => 0) [] (fun _ h => absurd h List.not_mem_nil) singleGroups_ok
      (fun g hg i hi j hj => by rw [singleGroups_eq g hg i hi j hj])
      (fun g _ i _ cells hc => by
        have hmb : ∀ j ∈ deps i, m.bModes j ≤ 9 := fun j _ => IntraOk.bModes_le h j
        obtain ⟨p, hp, hlen⟩ := kfBModeProbs_some _ _ (getD_aboveOf_le hmb ha) (getD_leftOf_le hmb hl)
        obtain ⟨bits, hw, hr⟩ := tree_rt (nodes := bModeTree) (by decide) (bMode_mem (IntraOk.bModes_le h i)) hlen
        refine ⟨bits, ?_, ?_⟩
        · unfold writeKeyBMode; rw [hp]; exact hw
        · unfold readKeyBMode
          rw [aboveOf_congr hc, leftOf_congr hc, liftM_bind hp]
          exact hr)
    have : cells' = m.bModes := funext fun j => h3 j (singleGroups_cover j)
    subst this
    exact ⟨bits, h1, h2⟩
  · rw [if_neg hb, if_neg hb]
    obtain ⟨v, h1, h2⟩ := implied_spec h hb
    refine ⟨[], rfl, ?_⟩
    rw [h2, liftM_bind h1]
    exact Parses.pure _

theorem produces_implied {yMode : Nat} (hy : yMode ∈ [DC_PRED, V_PRED, H_PRED, TM_PRED, B_PRED]) (hb : yMode ≠ B_PRED) :
    ∃ v, impliedSubblockMode yMode = some v ∧ ((yMode = DC_PRED → v = B_DC_PRED) ∧ (yMode = V_PRED → v = B_VE_PRED) ∧
      (yMode = H_PRED → v = B_HE_PRED) ∧ (yMode = TM_PRED → v = B_TM_PRED)) := by
  simp only [List.mem_cons, List.not_mem_nil, or_false] at hy
  rcases hy with rfl | rfl | rfl | rfl | rfl
  · exact ⟨_, rfl, by decide⟩
  · exact ⟨_, rfl, by decide⟩
  · exact ⟨_, rfl, by decide⟩
  · exact ⟨_, rfl, by decide⟩
  · exact absurd rfl hb

/-- The sub-block modes fit the luma mode. -/
def BModesOk (yMode : Nat) (b : Fin 16 → Nat) : Prop :=
  (yMode = B_PRED → ∀ i, b i ≤ B_HU_PRED) ∧ (yMode = DC_PRED → ∀ i, b i = B_DC_PRED) ∧ (yMode = V_PRED → ∀ i, b i = B_VE_PRED) ∧
  (yMode = H_PRED → ∀ i, b i = B_HE_PRED) ∧ (yMode = TM_PRED → ∀ i, b i = B_TM_PRED)

theorem BModesOk.implied {yMode v : Nat} (hb : yMode ≠ B_PRED) (h : (yMode = DC_PRED → v = B_DC_PRED) ∧ (yMode = V_PRED → v = B_VE_PRED) ∧
      (yMode = H_PRED → v = B_HE_PRED) ∧ (yMode = TM_PRED → v = B_TM_PRED)) : BModesOk yMode (fun _ => v) :=
  ⟨fun h => absurd h hb, fun e _ => h.1 e, fun e _ => h.2.1 e, fun e _ => h.2.2.1 e, fun e _ => h.2.2.2 e⟩

theorem BModesOk.bpred {b : Fin 16 → Nat} (h : ∀ i, b i ≤ B_HU_PRED) : BModesOk B_PRED b :=
  ⟨fun _ => h, fun e => absurd e (by decide), fun e => absurd e (by decide), fun e => absurd e (by decide),
    fun e => absurd e (by decide)⟩

theorem produces_keyBModes {yMode : Nat} (hy : yMode ∈ [DC_PRED, V_PRED, H_PRED, TM_PRED, B_PRED]) {above left : Option (Fin 16 → Nat)}
    (ha : ∀ f, above = some f → ∀ j, f j ≤ 9) (hl : ∀ f, left = some f → ∀ j, f j ≤ 9) :
    Produces (readKeyBModes above left yMode) (BModesOk yMode) := by
  unfold readKeyBModes
  by_cases hb : yMode = B_PRED
  · subst hb
    rw [if_pos rfl]
    refine (produces_fillGroups (readKeyBMode above left) (· ≤ 9) (fun _ _ _ => True) (fun _ _ _ _ _ h => h) (fun c i hc => ?_)
      singleGroups (fun _ => 0) [] (fun _ h => absurd h List.not_mem_nil) singleGroups_ok).mono fun c' hc' =>
        BModesOk.bpred fun i => (hc'.2 [i] (singleGroups_mem i) i rfl).1
    unfold readKeyBMode
    obtain ⟨p, hp, hlen⟩ := kfBModeProbs_some _ _ (getD_aboveOf_le hc ha) (getD_leftOf_le hc hl)
    rw [liftM_bind hp]
    exact (tree_prod (nodes := bModeTree) (syms := [B_DC_PRED, B_TM_PRED, B_VE_PRED, B_HE_PRED, B_LD_PRED, B_RD_PRED, B_VR_PRED,
      B_VL_PRED, B_HD_PRED, B_HU_PRED]) (by decide) hlen).mono fun x hx => ⟨bMode_le hx, trivial⟩
  · rw [if_neg hb]
    obtain ⟨v, h1, h2⟩ := produces_implied hy hb
    rw [liftM_bind h1]
    exact Produces.pure (BModesOk.implied hb h2)

/-! ### Key frame macroblocks -/

/-- The neighbours in a context are intra macroblocks. -/
def KeyContext (c : MBContext) : Prop := (∀ n, c.above = some n → n.IntraOk) ∧ (∀ n, c.left = some n → n.IntraOk)

theorem KeyContext.above_le {c : MBContext} (h : KeyContext c) : ∀ f, c.above.map (·.bModes) = some f → ∀ j, f j ≤ 9 := by
  intro f hf j
  cases ha : c.above with
  | none => rw [ha] at hf; cases hf
  | some n => rw [ha] at hf; cases hf; exact IntraOk.bModes_le (h.1 n ha) j

theorem KeyContext.left_le {c : MBContext} (h : KeyContext c) : ∀ f, c.left.map (·.bModes) = some f → ∀ j, f j ≤ 9 := by
  intro f hf j
  cases ha : c.left with
  | none => rw [ha] at hf; cases hf
  | some n => rw [ha] at hf; cases hf; exact IntraOk.bModes_le (h.2 n ha) j

theorem NoInter.eq {m : MBModes} (h : m.NoInter) : m =
    { segmentIdUpdate := m.segmentIdUpdate, skip := m.skip, yMode := m.yMode, uvMode := m.uvMode, bModes := m.bModes } := by
  have h1 := h.isInter; have h2 := h.sel1; have h3 := h.sel2; have h4 := h.flipped; have h5 := h.partitionId
  have h6 : m.mvs = fun _ => {} := funext h.mvs
  have h7 : m.uMvs = fun _ => {} := funext h.uMvs
  cases m; simp_all

theorem parses_keyMB {h : KeyFrameHeader} {c : MBContext} {m : MBModes} (hm : m.KeyOk h) (hc : KeyContext c) :
    ∃ bits, writeKeyMB h c m = some bits ∧ Parses (parseKeyMB h c) bits m := by
  obtain ⟨s, hs, ps⟩ := parses_segmentId hm.pre
  obtain ⟨k, hk, pk⟩ := parses_skip hm.pre
  obtain ⟨y, hy, py⟩ := tree_rt (nodes := kfYModeTree) (by decide) (yMode_mem hm.intra) (probs := kfYModeProbs) (by decide)
  obtain ⟨b, hb, pb⟩ := parses_keyBModes hm.intra hc.above_le hc.left_le
  obtain ⟨uv, huv, puv⟩ := tree_rt (nodes := uvModeTree) (by decide) (uvMode_mem hm.intra) (probs := kfUvModeProbs) (by decide)
  refine ⟨s ++ (k ++ (y ++ (b ++ uv))), ?_, ?_⟩
  · unfold writeKeyMB writeKeyModes
    rw [hs, hk, hy, hb, huv]; rfl
  · unfold parseKeyMB
    refine Parses.bind ps (Parses.bind pk (Parses.bind py (Parses.bind pb (Parses.bindPure puv ?_))))
    exact (NoInter.eq hm.noInter).symm

theorem produces_keyMB (h : KeyFrameHeader) {c : MBContext} (hc : KeyContext c) : Produces (parseKeyMB h c) (MBModes.KeyOk h) := by
  unfold parseKeyMB
  refine Produces.bind (produces_segmentId _) fun s hs => Produces.bind (produces_skip _) fun k hk => ?_
  refine Produces.bind (tree_prod (nodes := kfYModeTree) (syms := [DC_PRED, V_PRED, H_PRED, TM_PRED, B_PRED]) (by decide) (by decide)) fun y hy => ?_
  refine Produces.bind (produces_keyBModes hy hc.above_le hc.left_le) fun b hb => ?_
  refine Produces.bind (tree_prod (nodes := uvModeTree) (syms := [DC_PRED, V_PRED, H_PRED, TM_PRED]) (by decide) (by decide)) fun uv huv =>
    Produces.pure ⟨⟨hs.1, hs.2, hk⟩, ⟨by simpa using hy, by simpa using huv, hb.1, hb.2.1, hb.2.2.1, hb.2.2.2.1, hb.2.2.2.2⟩, ?_⟩
  exact ⟨rfl, rfl, rfl, rfl, rfl, fun _ => rfl, fun _ => rfl⟩

end Alfalfa
