import Verif.Spec.ModeBits
import Verif.Proof.InterMacroblock

/-! What the writer writes for one macroblock, against the code words of the format. -/

namespace Alfalfa.ModeSpec

/-! ### Code words -/

theorem attach_coded {probs : List Prob} : ∀ path : List (Bool × Nat), (∀ x ∈ path, x.2 < probs.length) →
    (path.mapM (fun x => do let p ← probs[x.2]?; pure (x.1, p)) : Option Bits) = some (coded probs path)
  | [], _ => rfl
  | x :: rest, h => by
    have hx := h x List.mem_cons_self
    rw [List.mapM_cons, attach_coded rest fun y hy => h y (List.mem_cons_of_mem _ hy)]
    simp [coded, List.getElem?_eq_getElem hx]

theorem writeTree_coded {nodes : List Int} {v : Nat} {code : List (Bool × Nat)} {probs : List Prob} (n : Nat)
    (h : treePath nodes v = some code ∧ ∀ x ∈ code, x.2 < n) (hp : n ≤ probs.length) :
    writeTree nodes v probs = some (coded probs code) := by
  unfold writeTree
  rw [h.1]
  exact attach_coded code fun x hx => Nat.lt_of_lt_of_le (h.2 x hx) hp

theorem keyLuma_path : ∀ v < 5, treePath kfYModeTree v = some (keyLuma v) ∧ ∀ x ∈ keyLuma v, x.2 < 4 := by decide +kernel
theorem luma_path : ∀ v < 5, treePath yModeTree v = some (luma v) ∧ ∀ x ∈ luma v, x.2 < 4 := by decide +kernel
theorem chroma_path : ∀ v < 4, treePath uvModeTree v = some (chroma v) ∧ ∀ x ∈ chroma v, x.2 < 3 := by decide +kernel
theorem block_path : ∀ v < 10, treePath bModeTree v = some (block v) ∧ ∀ x ∈ block v, x.2 < 9 := by decide +kernel
theorem vectorMode_path : ∀ v ∈ [ZEROMV, NEARESTMV, NEARMV, NEWMV, SPLITMV],
    treePath mvRefTree v = some (vectorMode v) ∧ ∀ x ∈ vectorMode v, x.2 < 4 := by decide +kernel
theorem splitting_path : ∀ v < 4, treePath splitMvTree v = some (splitting v) ∧ ∀ x ∈ splitting v, x.2 < 3 := by decide +kernel
theorem partMode_path : ∀ v ∈ [LEFT4X4, ABOVE4X4, ZERO4X4, NEW4X4],
    treePath submvRefTree v = some (partMode v) ∧ ∀ x ∈ partMode v, x.2 < 3 := by decide +kernel
theorem segment_path : ∀ v < 4, treePath segmentIdTree v = some (segment v) ∧ ∀ x ∈ segment v, x.2 < 3 := by decide +kernel
theorem small_path : ∀ v < 8, treePath smallMvTree v = some (small v) ∧ ∀ x ∈ small v, x.2 < 7 := by decide +kernel

/-! ### Vectors -/

theorem bit_testBit (x i : Nat) : ((x >>> i) &&& 1 == 1) = x.testBit i := by
  rw [Nat.testBit, Nat.and_comm, Nat.one_and_eq_mod_two]
  rcases Nat.mod_two_eq_zero_or_one (x >>> i) with h | h <;> rw [h] <;> rfl

theorem high_bits : ∀ x < 1024, (x &&& 0xfff0 ≠ 0 ↔ 16 ≤ x) := by decide +kernel

theorem encMvBits_coded (x : Nat) (p : Fin 19 → Prob) : encMvBits x p longMvBits = some
    [(x.testBit 0, p 9), (x.testBit 1, p 10), (x.testBit 2, p 11), (x.testBit 9, p 18),
      (x.testBit 8, p 17), (x.testBit 7, p 16), (x.testBit 6, p 15), (x.testBit 5, p 14), (x.testBit 4, p 13)] := by
  simp only [← bit_testBit]
  rfl

theorem encMvComponent_coded {d : Int} (p : Fin 19 → Prob) (h : CodableComponent d) :
    encMvComponent d p = some (component p d) := by
  obtain ⟨h1, h2, h3⟩ := h
  have hs : d >>> 1 = d / 2 := by rw [Int.shiftRight_eq_div_pow]; rfl
  have ha : (d >>> 1).natAbs = d.natAbs / 2 := by omega
  have hlt : d.natAbs / 2 < 1024 := by omega
  have hz : (d.natAbs / 2 ≠ 0) ↔ ¬ d = 0 := by omega
  have hn : decide (d >>> 1 < 0) = decide (d < 0) := by
    rw [decide_eq_decide]
    omega
  unfold encMvComponent component encMvMagnitude
  simp only [ha, hn]
  have hc : ∀ s : Bits, (if d.natAbs / 2 ≠ 0 then s else []) = if d = 0 then [] else s := fun s => by
    by_cases h0 : d = 0
    · rw [if_pos h0, if_neg (fun h' => (hz.1 h') h0)]
    · rw [if_neg h0, if_pos (hz.2 h0)]
  rw [hc]
  by_cases h8 : d.natAbs / 2 < 8
  · simp only [if_pos h8]
    rw [writeTree_coded 7 (small_path _ h8) (by simp [smallMvProbs])]
    rfl
  · simp only [if_neg h8, encMvBits_coded, high_bits _ hlt, bit_testBit]
    rfl

theorem encMv_coded {base v : MotionVector} (p : Fin 2 → Fin 19 → Prob) (h : CodableFrom base v) :
    encMv (v.sub base) p = some (vector p (v.sub base)) := by
  obtain ⟨dx, dy, hx, hy, rfl⟩ := h
  rw [sub_base base dx dy hx hy]
  unfold encMv vector
  rw [encMvComponent_coded _ hy, encMvComponent_coded _ hx]
  rfl

/-! ### Neighbours -/

theorem aboveOf_blockAbove {T : Type} (own : Fin 16 → T) (above left : Option (Fin 16 → T)) (d : T) (i : Fin 16) :
    (aboveOf own above i).getD d = blockAbove own above left d i := by
  fin_cases i <;> cases above <;> rfl

theorem leftOf_blockLeft {T : Type} (own : Fin 16 → T) (above left : Option (Fin 16 → T)) (d : T) (i : Fin 16) :
    (leftOf own left i).getD d = blockLeft own above left d i := by
  fin_cases i <;> cases left <;> rfl

theorem empty_iff (v : MotionVector) : v.empty = true ↔ v = {} := by
  obtain ⟨x, y⟩ := v
  simp [MotionVector.empty]

theorem submvRefIndex_eq (l a : MotionVector) : submvRefIndex l a = partContext l a := by
  unfold submvRefIndex partContext
  simp only [empty_iff]
  by_cases h : l = a
  · subst h
    by_cases h0 : l = {} <;> simp [h0]
  · simp [h]

/-- The model's census state for what has been found. -/
def Found.scorer (flipped : Bool) (split : Nat) (f : Found) : Scorer where
  flipped := flipped
  scores := fun k => if k = 0 then f.zero else (f.others.reverse.getD (k.val - 1) ({}, 0)).2
  mvs := fun k => if k = 0 then {} else (f.others.reverse.getD (k.val - 1) ({}, 0)).1
  splitScore := split
  index := f.others.length

theorem Found.scorer_init (flipped : Bool) : ({ flipped } : Scorer) = Found.scorer flipped 0 {} := by
  unfold Found.scorer
  congr 1
  · funext k; fin_cases k <;> rfl
  · funext k; fin_cases k <;> rfl

theorem Found.addMv_eq (flipped : Bool) (split : Nat) (f : Found) (v : MotionVector) (w : Nat) (hf : f.others.length ≤ 2) :
    (f.scorer flipped split).addMv w v = some ((f.add v w).scorer flipped split) := by
  obtain ⟨z, o⟩ := f
  unfold Scorer.addMv Found.add
  by_cases hv : v = {}
  · rw [if_pos ((empty_iff v).2 hv), if_pos hv]
    congr 1
    unfold Found.scorer
    simp only
    congr 1
    funext k
    fin_cases k <;> rfl
  rw [if_neg (fun h => hv ((empty_iff v).1 h)), if_neg hv]
  match o, hf with
  | [], _ =>
    simp only [Found.scorer, List.length_nil]
    rw [dif_pos (by omega), if_pos (by simpa using hv), dif_pos (by omega)]
    congr 2
    · funext k; fin_cases k <;> simp [Function.update]
    · funext k; fin_cases k <;> simp [Function.update]
  | [(a, n)], _ =>
    by_cases h : a = v
    · subst h
      simp [Found.scorer]
      constructor
      · funext k; fin_cases k <;> simp [Function.update]
      · funext k; fin_cases k <;> simp
    · have h' : ¬ v = a := fun e => h e.symm
      simp [Found.scorer, h, h']
      constructor
      · funext k; fin_cases k <;> simp [Function.update]
      · funext k; fin_cases k <;> simp [Function.update]
  | [(b, m), (a, n)], _ =>
    by_cases h : b = v
    · subst h
      simp [Found.scorer]
      constructor
      · funext k; fin_cases k <;> simp [Function.update]
      · funext k; fin_cases k <;> simp
    · have h' : ¬ v = b := fun e => h e.symm
      simp [Found.scorer, h, h']
      constructor
      · funext k; fin_cases k <;> simp [Function.update]
      · funext k; fin_cases k <;> simp [Function.update]

theorem Found.add_length (f : Found) (v : MotionVector) (w : Nat) : (f.add v w).others.length ≤ f.others.length + 1 := by
  unfold Found.add
  split
  · simp
  · split <;> rename_i h
    · split <;> simp [h]
    · simp [h]

theorem Found.visit_length (flipped : Bool) (f : Found) (w : Nat) (m : Option MBModes) :
    (f.visit flipped w m).others.length ≤ f.others.length + 1 := by
  unfold Found.visit
  split
  · split
    · exact Found.add_length ..
    · omega
  · omega

theorem Found.addMB_eq (flipped : Bool) (split : Nat) (f : Found) (w : Nat) (m : Option MBModes) (hf : f.others.length ≤ 2) :
    (f.scorer flipped split).addMB w m = some ((f.visit flipped w m).scorer flipped (split + splitWeight w m)) := by
  match m with
  | none => rfl
  | some m =>
    unfold Scorer.addMB Found.visit splitWeight
    by_cases hi : m.isInter = true
    · simp only [hi, if_true, true_and]
      have : (if m.flipped ≠ (f.scorer flipped split).flipped then m.baseMv.neg else m.baseMv) =
          if m.flipped = flipped then m.mvs 15 else (m.mvs 15).neg := by
        show (if m.flipped ≠ flipped then _ else _) = _
        by_cases h : m.flipped = flipped <;> simp [h, MBModes.baseMv]
      rw [this, Found.addMv_eq _ _ _ _ _ hf]
      by_cases hs : m.yMode = SPLITMV
      · simp [hs, Found.scorer]
      · simp [hs]
    · simp [hi]

theorem final_step (s : Scorer) (h0 : s.mvs 0 = {}) :
    let r := if s.scores 0 ≤ s.scores 1 then { s with mvs := Function.update s.mvs 0 (s.mvs 1) } else s
    r.mvs 1 = s.mvs 1 ∧ r.mvs 2 = s.mvs 2 ∧ r.mvs 0 = (if s.scores 1 < s.scores 0 then {} else s.mvs 1) ∧
      r.scores = s.scores ∧ r.splitScore = s.splitScore := by
  intro r
  by_cases h : s.scores 0 ≤ s.scores 1
  · have hr : r = { s with mvs := Function.update s.mvs 0 (s.mvs 1) } := if_pos h
    rw [hr, if_neg (Nat.not_lt.2 h)]
    exact ⟨rfl, rfl, rfl, rfl, rfl⟩
  · have hr : r = s := if_neg h
    rw [hr, if_pos (Nat.lt_of_not_le h)]
    exact ⟨rfl, rfl, h0, rfl, rfl⟩

theorem calculate_eq (flipped : Bool) (split : Nat) (f : Found) (hf : f.others.length ≤ 3) :
    ∃ s, (f.scorer flipped split).calculate = some s ∧
      let first := f.others.reverse.getD 0 ({}, 0)
      let second := f.others.reverse.getD 1 ({}, 0)
      let third := f.others.reverse.getD 2 ({}, 0)
      let a : MotionVector × Nat := (first.1, if third.1 = first.1 then first.2 + third.2 else first.2)
      let p := if a.2 < second.2 then (second, a) else (a, second)
      s.mvs 1 = p.1.1 ∧ s.mvs 2 = p.2.1 ∧ s.mvs 0 = (if p.1.2 < f.zero then {} else p.1.1) ∧
      s.scores 0 = f.zero ∧ s.scores 1 = p.1.2 ∧ s.scores 2 = p.2.2 ∧ s.splitScore = split := by
  obtain ⟨z, o⟩ := f
  have key : ∃ s0, (Found.scorer flipped split ⟨z, o⟩).mergeThird = some s0 ∧ s0.mvs = (Found.scorer flipped split ⟨z, o⟩).mvs ∧
      s0.scores 0 = z ∧ s0.splitScore = split ∧ s0.scores 2 = (o.reverse.getD 1 ({}, 0)).2 ∧
      s0.scores 1 = (if (o.reverse.getD 2 ({}, 0)).1 = (o.reverse.getD 0 ({}, 0)).1 then (o.reverse.getD 0 ({}, 0)).2 +
        (o.reverse.getD 2 ({}, 0)).2 else (o.reverse.getD 0 ({}, 0)).2) := by
    unfold Scorer.mergeThird
    match o, hf with
    | [], _ => exact ⟨_, rfl, rfl, rfl, rfl, rfl, rfl⟩
    | [a], _ => exact ⟨_, rfl, rfl, rfl, rfl, rfl, by simp [Found.scorer]⟩
    | [b, a], _ => exact ⟨_, rfl, rfl, rfl, rfl, rfl, by simp [Found.scorer]⟩
    | [c, b, a], _ =>
      by_cases h0 : c.2 = 0
      · refine ⟨Found.scorer flipped split ⟨z, [c, b, a]⟩, ?_, rfl, rfl, rfl, rfl, ?_⟩
        · rw [if_neg]
          simp [Found.scorer, h0]
        · simp [Found.scorer, h0]
      · have e : (Found.scorer flipped split ⟨z, [c, b, a]⟩).scores 3 = c.2 := rfl
        rw [if_pos (by rw [e]; exact h0), dif_pos (show (Found.scorer flipped split ⟨z, [c, b, a]⟩).index < 4 from (by omega : 3 < 4))]
        by_cases h : c.1 = a.1
        · refine ⟨_, if_pos h, rfl, rfl, rfl, rfl, ?_⟩
          simp [Found.scorer, h]
        · refine ⟨_, if_neg h, rfl, rfl, rfl, rfl, ?_⟩
          simp [Found.scorer, h]
  obtain ⟨s0, h1, h2, h3, h4, h5, h6⟩ := key
  have m0 : s0.mvs 0 = {} := by rw [h2]; rfl
  have m1 : s0.mvs 1 = (o.reverse.getD 0 ({}, 0)).1 := by rw [h2]; rfl
  have m2 : s0.mvs 2 = (o.reverse.getD 1 ({}, 0)).1 := by rw [h2]; rfl
  have hsw : ∃ s1, s1 = (if s0.scores 1 < s0.scores 2 then
      { s0 with
        scores := Function.update (Function.update s0.scores 1 (s0.scores 2)) 2 (s0.scores 1)
        mvs := Function.update (Function.update s0.mvs 1 (s0.mvs 2)) 2 (s0.mvs 1) }
    else s0) ∧ s1.mvs 0 = {} ∧ s1.scores 0 = z ∧ s1.splitScore = split ∧
      (s1.mvs 1, s1.scores 1) = (if s0.scores 1 < s0.scores 2 then (s0.mvs 2, s0.scores 2) else (s0.mvs 1, s0.scores 1)) ∧
      (s1.mvs 2, s1.scores 2) = (if s0.scores 1 < s0.scores 2 then (s0.mvs 1, s0.scores 1) else (s0.mvs 2, s0.scores 2)) := by
    refine ⟨_, rfl, ?_⟩
    by_cases hs : s0.scores 1 < s0.scores 2
    · rw [if_pos hs, if_pos hs, if_pos hs]
      exact ⟨m0, h3, h4, rfl, rfl⟩
    · rw [if_neg hs, if_neg hs, if_neg hs]
      exact ⟨m0, h3, h4, rfl, rfl⟩
  obtain ⟨s1, e, e0, e1, e2, e3, e4⟩ := hsw
  obtain ⟨f1, f2, f3, f4, f5⟩ := final_step s1 e0
  refine ⟨if s1.scores 0 ≤ s1.scores 1 then { s1 with mvs := Function.update s1.mvs 0 (s1.mvs 1) } else s1, ?_, ?_⟩
  · unfold Scorer.calculate
    rw [h1]
    simp only [Option.bind_eq_bind, Option.bind_some]
    rw [← e]
    rfl
  intro first second third a p
  rw [f1, f2, f3, f4, f5, e1]
  have ha : a = ((o.reverse.getD 0 ({}, 0)).1, s0.scores 1) := Prod.ext rfl h6.symm
  have hp : p = ((s1.mvs 1, s1.scores 1), (s1.mvs 2, s1.scores 2)) := by
    show (if a.2 < second.2 then (second, a) else (a, second)) = _
    rw [ha, e3, e4, m1, m2, h5]
    show (if s0.scores 1 < second.2 then _ else _) = (if s0.scores 1 < second.2 then _ else _, if s0.scores 1 < second.2 then _ else _)
    split <;> rfl
  rw [hp]
  exact ⟨rfl, rfl, rfl, rfl, rfl, rfl, e2⟩

theorem census_near (flipped : Bool) (c : MBContext) : ∃ s, census flipped c = some s ∧
    s.mvs 1 = (near flipped c).nearest ∧ s.mvs 2 = (near flipped c).near ∧ s.mvs 0 = (near flipped c).base ∧
    s.scores 0 = (near flipped c).zeroCount ∧ s.scores 1 = (near flipped c).nearestCount ∧
    s.scores 2 = (near flipped c).nearCount ∧ s.splitScore = (near flipped c).splitCount := by
  have l1 := Found.visit_length flipped {} 2 c.above
  have l2 := Found.visit_length flipped (Found.visit flipped {} 2 c.above) 2 c.left
  have l3 := Found.visit_length flipped ((Found.visit flipped {} 2 c.above).visit flipped 2 c.left) 1 c.aboveLeft
  have l0 : ({} : Found).others.length = 0 := rfl
  obtain ⟨s, hs, h⟩ := calculate_eq flipped (0 + splitWeight 2 c.above + splitWeight 2 c.left + splitWeight 1 c.aboveLeft)
    (found flipped c) (by unfold found; omega)
  refine ⟨s, ?_, ?_⟩
  · unfold census
    simp only [Found.scorer_init, Option.bind_eq_bind]
    rw [Found.addMB_eq _ _ _ _ _ (by omega), Option.bind_some, Found.addMB_eq _ _ _ _ _ (by omega), Option.bind_some,
      Found.addMB_eq _ _ _ _ _ (by omega), Option.bind_some]
    exact hs
  · rw [Nat.zero_add] at h
    exact h

theorem mvRefProbs_near {flipped : Bool} {c : MBContext} {s : Scorer} (hs : census flipped c = some s) :
    mvRefProbs s = some (nearProbs (near flipped c)) := by
  obtain ⟨s', h, h1, h2, h3, h4, h5, h6, h7⟩ := census_near flipped c
  obtain ⟨s'', h', b, b'⟩ := census_bounded flipped c
  rw [hs] at h h'
  cases h
  cases h'
  have tab : ∀ n ≤ 5, ∀ k < 4, (mvCountsToProbs[n]?).bind (·[k]?) = some ((mvCountsToProbs.getD n []).getD k 0) := by decide +kernel
  unfold mvRefProbs nearProbs
  rw [tab _ (b 0) 0 (by omega), tab _ (b 1) 1 (by omega), tab _ (b 2) 2 (by omega), tab _ b' 3 (by omega), h4, h5, h6, h7]
  rfl

end Alfalfa.ModeSpec
