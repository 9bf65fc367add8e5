import Verif.Proof.Trellis

/-! C47: the optimized coefficients stay near the plain ones. -/

namespace Alfalfa

/-- A step towards zero does not change the sign and does not increase the magnitude. -/
theorem oneStep_sign {p v : Int} (h : OneStep p v) : v.natAbs ≤ p.natAbs ∧ (0 ≤ p → 0 ≤ v) ∧ (p ≤ 0 → v ≤ 0) := by
  unfold OneStep at h
  omega

theorem plain_at {dc ac : Nat} {c plain : Fin 16 → Int} (hp : quantize dc ac c = some plain) (i : Fin 16) : plain (zigzag i) = plainAt c dc ac i := by
  unfold quantize at hp
  split at hp
  · exact nomatch hp
  · cases hp
    have : (zigzag i = 0) = (i = 0) := propext (by revert i; decide)
    show toInt16 (Int.tdiv _ ((if zigzag i = 0 then dc else ac : Nat) : Int)) = _
    simp only [this]
    rfl

/-- What the search gives from the first place on, by the two parts of the list of places. -/
theorem steps_near {type : BlockType} {dc ac : Nat} {c chosen plain : Fin 16 → Int} (hp : quantize dc ac c = some plain)
    (h1 : ∀ i ∈ (indicesFrom type.first).filter (fun i => decide (i.val < codedLength type c)), OneStep (plainAt c dc ac i) (chosen (zigzag i)))
    (h2 : ∀ i ∈ (indicesFrom type.first).filter (fun i => !decide (i.val < codedLength type c)), chosen (zigzag i) = 0) : NearPlain type.first plain chosen := by
  refine ⟨fun i hi => ?_⟩
  have hm : i ∈ indicesFrom type.first := by revert i; cases type <;> decide +kernel
  rw [plain_at hp i]
  by_cases hl : i.val < codedLength type c
  · exact h1 i (List.mem_filter.2 ⟨hm, decide_eq_true hl⟩)
  · rw [plainAt_zero (codedLength_rest type c i hm (by omega)), h2 i (List.mem_filter.2 ⟨hm, by rw [decide_eq_false hl]; rfl⟩)]
    exact Or.inl rfl

theorem trellis_near {costs : TrellisCosts} {type : BlockType} {dc ac : Nat} {context : Fin 3} {c chosen plain : Fin 16 → Int}
    (h : trellisQuantize costs type dc ac context c = some chosen) (hp : quantize dc ac c = some plain) :
    NearPlain type.first plain chosen ∧ (type.first = 1 → chosen 0 = c 0 ∨ chosen 0 = 0) := by
  unfold trellisQuantize at h
  dsimp only at h
  obtain ⟨f, hf⟩ : ∃ f : Fin 2, type.first = f.val := by cases type; exact ⟨1, rfl⟩; all_goals exact ⟨0, rfl⟩
  by_cases hz : codedLength type c = 0
  · rw [if_pos hz] at h
    cases h
    refine ⟨steps_near hp (fun i hi => ?_) (fun _ _ => rfl), fun _ => Or.inr rfl⟩
    have := of_decide_eq_true (List.mem_filter.1 hi).2
    omega
  · rw [if_neg hz] at h
    cases hb : buildTrellis costs c dc ac ((indicesFrom type.first).filter (fun i => decide (i.val < codedLength type c))) with
    | none => rw [hb] at h; exact nomatch h
    | some t =>
      rw [hb, Option.bind_eq_bind, Option.bind_some] at h
      have hbuilt := buildTrellis_built hb
      cases t with
      | nil => exact nomatch h
      | cons n t =>
        dsimp only at h
        generalize firstChoice costs _ context n = choice at h
        cases choice with
        | none => exact nomatch h
        | some choice =>
          have h : walkTrellis (n :: t) choice.val (indicesFrom type.first) c = some chosen := h
          rw [hf] at h hbuilt
          have hsplit := filter_split f (codedLength type c)
          obtain ⟨c', e1, e3, e4, e5⟩ := walkTrellis_shape hbuilt choice.isLt _ (hsplit ▸ indicesFrom_nodup f) c
          rw [← hsplit] at e1 e5
          rw [e1] at h
          cases h
          rw [← hf] at e3 e4
          exact ⟨steps_near hp e3 e4, fun h1 => Or.inl (e5 0 (by rw [← hf, h1]; decide +kernel))⟩

/-- **C47** (what is chosen): for every block, quantizer, context and every table of costs, if the search returns, what it returns is near what the
plain quantizer gives; no magnitude grows and no sign changes. -/
theorem C47_near {costs : TrellisCosts} {type : BlockType} {dc ac : Nat} {context : Fin 3} {c chosen plain : Fin 16 → Int}
    (h : trellisQuantize costs type dc ac context c = some chosen) (hp : quantize dc ac c = some plain) :
    NearPlain type.first plain chosen ∧
    (∀ i : Fin 16, type.first ≤ i.val → (chosen (zigzag i)).natAbs ≤ (plain (zigzag i)).natAbs ∧
      (0 ≤ plain (zigzag i) → 0 ≤ chosen (zigzag i)) ∧ (plain (zigzag i) ≤ 0 → chosen (zigzag i) ≤ 0)) ∧
    (type.first = 1 → chosen 0 = c 0 ∨ chosen 0 = 0) := by
  obtain ⟨h1, h2⟩ := trellis_near h hp
  refine ⟨h1, fun i hi => ?_, h2⟩
  exact oneStep_sign (h1.tokens i hi)

/-- **C47** (the search returns): for the factors and the distortion multiplier the encoder uses, whatever the costs of tokens and whatever the
rate multiplier, if the plain coefficients are those that the table of costs covers. -/
theorem C47_total {costs : TrellisCosts} (hD : costs.distortion ≤ 100) (type : BlockType) {dc ac : Nat} (h1 : 1 ≤ dc ∧ 1 ≤ ac)
    (h2 : dc ≤ 442 ∧ ac ≤ 442) (context : Fin 3) {c plain : Fin 16 → Int} (hc : ∀ i, -32768 ≤ c i ∧ c i ≤ 32767)
    (hp : quantize dc ac c = some plain) (hr : ∀ i, -2048 ≤ plain i ∧ plain i ≤ 2047) :
    ∃ chosen, trellisQuantize costs type dc ac context c = some chosen := by
  unfold trellisQuantize
  dsimp only
  by_cases hz : codedLength type c = 0
  · rw [if_pos hz]; exact ⟨_, rfl⟩
  rw [if_neg hz]
  obtain ⟨f, hf⟩ : ∃ f : Fin 2, type.first = f.val := by cases type; exact ⟨1, rfl⟩; all_goals exact ⟨0, rfl⟩
  have hl : (indicesFrom f.val).length ≤ 16 := by clear hf; revert f; decide +kernel
  have hl : ((indicesFrom type.first).filter (fun i => decide (i.val < codedLength type c))).length ≤ 16 :=
    Nat.le_trans (List.length_filter_le _ _) (hf ▸ hl)
  obtain ⟨n, t, e, hn⟩ := buildTrellis_total (costs := costs) hD h1 h2 hc ((indicesFrom type.first).filter (fun i => decide (i.val < codedLength type c)))
    (fun i _ => plain_at hp i ▸ hr (zigzag i)) hl
  have hbuilt := buildTrellis_built e
  rw [e, Option.bind_eq_bind, Option.bind_some]
  dsimp only
  have hfc : ∀ band, ∃ choice, firstChoice costs band context n = some choice := by
    intro band
    unfold firstChoice
    exact chooseNext_lt (rdcost_lt (by have := hn 0; omega) hD)
  obtain ⟨choice, hch⟩ := hfc (coefficientToBand ⟨type.first, by cases type <;> decide⟩)
  rw [hch]
  show ∃ chosen, walkTrellis (n :: t) choice.val (indicesFrom type.first) c = some chosen
  rw [hf] at hbuilt ⊢
  have hsplit := filter_split f (codedLength type c)
  obtain ⟨c', e1, -⟩ := walkTrellis_shape hbuilt choice.isLt _ (hsplit ▸ indicesFrom_nodup f) c
  rw [← hsplit] at e1
  exact ⟨c', e1⟩

/-- Without the bound on the plain coefficients the program stops: the largest coefficient of the transform of the luma averages, 16320, with a
factor of 4 does not occur (the smallest is 8), but the bound is not met by a factor of 7. -/
theorem C47_bound_needed : ∃ costs : TrellisCosts, costs.distortion ≤ 100 ∧
    trellisQuantize costs .y2 7 7 0 (fun i => if i = 0 then 16320 else 0) = none := by
  refine ⟨{ token := fun _ _ _ => 0, base := fun _ => 0, rate := 300, distortion := 1 }, by decide, ?_⟩
  decide +kernel

/-- A block in which the search lowers the second coefficient and gives up the last. -/
example : (trellisQuantize { token := fun _ _ t => 100 * ((t.val + 1) % 12), base := fun _ => 0, rate := 300, distortion := 1 } .yWithoutY2 10 10 0
      (fun i => if i = 0 then 47 else if i = 1 then 30 else if i = 5 then -11 else 0)).map (fun c => (c 0, c 1, c 5)) = some (4, 2, 0) ∧
    (quantize 10 10 (fun i => if i = 0 then 47 else if i = 1 then 30 else if i = 5 then -11 else 0)).map (fun c => (c 0, c 1, c 5)) = some (4, 3, -1) := by
  decide +kernel

/-- **C47** (the second-level block): it is left alone or becomes zero, and becomes zero only if its magnitudes sum to less than 35. -/
theorem C47_reset (dc ac : Nat) (c : Fin 16 → Int) :
    checkResetY2 dc ac c = c ∨ (checkResetY2 dc ac c = (fun _ => 0) ∧ (dc < 35 ∨ ac < 35) ∧ ((List.finRange 16).map fun i => (c i).natAbs).sum < 35) := by
  unfold checkResetY2
  have key : ∀ (l : List (Fin 16)) (s : Nat), l.foldl (fun s i => s + (c i).natAbs) s = s + (l.map fun i => (c i).natAbs).sum := by
    intro l
    induction l with
    | nil => intro s; rfl
    | cons a l ih =>
      intro s
      rw [List.foldl_cons, ih, List.map_cons, List.sum_cons]
      omega
  rw [key, Nat.zero_add]
  split
  · exact Or.inl rfl
  · split
    · exact Or.inl rfl
    · exact Or.inr ⟨rfl, by omega, by omega⟩

end Alfalfa
