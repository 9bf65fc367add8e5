import Verif.Proof.CostTokens
import Verif.Proof.Trellis

/-! The costs of blocks are prices. -/

namespace Alfalfa

/-- The bits of a coefficient after its token. -/
def coeffBits (v : Int) : Bits := categoryBits v.natAbs ++ if v = 0 then [] else [(decide (v < 0), 128)]

open Classical in
/-- The bits of the coefficients at some indices up to the end of the block. -/
noncomputable def tokensFrom (probs : Fin 8 → Fin 3 → Fin 11 → Prob) (c : Fin 16 → Int) : List (Fin 16) → Bool → Fin 3 → Bits
  | [], _, _ => []
  | i :: rest, lz, ctx =>
    if ∀ j ∈ i :: rest, c (zigzag j) = 0 then [(false, probs (coefficientToBand i) ctx 0)]
    else checkedBits lz (probs (coefficientToBand i) ctx) (tokenForCoeff (c (zigzag i))) ++ (coeffBits (c (zigzag i)) ++
      tokensFrom probs c rest (decide (c (zigzag i) = 0)) (prevTokenClass (tokenForCoeff (c (zigzag i)))))

theorem tokensFrom_zero (probs : Fin 8 → Fin 3 → Fin 11 → Prob) (c : Fin 16 → Int) (rest : List (Fin 16)) (hrest : ∀ i ∈ rest, c (zigzag i) = 0) (lz : Bool) (ctx : Fin 3) :
    tokensFrom probs c rest lz ctx = eobBits probs ctx rest := by
  cases rest with
  | nil => rfl
  | cons i rest => exact if_pos hrest

theorem tokensFrom_cons (probs : Fin 8 → Fin 3 → Fin 11 → Prob) (c : Fin 16 → Int) (i : Fin 16) (rest : List (Fin 16)) (h : ∃ j ∈ i :: rest, c (zigzag j) ≠ 0) (lz : Bool) (ctx : Fin 3) :
    tokensFrom probs c (i :: rest) lz ctx = checkedBits lz (probs (coefficientToBand i) ctx) (tokenForCoeff (c (zigzag i))) ++ (coeffBits (c (zigzag i)) ++
      tokensFrom probs c rest (decide (c (zigzag i) = 0)) (prevTokenClass (tokenForCoeff (c (zigzag i))))) := by
  obtain ⟨j, hj, h⟩ := h
  exact if_neg fun h' => h (h' j hj)

theorem tokenClass_zero (v : Int) : prevTokenClass (tokenForCoeff v) = 0 ↔ v = 0 := by
  unfold tokenForCoeff
  dsimp only
  split_ifs with h
  · exact ⟨fun _ => by omega, fun _ => rfl⟩
  all_goals exact ⟨fun h => absurd h (by decide), fun h' => absurd (by rw [h']; rfl) h⟩

theorem token_zero : tokenForCoeff 0 = 0 := rfl

theorem writeCoeffs_from (probs : Fin 8 → Fin 3 → Fin 11 → Prob) (c : Fin 16 → Int)
    (rest : List (Fin 16)) (hrest : ∀ i ∈ rest, c (zigzag i) = 0) :
    ∀ (wl : List (Fin 16)) (lz : Bool) (ctx : Fin 3), (∀ i ∈ wl, (c (zigzag i)).natAbs ≤ 2114) → (∀ h : wl ≠ [], c (zigzag (wl.getLast h)) ≠ 0) → (wl = [] → lz = false) →
      ∃ bits ctx', writeCoeffs probs c wl lz ctx = some (bits, false, ctx') ∧ bits ++ eobBits probs ctx' rest = tokensFrom probs c (wl ++ rest) lz ctx
  | [], lz, ctx, _, _, hlz => by
    rw [hlz rfl]
    refine ⟨[], ctx, rfl, ?_⟩
    exact (tokensFrom_zero probs c rest hrest false ctx).symm
  | i :: wl, lz, ctx, hc, hl, _ => by
    have hc' : ∀ i ∈ wl, (c (zigzag i)).natAbs ≤ 2114 := fun j hj => hc j (List.mem_cons_of_mem _ hj)
    have hex : ∃ j ∈ i :: (wl ++ rest), c (zigzag j) ≠ 0 :=
      ⟨(i :: wl).getLast (List.cons_ne_nil _ _), List.mem_append_left rest (List.getLast_mem _), hl (List.cons_ne_nil _ _)⟩
    rw [List.cons_append, tokensFrom_cons probs c i _ hex]
    have hl' : ∀ h : wl ≠ [], c (zigzag (wl.getLast h)) ≠ 0 := fun h => by
      have := hl (List.cons_ne_nil _ _)
      rwa [List.getLast_cons h] at this
    unfold writeCoeffs
    dsimp only
    unfold checkedBits
    rw [if_neg (tokenForCoeff_ne _)]
    by_cases h0 : c (zigzag i) = 0
    · rw [if_pos (by rw [h0]; rfl)]
      obtain ⟨bits, ctx', e1, e2⟩ := writeCoeffs_from probs c rest hrest wl true 0 hc' hl' (fun e => by
        subst e
        exact absurd h0 (hl (List.cons_ne_nil _ _)))
      rw [e1]
      refine ⟨_, ctx', rfl, ?_⟩
      rw [h0, decide_eq_true rfl, token_zero]
      show _ = _ ++ ([] ++ tokensFrom probs c (wl ++ rest) true 0)
      rw [← e2, List.append_assoc, List.append_assoc]
      rfl
    · rw [if_neg (by omega)]
      obtain ⟨m, e, e'⟩ := writeMagnitude_token (probs (coefficientToBand i) ctx) (c (zigzag i)) h0 (hc i List.mem_cons_self)
      rw [e, Option.bind_eq_bind, Option.bind_some]
      obtain ⟨bits, ctx', e1, e2⟩ := writeCoeffs_from probs c rest hrest wl false (prevTokenClass (tokenForCoeff (c (zigzag i)))) hc' hl' (fun _ => rfl)
      dsimp only
      rw [e1]
      refine ⟨_, ctx', rfl, ?_⟩
      rw [decide_eq_false h0, ← e2]
      unfold coeffBits
      rw [if_neg h0]
      have : ∀ x : Bits, (true, probs (coefficientToBand i) ctx 1) :: (m ++ x) = tokenBits (probs (coefficientToBand i) ctx) (tokenForCoeff (c (zigzag i))) ++
          (categoryBits (c (zigzag i)).natAbs ++ x) := fun x => by
        rw [← List.append_assoc, ← e']
        rfl
      rw [this]
      simp only [List.append_assoc, List.cons_append, List.nil_append]

/-- The bits of a block, from its first index. -/
theorem serializeTokens_from (probs : CoeffProbs) (type : BlockType) (above left : Option Bool) (blk : Block)
    (hc : ∀ i ∈ indicesFrom type.first, (blk.coeffs (zigzag i)).natAbs ≤ 2114) :
    serializeTokens probs type above left blk = some (tokensFrom (probs type.index) blk.coeffs (indicesFrom type.first) false (tokenContext above left)) := by
  obtain ⟨len, hlen⟩ : ∃ len : Fin 17, len.val = codedLength type blk.coeffs :=
    ⟨⟨_, Nat.lt_succ_of_le (codedLength_le type blk.coeffs)⟩, rfl⟩
  have hr : ∀ i ∈ (indicesFrom type.first).filter (fun i => !decide (i.val < len.val)), blk.coeffs (zigzag i) = 0 := fun i hi => by
    obtain ⟨a, b⟩ := List.mem_filter.1 hi
    refine codedLength_rest type _ i a ?_
    rw [← hlen]
    simpa using b
  obtain ⟨bits, ctx', e1, e2⟩ := writeCoeffs_from (probs type.index) blk.coeffs _ hr ((indicesFrom type.first).filter (fun i => decide (i.val < len.val))) false
    (tokenContext above left) (fun i hi => hc i (List.mem_filter.1 hi).1) (fun h => codedLength_last type _ _ (by
      rw [← hlen]
      exact indices_last type len _ (List.getLast?_eq_some_getLast h))) (fun _ => rfl)
  rw [← indices_split type len] at e2
  rw [hlen] at e1 e2
  unfold serializeTokens
  dsimp only
  rw [e1, ← e2, Option.bind_eq_bind, Option.bind_some]
  dsimp only
  rw [if_neg (by decide)]
  by_cases h16 : codedLength type blk.coeffs < 16
  · rw [dif_pos h16]
    have := indices_rest_head type len (hlen ▸ h16)
    rw [hlen] at this
    cases hrest : (indicesFrom type.first).filter (fun i => !decide (i.val < codedLength type blk.coeffs)) with
    | nil => rw [hrest] at this; exact nomatch this
    | cons j r =>
      rw [hrest] at this
      have hj : j = ⟨max type.first (codedLength type blk.coeffs), by cases type <;> simp only [BlockType.first] <;> omega⟩ := Fin.ext (Option.some.inj this)
      show some _ = some (bits ++ [(false, probs type.index (coefficientToBand j) ctx' 0)])
      rw [hj]
  · have hnil := indices_rest_nil type len (hlen ▸ h16)
    rw [hlen] at hnil
    rw [dif_neg h16, hnil]
    show some _ = some (bits ++ [])
    rw [List.append_nil]

/-- Which rows are for tokens after a zero. -/
theorem afterZeroRow_first : ∀ (type : BlockType) (i : Fin 16) (ctx : Fin 3), i.val = type.first → afterZeroRow type.index (coefficientToBand i) ctx = false := by
  intro type; cases type <;> decide +kernel

theorem afterZeroRow_later : ∀ (type : BlockType) (i : Fin 16) (ctx : Fin 3), type.first < i.val → afterZeroRow type.index (coefficientToBand i) ctx = decide (ctx = 0) := by
  intro type; cases type <;> decide +kernel

theorem RowsOf.row {probs : CoeffProbs} {type : BlockType} {token : Fin 8 → Fin 3 → List Nat} (h : RowsOf probs type token) (band : Fin 8) (ctx : Fin 3) (t : Fin 12)
    (ht : afterZeroRow type.index band ctx = true → t ≠ eobToken) :
    (token band ctx)[t.val]? = some (price (checkedBits (afterZeroRow type.index band ctx) (probs type.index band ctx) t)) := by
  obtain ⟨row, e, -, hr⟩ := fillTokenCosts_row probs type.index band ctx (old := List.replicate 12 0) rfl
  rw [h band ctx] at e
  cases e
  exact hr t ht

theorem blockCostLoop_from {probs : CoeffProbs} {type : BlockType} {token : Fin 8 → Fin 3 → List Nat} (h : RowsOf probs type token) (c : Fin 16 → Int)
    (rest : List (Fin 16)) (hrest : ∀ i ∈ rest, c (zigzag i) = 0) :
    ∀ (wl : List (Fin 16)) (lz : Bool) (ctx : Fin 3), (∀ i ∈ wl, -2048 ≤ c (zigzag i) ∧ c (zigzag i) ≤ 2047) → (∀ h : wl ≠ [], c (zigzag (wl.getLast h)) ≠ 0) → (wl = [] → lz = false) →
      (∀ i ∈ (wl ++ rest).head?, lz = afterZeroRow type.index (coefficientToBand i) ctx) → (∀ i ∈ (wl ++ rest).tail, type.first < i.val) →
      ∃ cost ctx', blockCostLoop token c wl ctx = some (cost, ctx') ∧
        cost + price (eobBits (probs type.index) ctx' rest) = price (tokensFrom (probs type.index) c (wl ++ rest) lz ctx) ∧
        ∀ i ∈ rest.head?, afterZeroRow type.index (coefficientToBand i) ctx' = false
  | [], lz, ctx, _, _, hlz, hh, _ => by
    refine ⟨0, ctx, rfl, ?_, fun i hi => ?_⟩
    · rw [List.nil_append, tokensFrom_zero _ c rest hrest, Nat.zero_add]
    · rw [← hh i hi, hlz rfl]
  | i :: wl, lz, ctx, hc, hl, _, hh, ht => by
    have hex : ∃ j ∈ i :: (wl ++ rest), c (zigzag j) ≠ 0 :=
      ⟨(i :: wl).getLast (List.cons_ne_nil _ _), List.mem_append_left rest (List.getLast_mem _), hl (List.cons_ne_nil _ _)⟩
    rw [List.cons_append, tokensFrom_cons _ c i _ hex]
    have hl' : ∀ h : wl ≠ [], c (zigzag (wl.getLast h)) ≠ 0 := fun h => by
      have := hl (List.cons_ne_nil _ _)
      rwa [List.getLast_cons h] at this
    have hlz := hh i rfl
    obtain ⟨cost, ctx', e1, e2, e3⟩ := blockCostLoop_from h c rest hrest wl (decide (c (zigzag i) = 0)) (prevTokenClass (tokenForCoeff (c (zigzag i))))
      (fun j hj => hc j (List.mem_cons_of_mem _ hj)) hl'
      (fun e => by subst e; exact decide_eq_false (hl (List.cons_ne_nil _ _)))
      (fun j hj => by
        rw [afterZeroRow_later type j _ (ht j (List.mem_of_mem_head? hj))]
        exact decide_eq_decide.2 (tokenClass_zero _).symm)
      (fun j hj => ht j (List.mem_of_mem_tail hj))
    unfold blockCostLoop
    dsimp only
    rw [h.row _ _ _ (fun _ => tokenForCoeff_ne _), coeffBaseCost_price _ (hc i List.mem_cons_self), e1]
    refine ⟨_, ctx', rfl, ?_, e3⟩
    dsimp only
    rw [Nat.add_assoc, e2, ← hlz]
    unfold coeffBits
    simp only [price_append]
    omega

theorem indices_tail : ∀ type : BlockType, ∀ i ∈ (indicesFrom type.first).tail, type.first < i.val := by intro type; cases type <;> decide +kernel
theorem indices_head : ∀ type : BlockType, ∀ i ∈ (indicesFrom type.first).head?, i.val = type.first := by intro type; cases type <;> decide +kernel

theorem blockCost_from {probs : CoeffProbs} {type : BlockType} {token : Fin 8 → Fin 3 → List Nat} (h : RowsOf probs type token) (above left : Option Bool) (c : Fin 16 → Int)
    (hc : ∀ i ∈ indicesFrom type.first, -2048 ≤ c (zigzag i) ∧ c (zigzag i) ≤ 2047) :
    blockCost token type above left c = some (price (tokensFrom (probs type.index) c (indicesFrom type.first) false (tokenContext above left))) := by
  obtain ⟨len, hlen⟩ : ∃ len : Fin 17, len.val = codedLength type c := ⟨⟨_, Nat.lt_succ_of_le (codedLength_le type c)⟩, rfl⟩
  have hr : ∀ i ∈ (indicesFrom type.first).filter (fun i => !decide (i.val < len.val)), c (zigzag i) = 0 := fun i hi => by
    obtain ⟨a, b⟩ := List.mem_filter.1 hi
    refine codedLength_rest type _ i a ?_
    rw [← hlen]
    simpa using b
  have hsp := indices_split type len
  obtain ⟨cost, ctx', e1, e2, e3⟩ := blockCostLoop_from h c _ hr ((indicesFrom type.first).filter (fun i => decide (i.val < len.val))) false
    (tokenContext above left) (fun i hi => hc i (List.mem_filter.1 hi).1) (fun h => codedLength_last type _ _ (by
      rw [← hlen]
      exact indices_last type len _ (List.getLast?_eq_some_getLast h))) (fun _ => rfl)
    (fun i hi => (afterZeroRow_first type i _ (indices_head type i (hsp ▸ hi))).symm)
    (fun i hi => indices_tail type i (hsp ▸ hi))
  rw [← hsp] at e2
  rw [hlen] at e1 e2 e3
  unfold blockCost
  dsimp only
  rw [e1, ← e2, Option.bind_eq_bind, Option.bind_some]
  dsimp only
  by_cases h16 : codedLength type c < 16
  · rw [dif_pos h16]
    have := indices_rest_head type len (hlen ▸ h16)
    rw [hlen] at this
    cases hrest : (indicesFrom type.first).filter (fun i => !decide (i.val < codedLength type c)) with
    | nil => rw [hrest] at this; exact nomatch this
    | cons j r =>
      rw [hrest] at this e3
      have hj : j = ⟨max type.first (codedLength type c), by cases type <;> simp only [BlockType.first] <;> omega⟩ := Fin.ext (Option.some.inj this)
      have haz := e3 j rfl
      have := h.row (coefficientToBand j) ctx' eobToken (fun h => by rw [haz] at h; exact nomatch h)
      rw [← hj, show (11 : Nat) = (eobToken : Fin 12).val from rfl, this, haz]
      rfl
  · have hnil := indices_rest_nil type len (hlen ▸ h16)
    rw [hlen] at hnil
    rw [dif_neg h16, hnil]
    rfl

end Alfalfa
