import Verif.Spec.Price
import Mathlib.Tactic.IntervalCases

/-! Costs are prices. -/

namespace Alfalfa

theorem probCost_le : ∀ k, probCost.getD k 0 ≤ 2047 := by
  intro k
  by_cases h : k < 256
  · have : ∀ k : Fin 256, probCost.getD k.val 0 ≤ 2047 := by decide +kernel
    exact this ⟨k, h⟩
  · rw [List.getD_eq_getElem?_getD, List.getElem?_eq_none (Nat.le_trans (by decide +kernel) (Nat.le_of_not_lt h))]
    decide

theorem costBit_price (p : Prob) (b : Bool) : costBit p b = bitPrice (b, p) := by
  unfold costBit bitPrice costZero complement
  cases b
  · rfl
  · have : (255 - p).toNat = 255 - p.toNat := by
      have := p.toNat_lt
      rw [UInt8.toNat_sub_of_le]
      · rfl
      · rw [UInt8.le_iff_toNat_le]; show p.toNat ≤ 255; omega
    simp only [if_true, this]

theorem costZero_price (p : Prob) : costZero p = bitPrice (false, p) := costBit_price p false
theorem costOne_price (p : Prob) : costOne p = bitPrice (true, p) := costBit_price p true

theorem bitPrice_le (x : Bool × Prob) : bitPrice x ≤ 2047 := probCost_le _

theorem price_nil : price [] = 0 := rfl
theorem price_cons (x : Bool × Prob) (l : Bits) : price (x :: l) = bitPrice x + price l := by unfold price; rw [List.map_cons, List.sum_cons]
theorem price_append (l m : Bits) : price (l ++ m) = price l + price m := by unfold price; rw [List.map_append, List.sum_append]

theorem price_le (l : Bits) : price l ≤ 2047 * l.length := by
  induction l with
  | nil => exact Nat.le_refl _
  | cons x l ih => rw [price_cons, List.length_cons]; have := bitPrice_le x; omega

/-- The leaves below a node, in the order in which the recursion gets to them, with the decisions that lead there. -/
def leaves (tree : List Int) : (fuel index : Nat) → Option (List (Nat × List (Bool × Nat)))
  | 0, _ => none
  | fuel + 1, index => do
    let child (b : Bool) : Option (List (Nat × List (Bool × Nat))) := do
      let entry ← tree[index + b.toNat]?
      if entry ≤ 0 then some [((-entry).toNat, [(b, index / 2)])]
      else do
        let below ← leaves tree fuel entry.toNat
        some (below.map fun x => (x.1, (b, index / 2) :: x.2))
    let a ← child false
    let b ← child true
    some (a ++ b)

/-- The price of some decisions. -/
def pathPrice (probs : List Prob) (path : List (Bool × Nat)) : Nat := price (path.map fun x => (x.1, probs.getD x.2 0))

/-- The table after the leaves have got their costs. -/
def setLeaves (probs : List Prob) (current : Nat) : List (Nat × List (Bool × Nat)) → List Nat → List Nat
  | [], costs => costs
  | x :: rest, costs => setLeaves probs current rest (costs.set x.1 (current + pathPrice probs x.2))

theorem setLeaves_length (probs : List Prob) (current : Nat) (l : List (Nat × List (Bool × Nat))) (costs : List Nat) :
    (setLeaves probs current l costs).length = costs.length := by
  induction l generalizing costs with
  | nil => rfl
  | cons x l ih => rw [setLeaves, ih, List.length_set]

theorem setLeaves_append (probs : List Prob) (current : Nat) (l m : List (Nat × List (Bool × Nat))) (costs : List Nat) :
    setLeaves probs current (l ++ m) costs = setLeaves probs current m (setLeaves probs current l costs) := by
  induction l generalizing costs with
  | nil => rfl
  | cons x l ih => rw [List.cons_append, setLeaves, setLeaves, ih]

theorem setLeaves_step (probs : List Prob) (current : Nat) (b : Bool) (k : Nat) (l : List (Nat × List (Bool × Nat))) (costs : List Nat) :
    setLeaves probs current (l.map fun x => (x.1, (b, k) :: x.2)) costs = setLeaves probs (current + bitPrice (b, probs.getD k 0)) l costs := by
  induction l generalizing costs with
  | nil => rfl
  | cons x l ih =>
    rw [List.map_cons, setLeaves, setLeaves, ih]
    dsimp only
    unfold pathPrice
    rw [List.map_cons, price_cons, Nat.add_assoc]

/-- What is assumed of the leaves: there are probabilities and an entry for each, and the sums fit. -/
def Fine (n m : Nat) (room : Nat) (l : List (Nat × List (Bool × Nat))) : Prop :=
  ∀ x ∈ l, x.1 < m ∧ x.2.length ≤ room ∧ ∀ y ∈ x.2, y.2 < n

instance (n m room : Nat) (l : List (Nat × List (Bool × Nat))) : Decidable (Fine n m room l) := by unfold Fine; infer_instance

theorem child_ne {tree : List Int} {fuel index : Nat} {b : Bool} {l : List (Nat × List (Bool × Nat))}
    (h : (do let entry ← tree[index + b.toNat]?
             if entry ≤ 0 then some [((-entry).toNat, [(b, index / 2)])]
             else do
               let below ← leaves tree fuel entry.toNat
               some (below.map fun x => (x.1, (b, index / 2) :: x.2)) : Option (List (Nat × List (Bool × Nat)))) = some l) : l ≠ [] := by
  induction fuel generalizing index b l with
  | zero =>
    obtain ⟨e, -, h⟩ := Option.bind_eq_some_iff.1 h
    by_cases hle : e ≤ 0
    · rw [if_pos hle] at h; cases h; exact fun h => nomatch h
    · rw [if_neg hle] at h; exact nomatch h
  | succ fuel ih =>
    obtain ⟨e, -, h⟩ := Option.bind_eq_some_iff.1 h
    by_cases hle : e ≤ 0
    · rw [if_pos hle] at h; cases h; exact fun h => nomatch h
    · rw [if_neg hle] at h
      obtain ⟨below, hb, h⟩ := Option.bind_eq_some_iff.1 h
      cases h
      rw [leaves] at hb
      dsimp only at hb
      obtain ⟨la, ha, hb⟩ := Option.bind_eq_some_iff.1 hb
      obtain ⟨lb, -, hb⟩ := Option.bind_eq_some_iff.1 hb
      cases hb
      have := ih ha
      intro e
      rw [List.map_eq_nil_iff, List.append_eq_nil_iff] at e
      exact this e.1

theorem computeCost_leaves {probs : List Prob} {tree : List Int} : ∀ {fuel index current room : Nat} {costs : List Nat} {l : List (Nat × List (Bool × Nat))},
    leaves tree fuel index = some l → Fine probs.length costs.length room l → current + 2047 * room < 2 ^ 16 →
    computeCost probs tree fuel index current costs = some (setLeaves probs current l costs) := by
  intro fuel
  induction fuel with
  | zero => intro index current room costs l h; exact nomatch h
  | succ fuel ih =>
    intro index current room costs l h hf hr
    -- one child
    have key : ∀ (b : Bool) (costs' : List Nat) (l' : List (Nat × List (Bool × Nat))), costs'.length = costs.length →
        (do let entry ← tree[index + b.toNat]?
            if entry ≤ 0 then some [((-entry).toNat, [(b, index / 2)])]
            else do
              let below ← leaves tree fuel entry.toNat
              some (below.map fun x => (x.1, (b, index / 2) :: x.2)) : Option (List (Nat × List (Bool × Nat)))) = some l' →
        Fine probs.length costs.length room l' → l' ≠ [] → index / 2 < probs.length ∧
        (do let entry ← tree[index + b.toNat]?
            let cost := (current + costBit (probs.getD (index / 2) 0) b) % 2 ^ 16
            if entry ≤ 0 then
              if (-entry).toNat < costs'.length then some (costs'.set (-entry).toNat cost) else none
            else computeCost probs tree fuel entry.toNat cost costs' : Option (List Nat)) = some (setLeaves probs current l' costs') := by
      intro b costs' l' hl e hfine hne
      cases he : tree[index + b.toNat]? with
      | none => rw [he] at e; exact nomatch e
      | some entry =>
        rw [he] at e
        dsimp only [bind, Option.bind] at e ⊢
        by_cases hle : entry ≤ 0
        · rw [if_pos hle] at e ⊢
          cases e
          obtain ⟨h1, h2, h3⟩ := hfine _ (List.mem_cons_self ..)
          refine ⟨h3 _ (List.mem_cons_self ..), ?_⟩
          have h2 : 1 ≤ room := h2
          rw [if_pos (hl ▸ h1), costBit_price, Nat.mod_eq_of_lt (by have := bitPrice_le (b, probs.getD (index / 2) 0); omega)]
          rfl
        · rw [if_neg hle] at e ⊢
          cases hb : leaves tree fuel entry.toNat with
          | none => rw [hb] at e; exact nomatch e
          | some below =>
            rw [hb] at e
            have e : below.map (fun x => (x.1, (b, index / 2) :: x.2)) = l' := Option.some.inj e
            subst e
            obtain ⟨x, hx⟩ : ∃ x, x ∈ below := by
              cases below with
              | nil => exact absurd rfl hne
              | cons x l => exact ⟨x, List.mem_cons_self ..⟩
            obtain ⟨h1, h2, h3⟩ := hfine _ (List.mem_map_of_mem hx)
            have h2 : x.2.length + 1 ≤ room := h2
            refine ⟨h3 _ (List.mem_cons_self ..), ?_⟩
            rw [costBit_price, Nat.mod_eq_of_lt (by have := bitPrice_le (b, probs.getD (index / 2) 0); omega), setLeaves_step]
            refine ih (room := room - 1) hb ?_ (by have := bitPrice_le (b, probs.getD (index / 2) 0); omega)
            intro y hy
            obtain ⟨g1, g2, g3⟩ := hfine _ (List.mem_map_of_mem hy)
            have g2 : y.2.length + 1 ≤ room := g2
            exact ⟨hl ▸ g1, by omega, fun z hz => g3 z (List.mem_cons_of_mem _ hz)⟩
    rw [leaves] at h
    dsimp only at h
    obtain ⟨la, ha, h⟩ := Option.bind_eq_some_iff.1 h
    obtain ⟨lb, hb, h⟩ := Option.bind_eq_some_iff.1 h
    cases h
    have na : la ≠ [] := child_ne ha
    have nb : lb ≠ [] := child_ne hb
    obtain ⟨k1, k2⟩ := key false costs la rfl ha (fun x hx => hf x (List.mem_append_left _ hx)) na
    obtain ⟨-, k3⟩ := key true (setLeaves probs current la costs) lb (setLeaves_length ..) hb (fun x hx => hf x (List.mem_append_right _ hx)) nb
    have hp : probs[index / 2]? = some (probs.getD (index / 2) 0) := by
      rw [List.getD_eq_getElem?_getD, List.getElem?_eq_getElem k1]
      rfl
    rw [computeCost, hp]
    dsimp only [bind, Option.bind] at k2 k3 ⊢
    rw [k2]
    dsimp only
    rw [k3, setLeaves_append]

/-- An entry that is set once. -/
theorem setLeaves_entry {probs : List Prob} {current : Nat} {l : List (Nat × List (Bool × Nat))} {costs : List Nat} (hn : (l.map Prod.fst).Nodup)
    (v : Nat) (hv : v < costs.length) : (setLeaves probs current l costs)[v]? =
      some (((l.find? fun x => x.1 == v).map fun x => current + pathPrice probs x.2).getD (costs.getD v 0)) := by
  induction l generalizing costs with
  | nil =>
    show costs[v]? = some (costs.getD v 0)
    rw [List.getD_eq_getElem?_getD, List.getElem?_eq_getElem hv]
    rfl
  | cons x l ih =>
    rw [List.map_cons, List.nodup_cons] at hn
    rw [setLeaves, ih hn.2 (by rwa [List.length_set]), List.find?_cons]
    by_cases h : x.1 = v
    · subst h
      have : l.find? (fun y => y.1 == x.1) = none := List.find?_eq_none.2 fun y hy he => hn.1 (by
        rw [← eq_of_beq he]
        exact List.mem_map_of_mem hy)
      rw [this, show (x.1 == x.1) = true from beq_self_eq_true _]
      simp [List.getD_eq_getElem?_getD, hv]
    · rw [show (x.1 == v) = false from beq_eq_false_iff_ne.2 h]
      congr 2
      rw [List.getD_eq_getElem?_getD, List.getElem?_set_ne h, ← List.getD_eq_getElem?_getD]

end Alfalfa
