import Verif.Proof.Tree
import Verif.Model.MotionVector

namespace Alfalfa

theorem encMvBits_cons (x : Nat) (p : Fin 19 → Prob) (i : Nat) (l : List Nat) (bits : Bits) :
    encMvBits x p (i :: l) = some bits ↔ ∃ q r, probAt p (9 + i) = some q ∧ encMvBits x p l = some r ∧
      bits = ((x >>> i) &&& 1 == 1, q) :: r := by
  unfold encMvBits
  rw [List.mapM_cons]
  cases probAt p (9 + i) with
  | none => simp
  | some q =>
    cases List.mapM (fun i => (do let q ← probAt p (9 + i); pure ((x >>> i) &&& 1 == 1, q) : Option (Bool × Prob))) l with
    | none => simp
    | some r => simp [eq_comm]

theorem encMvBits_some (x : Nat) (p : Fin 19 → Prob) : ∀ l : List Nat, (∀ i ∈ l, i < 10) → ∃ bits, encMvBits x p l = some bits
  | [], _ => ⟨[], rfl⟩
  | i :: l, h => by
    obtain ⟨r, hr⟩ := encMvBits_some x p l (fun j hj => h j (List.mem_cons_of_mem _ hj))
    have hi : 9 + i < 19 := by have := h i List.mem_cons_self; omega
    exact ⟨_, (encMvBits_cons ..).mpr ⟨p ⟨9 + i, hi⟩, r, by simp only [probAt, hi, dite_true], hr, rfl⟩⟩

/-- The sum the reader accumulates. -/
def mvSum (x : Nat) : List Nat → Nat → Nat
  | [], acc => acc
  | i :: l, acc => mvSum x l (acc + ((x >>> i) &&& 1 == 1).toNat <<< i)

theorem parses_mvBits (x : Nat) (p : Fin 19 → Prob) : ∀ (l : List Nat) (acc : Nat) (bits : Bits), encMvBits x p l = some bits →
    Parses (readMvBits p l acc) bits (mvSum x l acc)
  | [], acc, bits, h => by
    simp [encMvBits] at h; subst h; exact Parses.pure _
  | i :: l, acc, bits, h => by
    rw [encMvBits_cons] at h
    obtain ⟨q, r, h1, h2, rfl⟩ := h
    unfold readMvBits
    rw [liftM_bind h1]
    exact Parses.bind (Parses.getBit _ _) (parses_mvBits x p l _ r h2)

theorem mv_sum_ok : ∀ x : Fin 1024, 8 ≤ x.val →
    (mvSum x longMvBits 0 &&& 0xfff0 = 0 ↔ x.val &&& 0xfff0 = 0) ∧
    (x.val &&& 0xfff0 = 0 → mvSum x longMvBits 0 + 8 = x) ∧
    (x.val &&& 0xfff0 ≠ 0 → (if ((x.val >>> 3) &&& 1 == 1) = true then mvSum x longMvBits 0 + 8 else mvSum x longMvBits 0) = x) := by
  decide +kernel

theorem small_good : ∀ x : Fin 8, goodSymbol smallMvTree x = true := by decide +kernel

theorem parses_mvMagnitude (x : Nat) (p : Fin 19 → Prob) (hx : x < 1024) :
    ∃ bits, encMvMagnitude x p = some bits ∧ Parses (readMvMagnitude p) bits x := by
  unfold encMvMagnitude readMvMagnitude
  by_cases h8 : x < 8
  · rw [if_pos h8]
    obtain ⟨t, ht, hp⟩ := tree_parses (small_good ⟨x, h8⟩) (probs := smallMvProbs p) rfl
    refine ⟨(false, p 0) :: t, ?_, ?_⟩
    · simp only at ht; rw [ht]; rfl
    · exact Parses.bind (Parses.getBit false (p 0)) hp
  · rw [if_neg h8]
    obtain ⟨bits, hb⟩ := encMvBits_some x p longMvBits (by decide)
    rw [hb]
    have hs := mv_sum_ok ⟨x, hx⟩ (by simp only; omega)
    simp only at hs
    refine ⟨[(true, p 0)] ++ (bits ++ (if x &&& 0xfff0 ≠ 0 then [((x >>> 3) &&& 1 == 1, p 12)] else [])), rfl, ?_⟩
    refine Parses.bind (Parses.getBit true (p 0)) ?_
    rw [if_pos rfl]
    refine Parses.bind (parses_mvBits _ _ _ _ _ hb) ?_
    by_cases hz : x &&& 0xfff0 = 0
    · rw [if_pos (hs.1.mpr hz), if_neg (by simpa using hz), hs.2.1 hz]
      exact Parses.pure _
    · rw [if_neg (fun h => hz (hs.1.mp h)), if_pos hz]
      exact Parses.bindPure (Parses.getBit _ _) (hs.2.2 hz)

theorem parses_mvComponent (n : Int) (p : Fin 19 → Prob) (h1 : n % 2 = 0) (h2 : n.natAbs ≤ 2046) :
    ∃ bits, encMvComponent n p = some bits ∧ Parses (readMvComponent p) bits n := by
  obtain ⟨m, rfl⟩ : ∃ m, n = 2 * m := ⟨n / 2, by omega⟩
  have hm : (2 * m) >>> 1 = m := by
    rw [Int.shiftRight_eq_div_pow]; omega
  obtain ⟨mag, hmag, hp⟩ := parses_mvMagnitude m.natAbs p (by omega)
  refine ⟨mag ++ (if m.natAbs ≠ 0 then [(decide (m < 0), p 1)] else []), ?_, ?_⟩
  · unfold encMvComponent
    simp only [hm, hmag]; rfl
  · unfold readMvComponent
    refine Parses.bind hp ?_
    by_cases h0 : m.natAbs = 0
    · have : m = 0 := by omega
      subst this
      exact Parses.pure _
    · have hne : ¬ (m.natAbs <<< 1 = 0) := by rw [Nat.shiftLeft_eq]; omega
      rw [if_pos h0, if_neg hne]
      refine Parses.bindPure (Parses.getBit _ _) ?_
      rw [Nat.shiftLeft_eq]
      by_cases hn : m < 0
      · simp only [hn, decide_true, if_true]; omega
      · simp only [hn, decide_false]; rw [if_neg (by simp)]; omega

theorem parses_mv (v : MotionVector) (p : Fin 2 → Fin 19 → Prob) (h1 : v.x % 2 = 0) (h2 : v.x.natAbs ≤ 2046)
    (h3 : v.y % 2 = 0) (h4 : v.y.natAbs ≤ 2046) : ∃ bits, encMv v p = some bits ∧ Parses (readMv p) bits v := by
  obtain ⟨a, ha, pa⟩ := parses_mvComponent v.y (p 0) h3 h4
  obtain ⟨b, hb, pb⟩ := parses_mvComponent v.x (p 1) h1 h2
  refine ⟨a ++ b, ?_, ?_⟩
  · unfold encMv; rw [ha, hb]; rfl
  · exact Parses.bind pa (Parses.bindPure pb rfl)

theorem produces_mvBits (p : Fin 19 → Prob) : ∀ (l : List Nat) (acc : Nat), (∀ i ∈ l, i < 10) →
    Produces (readMvBits p l acc) (fun x => x ≤ acc + (l.map (2 ^ ·)).sum)
  | [], acc, _ => Produces.pure (by simp)
  | i :: l, acc, h => by
    have hi : 9 + i < 19 := by have := h i List.mem_cons_self; omega
    unfold readMvBits
    rw [liftM_bind (x := p ⟨9 + i, hi⟩) (by simp only [probAt, hi, dite_true])]
    refine Produces.bind (Produces.getBit _) fun b _ => ?_
    refine Produces.mono (produces_mvBits p l _ (fun j hj => h j (List.mem_cons_of_mem _ hj))) fun x hx => ?_
    have : b.toNat <<< i ≤ 2 ^ i := by
      rw [Nat.shiftLeft_eq]
      calc b.toNat * 2 ^ i ≤ 1 * 2 ^ i := Nat.mul_le_mul_right _ (Bool.toNat_le _)
        _ = 2 ^ i := by omega
    simp only [List.map_cons, List.sum_cons]
    omega

theorem produces_mvMagnitude (p : Fin 19 → Prob) : Produces (readMvMagnitude p) (fun x => x ≤ 1023) := by
  unfold readMvMagnitude
  refine Produces.bind (Produces.getBit _) fun long _ => ?_
  cases long
  · rw [if_neg (by decide)]
    have hg : goodTree smallMvTree [0, 1, 2, 3, 4, 5, 6, 7] = true := by decide +kernel
    refine Produces.mono (readTree_produces hg (by decide) (probs := smallMvProbs p) rfl) fun x hx => ?_
    simp at hx; omega
  · rw [if_pos rfl]
    refine Produces.bind (produces_mvBits p longMvBits 0 (by decide)) fun x hx => ?_
    have e : (longMvBits.map (2 ^ ·)).sum = 1015 := by decide
    rw [e] at hx
    split
    · exact Produces.pure (by omega)
    · refine Produces.bind (Produces.getBit _) fun b _ => Produces.pure ?_
      cases b
      · rw [if_neg (by decide)]; omega
      · rw [if_pos rfl]; omega

theorem produces_mvComponent (p : Fin 19 → Prob) :
    Produces (readMvComponent p) (fun n => n % 2 = 0 ∧ n.natAbs ≤ 2046) := by
  unfold readMvComponent
  refine Produces.bind (produces_mvMagnitude p) fun x hx => ?_
  rw [Nat.shiftLeft_eq]
  split
  · exact Produces.pure ⟨by decide, by decide⟩
  · refine Produces.bind (Produces.getBit _) fun s _ => Produces.pure ?_
    cases s
    · rw [if_neg (by decide)]; omega
    · rw [if_pos rfl]; omega

theorem produces_mv (p : Fin 2 → Fin 19 → Prob) : Produces (readMv p) (fun v =>
    (v.x % 2 = 0 ∧ v.x.natAbs ≤ 2046) ∧ v.y % 2 = 0 ∧ v.y.natAbs ≤ 2046) :=
  Produces.bind (produces_mvComponent _) fun _ hy => Produces.bind (produces_mvComponent _) fun _ hx => Produces.pure ⟨hx, hy⟩

end Alfalfa
