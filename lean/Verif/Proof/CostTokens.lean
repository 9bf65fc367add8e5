import Verif.Proof.Costs
import Verif.Proof.Tokens

/-! The costs of tokens are prices. -/

namespace Alfalfa

/-- The decisions after the end-of-block check that name a token. -/
def tokenPath : Fin 12 → List (Bool × Fin 11) :=
  ![[(false, 1)], [(true, 1), (false, 2)], [(true, 1), (true, 2), (false, 3), (false, 4)], [(true, 1), (true, 2), (false, 3), (true, 4), (false, 5)],
    [(true, 1), (true, 2), (false, 3), (true, 4), (true, 5)], [(true, 1), (true, 2), (true, 3), (false, 6), (false, 7)],
    [(true, 1), (true, 2), (true, 3), (false, 6), (true, 7)], [(true, 1), (true, 2), (true, 3), (true, 6), (false, 8), (false, 9)],
    [(true, 1), (true, 2), (true, 3), (true, 6), (false, 8), (true, 9)], [(true, 1), (true, 2), (true, 3), (true, 6), (true, 8), (false, 10)],
    [(true, 1), (true, 2), (true, 3), (true, 6), (true, 8), (true, 10)], []]

/-- The bits of a token (without those that tell the values of a category apart, and without the sign). -/
def tokenBits (prob : Fin 11 → Prob) (t : Fin 12) : Bits := (tokenPath t).map fun x => (x.1, prob x.2)

/-- The bits of a token with the check before it. -/
def checkedBits (afterZero : Bool) (prob : Fin 11 → Prob) (t : Fin 12) : Bits :=
  if t = eobToken then [(false, prob 0)] else (if afterZero then [] else [(true, prob 0)]) ++ tokenBits prob t

/-- Whether a row is for tokens after a zero. -/
def afterZeroRow (type : Fin 4) (band : Fin 8) (context : Fin 3) : Bool := decide (context = 0 ∧ band.val > (if type = 0 then 1 else 0))

theorem pathPrice_map (prob : Fin 11 → Prob) (l : List (Bool × Fin 11)) :
    pathPrice (List.ofFn prob) (l.map fun x => (x.1, x.2.val)) = price (l.map fun x => (x.1, prob x.2)) := by
  unfold pathPrice
  rw [List.map_map]
  refine congrArg price (List.map_congr_left fun x _ => ?_)
  show (x.1, (List.ofFn prob).getD x.2.val 0) = (x.1, prob x.2)
  rw [List.getD_eq_getElem?_getD, List.getElem?_ofFn, dif_pos x.2.isLt]
  rfl

theorem fillTokenCosts_row (probs : CoeffProbs) (type : Fin 4) (band : Fin 8) (context : Fin 3) {old : List Nat} (ho : old.length = 12) :
    ∃ row, fillTokenCosts probs type band context old = some row ∧ row.length = 12 ∧
      ∀ t : Fin 12, (afterZeroRow type band context = true → t ≠ eobToken) →
        row[t.val]? = some (price (checkedBits (afterZeroRow type band context) (probs type band context) t)) := by
  unfold fillTokenCosts
  generalize probs type band context = prob
  by_cases hz : context = 0 ∧ band.val > (if type = 0 then 1 else 0)
  · have haz : afterZeroRow type band context = true := decide_eq_true hz
    rw [if_pos hz, haz]
    have h1 : leaves coefTree 12 2 = some ((List.finRange 11).map fun t => (t.val, (tokenPath t.castSucc).map fun x => (x.1, x.2.val))) := by decide +kernel
    have h2 : Fine 11 12 9 ((List.finRange 11).map fun t => (t.val, (tokenPath t.castSucc).map fun x => (x.1, x.2.val))) := by decide +kernel
    refine ⟨_, computeCost_leaves h1 (by rw [List.length_ofFn, ho]; exact h2) (by decide), by rw [setLeaves_length, ho], fun t ht => ?_⟩
    rw [setLeaves_entry (by decide +kernel) t.val (by rw [ho]; exact t.isLt)]
    have h3 : ∀ t : Fin 12, t ≠ eobToken → ((List.finRange 11).map fun t : Fin 11 => (t.val, (tokenPath t.castSucc).map fun x => (x.1, x.2.val))).find? (fun x => x.1 == t.val) =
        some (t.val, (tokenPath t).map fun x => (x.1, x.2.val)) := by decide +kernel
    rw [h3 t (ht rfl)]
    show some (0 + pathPrice _ _) = _
    rw [pathPrice_map, Nat.zero_add]
    unfold checkedBits
    rw [if_neg (ht rfl)]
    rfl
  · have haz : afterZeroRow type band context = false := decide_eq_false hz
    rw [if_neg hz, haz]
    have h1 : leaves coefTree 12 0 = some ((11, [(false, 0)]) :: (List.finRange 11).map fun t => (t.val, (true, 0) :: (tokenPath t.castSucc).map fun x => (x.1, x.2.val))) := by
      decide +kernel
    have h2 : Fine 11 12 9 ((11, [(false, 0)]) :: (List.finRange 11).map fun t => (t.val, (true, 0) :: (tokenPath t.castSucc).map fun x => (x.1, x.2.val))) := by decide +kernel
    refine ⟨_, computeCost_leaves h1 (by rw [List.length_ofFn, ho]; exact h2) (by decide), by rw [setLeaves_length, ho], fun t _ => ?_⟩
    rw [setLeaves_entry (by decide +kernel) t.val (by rw [ho]; exact t.isLt)]
    have h3 : ∀ t : Fin 12, ((11, [(false, 0)]) :: (List.finRange 11).map fun t : Fin 11 => (t.val, (true, 0) :: (tokenPath t.castSucc).map fun x => (x.1, x.2.val))).find? (fun x => x.1 == t.val) =
        some (t.val, if t = eobToken then [(false, 0)] else (true, 0) :: (tokenPath t).map fun x => (x.1, x.2.val)) := by decide +kernel
    rw [h3 t]
    unfold checkedBits
    by_cases he : t = eobToken
    · rw [if_pos he, if_pos he]
      show some (0 + pathPrice _ (([(false, 0)] : List (Bool × Fin 11)).map fun x => (x.1, x.2.val))) = _
      rw [pathPrice_map, Nat.zero_add]
      rfl
    · rw [if_neg he, if_neg he]
      show some (0 + pathPrice _ (((true, 0) :: tokenPath t : List (Bool × Fin 11)).map fun x => (x.1, x.2.val))) = _
      rw [pathPrice_map, Nat.zero_add]
      rfl

/-! ### The bits of a coefficient -/

/-- The bits that tell the values of a category apart. -/
def categoryBits (v : Nat) : Bits :=
  if v ≤ 4 then [] else if v ≤ 6 then [(v == 6, 159)] else if v ≤ 10 then writeExtra tokenDecoder1.2 (v - 7) else if v ≤ 18 then writeExtra tokenDecoder2.2 (v - 11)
  else if v ≤ 34 then writeExtra tokenDecoder3.2 (v - 19) else if v ≤ 66 then writeExtra tokenDecoder4.2 (v - 35) else writeExtra tokenDecoder5.2 (v - 67)

theorem writeMagnitude_token (prob : Fin 11 → Prob) (c : Int) (h0 : c ≠ 0) (h : c.natAbs ≤ 2114) :
    ∃ m, writeMagnitude prob c.natAbs = some (m, prevTokenClass (tokenForCoeff c)) ∧ (true, prob 1) :: m = tokenBits prob (tokenForCoeff c) ++ categoryBits c.natAbs := by
  have u1 : upperLimit tokenDecoder1 = 11 := by decide
  have u2 : upperLimit tokenDecoder2 = 19 := by decide
  have u3 : upperLimit tokenDecoder3 = 35 := by decide
  have u4 : upperLimit tokenDecoder4 = 67 := by decide
  have u5 : upperLimit tokenDecoder5 = 2115 := by decide
  have b1 : tokenDecoder1.1 = 7 := rfl
  have b2 : tokenDecoder2.1 = 11 := rfl
  have b3 : tokenDecoder3.1 = 19 := rfl
  have b4 : tokenDecoder4.1 = 35 := rfl
  have b5 : tokenDecoder5.1 = 67 := rfl
  unfold writeMagnitude tokenForCoeff categoryBits tokenEncode
  have hv : c.natAbs ≠ 0 := by omega
  generalize c.natAbs = v at *
  rw [u1, u2, u3, u4, u5, b1, b2, b3, b4, b5]
  dsimp only
  rw [if_neg hv]
  by_cases v1 : v = 1
  · subst v1; exact ⟨_, rfl, rfl⟩
  by_cases v2 : v = 2
  · subst v2; exact ⟨_, rfl, rfl⟩
  by_cases v3 : v = 3
  · subst v3; exact ⟨_, rfl, rfl⟩
  by_cases v4 : v = 4
  · subst v4; exact ⟨_, rfl, rfl⟩
  rw [if_neg v1, if_neg v2, if_neg v3, if_neg v4, if_neg v1, if_neg v2, if_neg v3, if_neg v4, if_neg (show ¬ v ≤ 4 by omega)]
  by_cases v5 : v ≤ 6
  · rw [if_pos (show v < 7 by omega), if_pos v5, if_pos v5]; exact ⟨_, rfl, rfl⟩
  rw [if_neg (show ¬ v < 7 by omega), if_neg v5, if_neg v5]
  by_cases v6 : v ≤ 10
  · rw [if_pos (show v < 11 by omega), if_pos v6, if_pos v6]; simp only [if_neg (show ¬ v < 7 by omega)]; exact ⟨_, rfl, rfl⟩
  rw [if_neg (show ¬ v < 11 by omega), if_neg v6, if_neg v6]
  by_cases v7 : v ≤ 18
  · rw [if_pos (show v < 19 by omega), if_pos v7, if_pos v7]; simp only [if_neg (show ¬ v < 11 by omega)]; exact ⟨_, rfl, rfl⟩
  rw [if_neg (show ¬ v < 19 by omega), if_neg v7, if_neg v7]
  by_cases v8 : v ≤ 34
  · rw [if_pos (show v < 35 by omega), if_pos v8, if_pos v8]; simp only [if_neg (show ¬ v < 19 by omega)]; exact ⟨_, rfl, rfl⟩
  rw [if_neg (show ¬ v < 35 by omega), if_neg v8, if_neg v8]
  by_cases v9 : v ≤ 66
  · rw [if_pos (show v < 67 by omega), if_pos v9, if_pos v9]; simp only [if_neg (show ¬ v < 35 by omega)]; exact ⟨_, rfl, rfl⟩
  rw [if_neg (show ¬ v < 67 by omega), if_neg v9, if_neg v9, if_pos (show v < 2115 by omega)]
  simp only [if_neg (show ¬ v < 67 by omega)]
  exact ⟨_, rfl, rfl⟩

/-- The price of the bits of a coefficient that are not its token's, by its place in the table. -/
def otherPrice (k : Nat) : Nat := price (categoryBits ((k : Int) - 2048).natAbs ++ if k = 2048 then [] else [(decide (k < 2048), 128)])

theorem dctValueCost0_all : dctValueCost0 = (List.range' 0 256).map otherPrice := by decide +kernel
theorem dctValueCost1_all : dctValueCost1 = (List.range' 256 256).map otherPrice := by decide +kernel
theorem dctValueCost2_all : dctValueCost2 = (List.range' 512 256).map otherPrice := by decide +kernel
theorem dctValueCost3_all : dctValueCost3 = (List.range' 768 256).map otherPrice := by decide +kernel
theorem dctValueCost4_all : dctValueCost4 = (List.range' 1024 256).map otherPrice := by decide +kernel
theorem dctValueCost5_all : dctValueCost5 = (List.range' 1280 256).map otherPrice := by decide +kernel
theorem dctValueCost6_all : dctValueCost6 = (List.range' 1536 256).map otherPrice := by decide +kernel
theorem dctValueCost7_all : dctValueCost7 = (List.range' 1792 256).map otherPrice := by decide +kernel
theorem dctValueCost8_all : dctValueCost8 = (List.range' 2048 256).map otherPrice := by decide +kernel
theorem dctValueCost9_all : dctValueCost9 = (List.range' 2304 256).map otherPrice := by decide +kernel
theorem dctValueCost10_all : dctValueCost10 = (List.range' 2560 256).map otherPrice := by decide +kernel
theorem dctValueCost11_all : dctValueCost11 = (List.range' 2816 256).map otherPrice := by decide +kernel
theorem dctValueCost12_all : dctValueCost12 = (List.range' 3072 256).map otherPrice := by decide +kernel
theorem dctValueCost13_all : dctValueCost13 = (List.range' 3328 256).map otherPrice := by decide +kernel
theorem dctValueCost14_all : dctValueCost14 = (List.range' 3584 256).map otherPrice := by decide +kernel
theorem dctValueCost15_all : dctValueCost15 = (List.range' 3840 256).map otherPrice := by decide +kernel

/-- The table of the other bits, all of it. -/
theorem dctValueCost_all : dctValueCost = (List.range' 0 4096).map otherPrice := by
  unfold dctValueCost
  rw [dctValueCost0_all, dctValueCost1_all, dctValueCost2_all, dctValueCost3_all, dctValueCost4_all, dctValueCost5_all, dctValueCost6_all, dctValueCost7_all, dctValueCost8_all, dctValueCost9_all, dctValueCost10_all, dctValueCost11_all, dctValueCost12_all, dctValueCost13_all, dctValueCost14_all, dctValueCost15_all]
  simp only [List.flatten_cons, List.flatten_nil, List.append_nil, ← List.map_append]
  refine congrArg (List.map otherPrice) ?_
  have step (s n : Nat) : List.range' s (256 + n) = List.range' s 256 ++ List.range' (s + 256) n := List.range'_append_1.symm
  have h0 : List.range' 0 4096 = List.range' 0 256 ++ List.range' 256 3840 := step 0 3840
  have h1 : List.range' 256 3840 = List.range' 256 256 ++ List.range' 512 3584 := step 256 3584
  have h2 : List.range' 512 3584 = List.range' 512 256 ++ List.range' 768 3328 := step 512 3328
  have h3 : List.range' 768 3328 = List.range' 768 256 ++ List.range' 1024 3072 := step 768 3072
  have h4 : List.range' 1024 3072 = List.range' 1024 256 ++ List.range' 1280 2816 := step 1024 2816
  have h5 : List.range' 1280 2816 = List.range' 1280 256 ++ List.range' 1536 2560 := step 1280 2560
  have h6 : List.range' 1536 2560 = List.range' 1536 256 ++ List.range' 1792 2304 := step 1536 2304
  have h7 : List.range' 1792 2304 = List.range' 1792 256 ++ List.range' 2048 2048 := step 1792 2048
  have h8 : List.range' 2048 2048 = List.range' 2048 256 ++ List.range' 2304 1792 := step 2048 1792
  have h9 : List.range' 2304 1792 = List.range' 2304 256 ++ List.range' 2560 1536 := step 2304 1536
  have h10 : List.range' 2560 1536 = List.range' 2560 256 ++ List.range' 2816 1280 := step 2560 1280
  have h11 : List.range' 2816 1280 = List.range' 2816 256 ++ List.range' 3072 1024 := step 2816 1024
  have h12 : List.range' 3072 1024 = List.range' 3072 256 ++ List.range' 3328 768 := step 3072 768
  have h13 : List.range' 3328 768 = List.range' 3328 256 ++ List.range' 3584 512 := step 3328 512
  have h14 : List.range' 3584 512 = List.range' 3584 256 ++ List.range' 3840 256 := step 3584 256
  rw [h0, h1, h2, h3, h4, h5, h6, h7, h8, h9, h10, h11, h12, h13, h14]

theorem coeffBaseCost_price (c : Int) (h : -2048 ≤ c ∧ c ≤ 2047) :
    coeffBaseCost c = some (price (categoryBits c.natAbs ++ if c = 0 then [] else [(decide (c < 0), 128)])) := by
  unfold coeffBaseCost
  rw [if_pos h, dctValueCost_all, List.getElem?_map, List.getElem?_range' (by omega)]
  have h1 : (((2048 + c).toNat : Nat) : Int) - 2048 = c := by omega
  have h2 : ((2048 + c).toNat = 2048) = (c = 0) := propext (by omega)
  have h3 : decide ((2048 + c).toNat < 2048) = decide (c < 0) := decide_eq_decide.2 (by omega)
  rw [Option.map_some, Nat.one_mul, Nat.zero_add]
  unfold otherPrice
  simp only [h1, h2, h3]

end Alfalfa
