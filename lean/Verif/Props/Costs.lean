import Verif.Proof.CostTrellis
import Verif.Props.Trellis
import Verif.Model.ProbTables

/-! C82: what the encoder takes symbols to cost is what the bits cost that are written for them. -/

namespace Alfalfa

/-! ### Bits -/

/-- **C82** (bits): the price of a zero whose probability is `p / 256` is its information, `256 * log2 (256 / p)`, in units of 1/256 of a bit, rounded down by less
than two units.  (Written without logarithms: `2 ^ (price / 256) < 256 / p < 2 ^ ((price + 2) / 256)`.)  A one is priced as a zero of the probability `255 - p`; it
has the probability `256 - p`. -/
theorem C82_bits (p : Prob) (hp : p ≠ 0) : 2 ^ bitPrice (false, p) * p.toNat ^ 256 < 256 ^ 256 ∧ 256 ^ 256 < 2 ^ (bitPrice (false, p) + 2) * p.toNat ^ 256 ∧
    bitPrice (true, p) = bitPrice (false, 255 - p) := by
  have key : ∀ k : Fin 256, k.val ≠ 0 → 2 ^ probCost.getD k.val 0 * k.val ^ 256 < 256 ^ 256 ∧ 256 ^ 256 < 2 ^ (probCost.getD k.val 0 + 2) * k.val ^ 256 := by
    decide +kernel
  obtain ⟨h1, h2⟩ := key ⟨p.toNat, p.toNat_lt⟩ (fun h => hp (UInt8.toNat_inj.1 h))
  exact ⟨h1, h2, by rw [← costBit_price, ← costBit_price]; rfl⟩

/-! ### Modes -/

theorem tree_prices {tree : List Int} (ht : tree ∈ [kfYModeTree, yModeTree, uvModeTree, bModeTree, mvRefTree]) {probs : List Prob}
    (hp : tree.length = 2 * probs.length) {old : List Nat} (ho : ∀ e ∈ tree, (-e).toNat < old.length) :
    ∃ costs, fromRoot probs tree old = some costs ∧ costs.length = old.length ∧
      (∀ v bits, writeTree tree v probs = some bits → costs[v]? = some (price bits)) ∧ ∀ v : Nat, -(v : Int) ∉ tree → costs[v]? = old[v]? := by
  -- the leaves
  obtain ⟨l, h1, h2, h3, h4, h5, h6⟩ : ∃ l, leaves tree tree.length 0 = some l ∧ (l.map Prod.fst).Nodup ∧ (∀ x ∈ l, x.2.length ≤ 9 ∧ ∀ y ∈ x.2, y.2 < tree.length / 2) ∧
      (∀ x ∈ l, -(x.1 : Int) ∈ tree) ∧ (∀ v : Nat, v < 10 → treePath tree v = (l.find? fun x => x.1 == v).map Prod.snd) ∧ ∀ e ∈ tree, (-e).toNat < 10 := by
    simp only [List.mem_cons, List.not_mem_nil, or_false] at ht
    rcases ht with rfl | rfl | rfl | rfl | rfl <;> exact ⟨_, rfl, by decide +kernel⟩
  have fine : Fine probs.length old.length 9 l := fun x hx =>
    ⟨by have := ho _ (h4 x hx); rwa [Int.neg_neg, Int.toNat_natCast] at this, (h3 x hx).1, fun y hy => by have := (h3 x hx).2 y hy; omega⟩
  refine ⟨_, computeCost_leaves h1 fine (by decide), setLeaves_length .., fun v bits hw => ?_, fun v hv => ?_⟩
  · unfold writeTree at hw
    obtain ⟨path, g1, g2⟩ := Option.bind_eq_some_iff.1 hw
    have hv : v < 10 := by
      unfold treePath at g1
      obtain ⟨i, k1, -⟩ := Option.bind_eq_some_iff.1 g1
      unfold valueToIndex at k1
      have k2 := List.find?_some k1
      have : tree[i]? = some (-(v : Int)) := by simpa using k2
      have := h6 _ (List.mem_of_getElem? this)
      rwa [Int.neg_neg, Int.toNat_natCast] at this
    rw [h5 v hv] at g1
    cases hf : l.find? (fun x => x.1 == v) with
    | none => rw [hf] at g1; exact nomatch g1
    | some x =>
      rw [hf] at g1
      cases g1
      have hx := List.mem_of_find?_eq_some hf
      have e : x.1 = v := by simpa using List.find?_some hf
      rw [setLeaves_entry h2 v (by have := ho _ (h4 x hx); rw [Int.neg_neg, Int.toNat_natCast] at this; omega), hf]
      show some (0 + pathPrice probs x.2) = _
      rw [Nat.zero_add]
      unfold pathPrice
      have hall := (fine x hx).2.2
      generalize x.2 = path at hall g2
      have : bits = path.map fun x => (x.1, probs.getD x.2 0) := by
        clear hf hx h3 hw
        induction path generalizing bits with
        | nil => rw [List.mapM_nil] at g2; cases g2; rfl
        | cons y path ih =>
          rw [List.mapM_cons] at g2
          obtain ⟨b, b1, g2⟩ := Option.bind_eq_some_iff.1 g2
          obtain ⟨r, r1, g2⟩ := Option.bind_eq_some_iff.1 g2
          cases g2
          obtain ⟨q, q1, q2⟩ := Option.bind_eq_some_iff.1 b1
          cases q2
          rw [List.map_cons, ← ih r (fun y hy => hall y (List.mem_cons_of_mem _ hy)) r1, List.getD_eq_getElem?_getD, q1]
          rfl
      rw [this]
  · by_cases hb : v < old.length
    · have : l.find? (fun x => x.1 == v) = none := List.find?_eq_none.2 fun x hx he => hv (by
        have : x.1 = v := by simpa using he
        rw [← this]
        exact h4 x hx)
      rw [setLeaves_entry h2 v hb, this, List.getD_eq_getElem?_getD, List.getElem?_eq_getElem hb]
      rfl
    · rw [List.getElem?_eq_none (by rw [setLeaves_length]; omega), List.getElem?_eq_none (by omega)]

theorem mapM_each {α β : Type} {f : α → Option β} {P : α → β → Prop} : ∀ {l : List α}, (∀ x ∈ l, ∃ y, f x = some y ∧ P x y) →
    ∃ ys, l.mapM f = some ys ∧ ∀ (k : Nat) (x : α), l[k]? = some x → ∃ y, ys[k]? = some y ∧ P x y
  | [], _ => ⟨[], rfl, fun k x h => by simp at h⟩
  | a :: l, h => by
    obtain ⟨y, e1, e2⟩ := h a (List.mem_cons_self ..)
    obtain ⟨ys, g1, g2⟩ := mapM_each fun x hx => h x (List.mem_cons_of_mem _ hx)
    refine ⟨y :: ys, by rw [List.mapM_cons, e1, g1]; rfl, fun k x hk => ?_⟩
    cases k with
    | zero => cases hk; exact ⟨y, rfl, e2⟩
    | succ k => exact g2 k x hk

/-- **C82** (modes): in the tables as they are filled, the entry of each mode is the price of the bits that the serializer writes for it: with the fixed probabilities
for the modes of key frames, and with the default probabilities for the intra modes of inter frames; and, after the entries of the modes with vectors have been filled
for the probabilities of a macroblock, for these too, while the others stay. -/
theorem C82_modes : ∃ costs, ModeCosts.zero.fill = some costs ∧
    (∀ mode bits, writeTree kfYModeTree mode kfYModeProbs = some bits → costs.keyMode[mode]? = some (price bits)) ∧
    (∀ mode bits, writeTree uvModeTree mode kfUvModeProbs = some bits → costs.keyUv[mode]? = some (price bits)) ∧
    (∀ mode bits, writeTree uvModeTree mode (List.ofFn uvModeDefaultProbs) = some bits → costs.interUv[mode]? = some (price bits)) ∧
    (∀ (above left : Nat) (probs : List Prob), kfBModeProbs above left = some probs → ∃ (rows : List (List Nat)) (row : List Nat), costs.blockMode[above]? = some rows ∧
      rows[left]? = some row ∧ ∀ mode bits, writeTree bModeTree mode probs = some bits → row[mode]? = some (price bits)) ∧
    (∀ mode bits, writeTree yModeTree mode (List.ofFn yModeDefaultProbs) = some bits → costs.interMode[mode]? = some (price bits)) ∧
    ∀ probs : List Prob, probs.length = 4 → ∃ costs', costs.fillVectorModes probs = some costs' ∧ costs' = { costs with interMode := costs'.interMode } ∧
      (∀ mode bits, writeTree yModeTree mode (List.ofFn yModeDefaultProbs) = some bits → costs'.interMode[mode]? = some (price bits)) ∧
      ∀ mode bits, writeTree mvRefTree mode probs = some bits → costs'.interMode[mode]? = some (price bits) := by
  obtain ⟨ky, a1, a2, a3, a4⟩ := tree_prices (tree := kfYModeTree) (by decide) (probs := kfYModeProbs) (by decide) (old := List.replicate 10 0) (by decide)
  obtain ⟨iy, b1, b2, b3, b4⟩ := tree_prices (tree := yModeTree) (by decide) (probs := List.ofFn yModeDefaultProbs) (by decide) (old := List.replicate 10 0) (by decide)
  obtain ⟨ku, c1, c2, c3, c4⟩ := tree_prices (tree := uvModeTree) (by decide) (probs := kfUvModeProbs) (by decide) (old := List.replicate 4 0) (by decide)
  obtain ⟨iu, d1, d2, d3, d4⟩ := tree_prices (tree := uvModeTree) (by decide) (probs := List.ofFn uvModeDefaultProbs) (by decide) (old := List.replicate 4 0) (by decide)
  have hb : ∀ i j : Nat, i < 10 → j < 10 → ∃ probs costs, kfBModeProbs i j = some probs ∧ fromRoot probs bModeTree (List.replicate 10 0) = some costs ∧
      ∀ v bits, writeTree bModeTree v probs = some bits → costs[v]? = some (price bits) := by
    intro i j hi hj
    have : ∀ i j : Fin 10, (kfBModeProbs i.val j.val).any (fun p => decide (bModeTree.length = 2 * p.length)) := by decide +kernel
    have := this ⟨i, hi⟩ ⟨j, hj⟩
    dsimp only at this
    cases hk : kfBModeProbs i j with
    | none => rw [hk] at this; exact nomatch this
    | some probs =>
      rw [hk] at this
      obtain ⟨costs, e1, -, e3, -⟩ := tree_prices (tree := bModeTree) (by decide) (probs := probs) (by simpa using this) (old := List.replicate 10 0) (by decide)
      exact ⟨probs, costs, rfl, e1, e3⟩
  have rep : ∀ {β : Type} (x : β) (k : Nat), k < 10 → (List.replicate 10 x)[k]? = some x := fun x k hk => by rw [List.getElem?_replicate, if_pos hk]
  obtain ⟨bm, e1, e2⟩ := mapM_each (l := List.range 10) (f := fun i => (List.range 10).mapM fun j => do
      let probs ← kfBModeProbs i j
      let row ← ModeCosts.zero.blockMode[i]?
      let row ← row[j]?
      fromRoot probs bModeTree row)
    (P := fun i rows => ∀ j, j < 10 → ∃ probs row, kfBModeProbs i j = some probs ∧ rows[j]? = some row ∧
      ∀ mode bits, writeTree bModeTree mode probs = some bits → row[mode]? = some (price bits)) (fun i hi => by
        have hi := List.mem_range.1 hi
        obtain ⟨rows, r1, r2⟩ := mapM_each (l := List.range 10) (f := fun j => do
            let probs ← kfBModeProbs i j
            let row ← ModeCosts.zero.blockMode[i]?
            let row ← row[j]?
            fromRoot probs bModeTree row)
          (P := fun j row => ∃ probs, kfBModeProbs i j = some probs ∧ ∀ mode bits, writeTree bModeTree mode probs = some bits → row[mode]? = some (price bits))
          (fun j hj => by
            have hj := List.mem_range.1 hj
            obtain ⟨probs, costs, k1, k2, k3⟩ := hb i j hi hj
            refine ⟨costs, ?_, probs, k1, k3⟩
            rw [k1]
            show ((List.replicate 10 (List.replicate 10 (List.replicate 10 0)))[i]?.bind fun row => row[j]?.bind fun row => fromRoot probs bModeTree row) = _
            rw [rep _ i hi, Option.bind_some, rep _ j hj, Option.bind_some, k2])
        refine ⟨rows, r1, fun j hj => ?_⟩
        obtain ⟨row, q1, probs, q2, q3⟩ := r2 j j (by rw [List.getElem?_range hj])
        exact ⟨probs, row, q2, q1, q3⟩)
  refine ⟨{ keyMode := ky, interMode := iy, blockMode := bm, keyUv := ku, interUv := iu }, ?_, a3, c3, d3, ?_, b3, ?_⟩
  · unfold ModeCosts.fill
    rw [e1]
    show (do
      let keyMode ← fromRoot kfYModeProbs kfYModeTree (List.replicate 10 0)
      let interMode ← fromRoot (List.ofFn yModeDefaultProbs) yModeTree (List.replicate 10 0)
      let keyUv ← fromRoot kfUvModeProbs uvModeTree (List.replicate 4 0)
      let interUv ← fromRoot (List.ofFn uvModeDefaultProbs) uvModeTree (List.replicate 4 0)
      pure { keyMode, interMode, blockMode := bm, keyUv, interUv } : Option ModeCosts) = _
    rw [a1, b1, c1, d1]
    rfl
  · intro above left probs hk
    obtain ⟨hl, ha⟩ : left < 10 ∧ above < 10 := by
      unfold kfBModeProbs at hk
      split at hk
      · refine ⟨by assumption, ?_⟩
        rcases above with _ | _ | _ | _ | _ | _ | _ | _ | _ | _ | n
        any_goals decide
        exact nomatch hk
      · exact nomatch hk
    obtain ⟨rows, q1, q2⟩ := e2 above above (by rw [List.getElem?_range ha])
    obtain ⟨probs', row, w1, w2, w3⟩ := q2 left hl
    rw [hk] at w1
    cases w1
    exact ⟨rows, row, q1, w2, w3⟩
  · intro probs hp
    obtain ⟨v, f1, f2, f3, f4⟩ := tree_prices (tree := mvRefTree) (by decide) (probs := probs) (by rw [hp]; decide) (old := iy) (by rw [b2]; decide)
    refine ⟨_, by unfold ModeCosts.fillVectorModes; dsimp only; rw [f1]; rfl, rfl, fun mode bits hm => ?_, f3⟩
    show v[mode]? = _
    have hlt : mode < 5 := by
      unfold writeTree at hm
      obtain ⟨path, g1, -⟩ := Option.bind_eq_some_iff.1 hm
      unfold treePath at g1
      obtain ⟨i, k1, -⟩ := Option.bind_eq_some_iff.1 g1
      unfold valueToIndex at k1
      have : yModeTree[i]? = some (-(mode : Int)) := by simpa using List.find?_some k1
      have h5 : ∀ e ∈ yModeTree, (-e).toNat < 5 := by decide
      have := h5 _ (List.mem_of_getElem? this)
      rwa [Int.neg_neg, Int.toNat_natCast] at this
    rw [f4 mode (by have : ∀ m : Fin 5, -(m.val : Int) ∉ mvRefTree := by decide
                    exact this ⟨mode, hlt⟩), b3 mode bits hm]

/-! ### Vectors -/

theorem smallTree_price (a b c d e f g : Prob) (x : Nat) (hx : x < 8) :
    ∃ bits, writeTree smallMvTree x [a, b, c, d, e, f, g] = some bits ∧ treeCost x 3 smallMvTree [a, b, c, d, e, f, g] = some (price bits) := by
  have key : ∀ (r0 r1 r2 : Bool × Prob), ((((0 + bitPrice r0) % 2 ^ 16 + bitPrice r1) % 2 ^ 16) + bitPrice r2) % 2 ^ 16 = price [r0, r1, r2] := by
    intro r0 r1 r2
    have h0 := bitPrice_le r0
    have h1 := bitPrice_le r1
    have h2 := bitPrice_le r2
    rw [price_cons, price_cons, price_cons, price_nil]
    omega
  interval_cases x
  · exact ⟨[(false, a), (false, b), (false, c)], rfl, by rw [← key, ← costBit_price, ← costBit_price, ← costBit_price]; rfl⟩
  · exact ⟨[(false, a), (false, b), (true, c)], rfl, by rw [← key, ← costBit_price, ← costBit_price, ← costBit_price]; rfl⟩
  · exact ⟨[(false, a), (true, b), (false, d)], rfl, by rw [← key, ← costBit_price, ← costBit_price, ← costBit_price]; rfl⟩
  · exact ⟨[(false, a), (true, b), (true, d)], rfl, by rw [← key, ← costBit_price, ← costBit_price, ← costBit_price]; rfl⟩
  · exact ⟨[(true, a), (false, e), (false, f)], rfl, by rw [← key, ← costBit_price, ← costBit_price, ← costBit_price]; rfl⟩
  · exact ⟨[(true, a), (false, e), (true, f)], rfl, by rw [← key, ← costBit_price, ← costBit_price, ← costBit_price]; rfl⟩
  · exact ⟨[(true, a), (true, e), (false, g)], rfl, by rw [← key, ← costBit_price, ← costBit_price, ← costBit_price]; rfl⟩
  · exact ⟨[(true, a), (true, e), (true, g)], rfl, by rw [← key, ← costBit_price, ← costBit_price, ← costBit_price]; rfl⟩

theorem longMvCost_price (p : Fin 19 → Prob) (x : Nat) : ∀ (l : List Nat), (∀ i ∈ l, i < 10) → ∃ bits, encMvBits x p l = some bits ∧ longMvCost p x l = some (price bits)
  | [], _ => ⟨[], rfl, rfl⟩
  | i :: l, h => by
    obtain ⟨bits, e1, e2⟩ := longMvCost_price p x l fun j hj => h j (List.mem_cons_of_mem _ hj)
    have hi : 9 + i < 19 := by have := h i (List.mem_cons_self ..); omega
    refine ⟨(x >>> i &&& 1 == 1, p ⟨9 + i, hi⟩) :: bits, ?_, ?_⟩
    · unfold encMvBits at e1 ⊢
      rw [List.mapM_cons, e1]
      unfold probAt
      rw [dif_pos hi]
      rfl
    · rw [longMvCost, e2]
      unfold probAt
      rw [dif_pos hi, price_cons, ← costBit_price]
      rfl

theorem mvComponentCost_price (p : Fin 19 → Prob) (n : Nat) : ∃ bits, encMvMagnitude n p = some bits ∧ mvComponentCost (2 * n) p = some (price bits) := by
  have h2 : (2 * n) >>> 1 = n := by rw [Nat.shiftRight_eq_div_pow]; omega
  unfold encMvMagnitude mvComponentCost
  dsimp only
  rw [h2]
  by_cases hx : n < 8
  · rw [if_pos hx, if_pos hx]
    obtain ⟨bits, e1, e2⟩ := smallTree_price (p 2) (p 3) (p 4) (p 5) (p 6) (p 7) (p 8) n hx
    have e1 : writeTree smallMvTree n (smallMvProbs p) = some bits := e1
    have e2 : treeCost n 3 smallMvTree (smallMvProbs p) = some (price bits) := e2
    rw [e1, e2]
    refine ⟨_, rfl, ?_⟩
    rw [price_cons, ← costZero_price]
    rfl
  · rw [if_neg hx, if_neg hx]
    obtain ⟨a, a1, a2⟩ := longMvCost_price p n [0, 1, 2] (by decide)
    obtain ⟨b, b1, b2⟩ := longMvCost_price p n [9, 8, 7, 6, 5, 4] (by decide)
    have e : encMvBits n p longMvBits = some (a ++ b) := by
      unfold encMvBits at a1 b1 ⊢
      show List.mapM _ ([0, 1, 2] ++ [9, 8, 7, 6, 5, 4]) = _
      rw [List.mapM_append, a1, b1]
      rfl
    rw [e, a2, b2]
    refine ⟨_, rfl, ?_⟩
    show some _ = some _
    rw [List.cons_append, price_cons, price_append, price_append, ← costOne_price]
    by_cases hy : n &&& 0xfff0 ≠ 0
    · rw [if_pos hy, if_pos hy, price_cons, price_nil, ← costBit_price]
      congr 1
      omega
    · rw [if_neg hy, if_neg hy, price_nil]
      congr 1
      omega

/-- **C82** (vectors): the entry for a component of a difference of vectors (which are even, and here not longer than the table) is the price of the bits that are
written for it, whatever the probabilities are. -/
theorem C82_vectors (p : Fin 19 → Prob) (negative : Bool) : ∃ table, mvComponentCosts p negative = some table ∧ ∀ n : Nat, n < 512 → (negative = true → n ≠ 0) →
    ∃ bits, encMvComponent (if negative then -(2 * n : Int) else 2 * n) p = some bits ∧ table[2 * n]? = some (price bits) := by
  have odd : ∀ n : Nat, mvComponentCost (2 * n + 1) p = mvComponentCost (2 * n) p := by
    intro n
    have h1 : (2 * n) >>> 1 = n := by rw [Nat.shiftRight_eq_div_pow]; omega
    have h2 : (2 * n + 1) >>> 1 = n := by rw [Nat.shiftRight_eq_div_pow]; omega
    unfold mvComponentCost
    rw [h1, h2]
  obtain ⟨table, e1, e2⟩ := mapM_each (l := List.range 1024) (f := fun i => do
      let c ← mvComponentCost i p
      pure (if i = 0 then c else c + if negative then costOne (p 1) else costZero (p 1)))
    (P := fun i y => ∀ n bits, i = 2 * n → encMvMagnitude n p = some bits → y = price bits + if n = 0 then 0 else bitPrice (negative, p 1)) (fun i _ => by
      obtain ⟨m, hm⟩ : ∃ m, mvComponentCost i p = some m := by
        obtain ⟨bits, -, h⟩ := mvComponentCost_price p (i / 2)
        rcases Nat.mod_two_eq_zero_or_one i with h2 | h2
        · exact ⟨_, (by rw [show i = 2 * (i / 2) by omega]; exact h)⟩
        · exact ⟨_, (by rw [show i = 2 * (i / 2) + 1 by omega, odd]; exact h)⟩
      rw [hm]
      refine ⟨_, rfl, fun n bits hi hb => ?_⟩
      obtain ⟨bits', b1, b2⟩ := mvComponentCost_price p n
      rw [hb] at b1
      cases b1
      subst hi
      rw [hm] at b2
      cases b2
      by_cases hn : n = 0
      · rw [if_pos (by omega), if_pos hn]; rfl
      · rw [if_neg (by omega), if_neg hn]
        cases negative
        · rw [← costZero_price]; rfl
        · rw [← costOne_price]; rfl)
  refine ⟨table, e1, fun n hn hneg => ?_⟩
  obtain ⟨y, y1, y2⟩ := e2 (2 * n) (2 * n) (by rw [List.getElem?_range (by omega)])
  obtain ⟨bits, b1, -⟩ := mvComponentCost_price p n
  have hshift : ((if negative then -(2 * n : Int) else 2 * n) : Int) >>> 1 = if negative then -(n : Int) else n := by
    rw [Int.shiftRight_eq_div_pow]
    cases negative
    · show (2 * n : Int) / 2 = n
      omega
    · show (-(2 * n) : Int) / 2 = -n
      omega
  have habs : (if negative then -(n : Int) else n).natAbs = n := by cases negative <;> simp
  refine ⟨bits ++ (if n ≠ 0 then [(negative, p 1)] else []), ?_, ?_⟩
  · unfold encMvComponent
    dsimp only
    rw [hshift, habs, b1]
    refine congrArg (fun t => some (bits ++ t)) ?_
    by_cases h0 : n ≠ 0
    · rw [if_pos h0, if_pos h0]
      have : decide ((if negative then -(n : Int) else n) < 0) = negative := by
        cases negative
        · exact decide_eq_false (by show ¬ (n : Int) < 0; omega)
        · exact decide_eq_true (by show -(n : Int) < 0; omega)
      rw [this]
    · rw [if_neg h0, if_neg h0]
  · rw [y1, y2 n bits rfl b1, price_append]
    by_cases h0 : n = 0
    · rw [if_pos h0, if_neg (by omega)]; rfl
    · rw [if_neg h0, if_pos h0, price_cons, price_nil]; rfl

/-! ### Blocks -/

/-- The rows of token costs of a type of block can be filled from any probabilities. -/
theorem rowsOf_exists (probs : CoeffProbs) (type : BlockType) : ∃ token, RowsOf probs type token := by
  refine ⟨fun band ctx => (fillTokenCosts probs type.index band ctx (List.replicate 12 0)).getD [], fun band ctx => ?_⟩
  obtain ⟨row, e, -⟩ := fillTokenCosts_row probs type.index band ctx (old := List.replicate 12 0) rfl
  show _ = some ((fillTokenCosts probs type.index band ctx (List.replicate 12 0)).getD [])
  rw [e]
  rfl

/-- **C82** (blocks): for all probabilities, with the rows filled from them, whatever the neighbours are and whatever the coefficients are (in the range of the table):
the cost of the block is the price of the bits that the serializer writes for it with these probabilities. -/
theorem C82_block {probs : CoeffProbs} {type : BlockType} {token : Fin 8 → Fin 3 → List Nat} (h : RowsOf probs type token) (above left : Option Bool) (blk : Block)
    (hc : ∀ i, -2048 ≤ blk.coeffs i ∧ blk.coeffs i ≤ 2047) :
    ∃ bits, serializeTokens probs type above left blk = some bits ∧ blockCost token type above left blk.coeffs = some (price bits) :=
  ⟨_, serializeTokens_from probs type above left blk (fun i _ => by have := hc (zigzag i); omega), blockCost_from h above left blk.coeffs (fun i _ => hc _)⟩

/-- A block with the default probabilities: 3, 0, -7, 0, 0, 1 and then nothing. -/
example : ∃ token, RowsOf coeffDefaultProbs .uv token ∧
    blockCost token .uv (some true) none (fun i => if i = 0 then 3 else if i = 4 then -7 else if i = 2 then 1 else 0) = some 7853 := by
  obtain ⟨token, h⟩ := rowsOf_exists coeffDefaultProbs .uv
  refine ⟨token, h, ?_⟩
  have e : token = fun band ctx => (fillTokenCosts coeffDefaultProbs 2 band ctx (List.replicate 12 0)).getD [] := by
    funext band ctx
    rw [show fillTokenCosts coeffDefaultProbs 2 band ctx (List.replicate 12 0) = _ from h band ctx]
    rfl
  rw [e]
  decide +kernel

/-! ### The search -/

theorem places_take : ∀ (type : BlockType) (len : Fin 17) (m : Fin 17), m.val ≤ ((indicesFrom type.first).filter (fun i => decide (i.val < len.val))).length →
    ((indicesFrom type.first).filter (fun i => decide (i.val < len.val))).take (m.val + 1) =
      (indicesFrom type.first).filter (fun i => decide (i.val < len.val ∧ i.val ≤ type.first + m.val)) := by
  intro type; cases type <;> decide +kernel

theorem places_last : ∀ (type : BlockType) (len : Fin 17) (m : Fin 17), m.val ≤ ((indicesFrom type.first).filter (fun i => decide (i.val < len.val))).length →
    m.val = 0 ∨ (((indicesFrom type.first).filter (fun i => decide (i.val < len.val))).take m.val).getLast?.map (fun i => i.val + 1) = some (type.first + m.val) := by
  intro type; cases type <;> decide +kernel

theorem places_drop : ∀ (type : BlockType) (m : Fin 17), ∀ i ∈ indicesFrom type.first, type.first + m.val ≤ i.val → i ∈ (indicesFrom type.first).drop m.val := by
  intro type; cases type <;> decide +kernel

theorem codedLength_of (type : BlockType) (c : Fin 16 → Int) (i : Fin 16) (hi : i ∈ indicesFrom type.first) (h : c (zigzag i) ≠ 0) (hr : ∀ j ∈ indicesFrom type.first, i.val < j.val → c (zigzag j) = 0) :
    codedLength type c = i.val + 1 := by
  have h1 : ¬ codedLength type c ≤ i.val := fun h' => h (codedLength_rest type c i hi h')
  rcases (codedLength_fold c _ 0 (indices_sorted type)).2 with h' | ⟨j, hj, h', hj'⟩
  · have : codedLength type c = 0 := h'
    omega
  · have : codedLength type c = j.val + 1 := h'
    have : ¬ i.val < j.val := fun h => hj' (hr j hj h)
    omega

theorem codedLength_zero (type : BlockType) (c : Fin 16 → Int) (h : ∀ j ∈ indicesFrom type.first, c (zigzag j) = 0) : codedLength type c = 0 := by
  rcases (codedLength_fold c _ 0 (indices_sorted type)).2 with h' | ⟨j, hj, h', hj'⟩
  · exact h'
  · exact absurd (h j hj) hj'

theorem chooseNext_min {a b : Nat} {i : Fin 2} (h : chooseNext a b = some i) (x : Fin 2 → Nat) (h0 : x 0 = a) (h1 : x 1 = b) (j : Fin 2) : x i ≤ x j := by
  have hj : j = 0 ∨ j = 1 := by omega
  unfold chooseNext at h
  split_ifs at h <;> cases h <;> rcases hj with rfl | rfl <;> omega

/-- **C82** (the search for coefficients, in part): for all probabilities, with the rows filled from them, the multipliers of the encoder, all factors and coefficients for which
the plain values are in the range of the table: what the search returns is one of two blocks.  One starts with the plain value of the first coefficient and one with the value
one step closer to zero (or all of it is zero).  It is the cheaper of the two, where the cost is that of the exact price of the bits that the serializer writes for the block, and
of the squares of the errors of its coefficients up to the place after the last one that is not zero.  Missing: the errors of the rest of the places should count, as
they do for a decoder; `C82_search_ignores` shows what follows from it. -/
theorem C82_search_partial {probs : CoeffProbs} {type : BlockType} {token : Fin 8 → Fin 3 → List Nat} (h : RowsOf probs type token) {R D : Nat} (hD : D ≤ 100)
    {dc ac : Nat} (h1 : 1 ≤ dc ∧ 1 ≤ ac) (h2 : dc ≤ 442 ∧ ac ≤ 442) (above left : Option Bool) {c plain : Fin 16 → Int}
    (hc : ∀ i, -32768 ≤ c i ∧ c i ≤ 32767) (hp : quantize dc ac c = some plain) (hr : ∀ i, -2048 ≤ plain i ∧ plain i ≤ 2047) (hz : codedLength type c ≠ 0) :
    ∃ (candidates : Fin 2 → Fin 16 → Int) (bits : Fin 2 → Bits) (i : Fin 2),
      trellisQuantize (costsFor token R D) type dc ac (tokenContext above left) c = some (candidates i) ∧
      (∀ j, (∀ k : Fin 16, k.val = type.first → candidates j (zigzag k) = lowered (plain (zigzag k)) j) ∨ ∀ k : Fin 16, type.first ≤ k.val → candidates j (zigzag k) = 0) ∧
      (∀ j, NearPlain type.first plain (candidates j)) ∧
      (∀ j, serializeTokens probs type above left { coeffs := candidates j } = some (bits j)) ∧
      ∀ j, rdcost (price (bits i)) (losses dc ac c (candidates i) (countedPlaces type c (candidates i))) R D ≤
        rdcost (price (bits j)) (losses dc ac c (candidates j) (countedPlaces type c (candidates j))) R D := by
  obtain ⟨len, hlen⟩ : ∃ len : Fin 17, len.val = codedLength type c := ⟨⟨_, Nat.lt_succ_of_le (codedLength_le type c)⟩, rfl⟩
  obtain ⟨f, hf⟩ : ∃ f : Fin 2, type.first = f.val := by cases type; exact ⟨1, rfl⟩; all_goals exact ⟨0, rfl⟩
  have hl : ((indicesFrom type.first).filter (fun i => decide (i.val < codedLength type c))).length ≤ 16 :=
    Nat.le_trans (List.length_filter_le _ _) (by cases type <;> decide +kernel)
  obtain ⟨n, t, e, -⟩ := buildTrellis_total (costs := costsFor token R D) hD h1 h2 hc ((indicesFrom type.first).filter (fun i => decide (i.val < codedLength type c)))
    (fun i _ => plain_at hp i ▸ hr (zigzag i)) hl
  have hsplit : indicesFrom type.first = _ := indices_split type len
  rw [hlen] at hsplit
  have hdrop : indicesFrom type.first = (List.finRange 16).drop type.first := by cases type <;> decide +kernel
  obtain ⟨n', t', e', hw⟩ := buildTrellis_walked h R D h1 h2 hc _ ((indicesFrom type.first).filter (fun i => !decide (i.val < codedLength type c)))
    (⟨type.first, by cases type <;> decide⟩ : Fin 17) (Nat.le_refl _) (by rw [← hsplit]; exact hdrop) e
  cases e'
  have hchoose : ∀ j : Fin 2, ∃ x, walkTrellis (n :: t) j.val (indicesFrom type.first) c = some x ∧
      ((n j).token ≠ eobToken → ∀ i ∈ ((indicesFrom type.first).filter (fun i => decide (i.val < codedLength type c))).head?, x (zigzag i) = lowered (plainAt c dc ac i) j) ∧
      Walked probs type c dc ac ((indicesFrom type.first).filter (fun i => decide (i.val < codedLength type c)))
        ((indicesFrom type.first).filter (fun i => !decide (i.val < codedLength type c))) (n j) c x := fun j => by
    obtain ⟨x, a, b⟩ := hw j c
    rw [← hsplit] at a
    exact ⟨x, a, b⟩
  choose cand hwalk hstart W using hchoose
  have hnear : ∀ j, NearPlain type.first plain (cand j) := fun j => by
    have hbuilt := buildTrellis_built e
    have hsp := filter_split f (codedLength type c)
    rw [hf] at hbuilt
    obtain ⟨c', e1, e3, e4, -⟩ := walkTrellis_shape hbuilt j.isLt _ (hsp ▸ indicesFrom_nodup f) c
    rw [← hsp] at e1
    have := hwalk j
    rw [hf, e1] at this
    cases this
    rw [← hf] at e3 e4
    exact steps_near hp e3 e4
  have hrange : ∀ j, ∀ i ∈ indicesFrom type.first, (cand j (zigzag i)).natAbs ≤ 2114 := fun j i hi => by
    have hfi : type.first ≤ i.val := by revert i; cases type <;> decide +kernel
    have := hr (zigzag i)
    have := (oneStep_sign ((hnear j).tokens i hfi)).1
    omega
  obtain ⟨k0, hk0⟩ : ∃ k0 : Fin 16, k0.val = type.first := by cases type; exact ⟨1, rfl⟩; all_goals exact ⟨0, rfl⟩
  have hhead : (indicesFrom type.first).head? = some k0 := by
    have : ∀ (type : BlockType) (k : Fin 16), k.val = type.first → (indicesFrom type.first).head? = some k := by intro type; cases type <;> decide +kernel
    exact this type k0 hk0
  have hhead' : ((indicesFrom type.first).filter (fun i => decide (i.val < codedLength type c))).head? = some k0 := by
    have hlt : k0.val < codedLength type c := by
      rcases (codedLength_fold c _ 0 (indices_sorted type)).2 with h' | ⟨j, hj, h', hj'⟩
      · exact absurd h' hz
      · have : codedLength type c = j.val + 1 := h'
        have hfi : type.first ≤ j.val := by clear hj' h' this; revert j; cases type <;> decide +kernel
        omega
    cases hi : indicesFrom type.first with
    | nil => rw [hi] at hhead; exact nomatch hhead
    | cons a l =>
      rw [hi] at hhead
      cases hhead
      rw [List.filter_cons, if_pos (decide_eq_true hlt)]
      rfl
  have hbits : ∀ j, ((n j).rate + (costsFor token R D).token (coefficientToBand k0) (tokenContext above left) (n j).token) % 2 ^ 32 =
      price (tokensFrom (probs type.index) (cand j) (indicesFrom type.first) false (tokenContext above left)) := fun j => by
    have haz := afterZeroRow_first type k0 (tokenContext above left) hk0
    have hrow := h.row (coefficientToBand k0) (tokenContext above left) (n j).token (fun h => by rw [haz] at h; exact nomatch h)
    have hp := (W j).rate k0 (by rw [← hsplit]; exact hhead) false (tokenContext above left) haz.symm (fun h => nomatch h)
    rw [← hsplit] at hp
    rw [haz] at hrow
    have htok : (costsFor token R D).token (coefficientToBand k0) (tokenContext above left) (n j).token =
        price (checkedBits false (probs type.index (coefficientToBand k0) (tokenContext above left)) (n j).token) := by
      show (token _ _).getD _ 0 = _
      rw [List.getD_eq_getElem?_getD, hrow]
      rfl
    have hle := (W j).rateLe
    have hck := checked_le false (probs type.index (coefficientToBand k0) (tokenContext above left)) (n j).token
    rw [htok, hp, Nat.mod_eq_of_lt (by omega), Nat.add_comm]
  have hloss : ∀ j, (n j).distortion = losses dc ac c (cand j) (countedPlaces type c (cand j)) := fun j => by
    obtain ⟨m, hm, hzero, hlast, hd⟩ := (W j).distortion
    rw [← hsplit] at hzero
    have hm16 : m ≤ 16 := Nat.le_trans hm hl
    have p1 := places_take type len ⟨m, by omega⟩ (by rw [hlen]; exact hm)
    have p2 := places_last type len ⟨m, by omega⟩ (by rw [hlen]; exact hm)
    have p3 := places_drop type ⟨m, by omega⟩
    rw [hlen] at p1 p2
    rw [hd]
    refine congrArg (losses dc ac c (cand j)) (p1.trans ?_)
    have hcl : max type.first (codedLength type (cand j)) = type.first + m := by
      by_cases hm0 : m = 0
      · rw [codedLength_zero type (cand j) fun i hi => hzero i (by rw [hm0]; exact hi), hm0]
        omega
      · obtain ⟨i, hi, hival⟩ := Option.map_eq_some_iff.1 (p2.resolve_left hm0)
        have hmem : i ∈ indicesFrom type.first := (List.mem_filter.1 (List.mem_of_mem_take (List.mem_of_getLast? hi))).1
        have hival : i.val + 1 = type.first + m := hival
        rw [codedLength_of type (cand j) i hmem (hlast i hi) fun k hk hik => hzero k (p3 k hk (by show type.first + m ≤ _; omega)), hival]
        omega
    unfold countedPlaces
    rw [hcl]
  obtain ⟨i, hi⟩ : ∃ i, firstChoice (costsFor token R D) (coefficientToBand k0) (tokenContext above left) n = some i := by
    unfold firstChoice
    refine chooseNext_lt (rdcost_lt ?_ hD)
    have := (W 0).distortionLe
    omega
  refine ⟨cand, fun j => tokensFrom (probs type.index) (cand j) (indicesFrom type.first) false (tokenContext above left), i, ?_, fun j => ?_, hnear,
    fun j => serializeTokens_from probs type above left _ (hrange j), fun j => ?_⟩
  · unfold trellisQuantize
    dsimp only
    rw [if_neg hz, e, Option.bind_eq_bind, Option.bind_some]
    dsimp only
    have hk : (⟨type.first, by cases type <;> decide⟩ : Fin 16) = k0 := Fin.ext hk0.symm
    rw [hk, hi]
    exact hwalk i
  · by_cases hne : (n j).token = eobToken
    · right
      intro k hk
      refine (W j).ended hne k ?_
      rw [← hsplit]
      revert k
      cases type <;> decide +kernel
    · left
      intro k hk
      have hkk : k = k0 := Fin.ext (hk.trans hk0.symm)
      rw [hkk, hstart j hne k0 hhead', plain_at hp k0]
  · have := chooseNext_min (h := hi) (fun j => rdcost (((n j).rate + (costsFor token R D).token (coefficientToBand k0) (tokenContext above left) (n j).token) % 2 ^ 32) (n j).distortion
      (costsFor token R D).rate (costsFor token R D).distortion) rfl rfl j
    rw [hbits, hbits, hloss, hloss] at this
    exact this

/-- The multipliers for every factor of the table are those of a product without rounding (libvpx's), and the theorems above apply to them. -/
theorem C82_multipliers : ∀ yAc ∈ acLookup, (rdMultipliers yAc).2 ≤ 100 ∧
    rdMultipliers yAc = (let q := min yAc 160; if 14 * q * q / 5 > 1000 then (14 * q * q / 500, 1) else (14 * q * q / 5, 100)) := by
  decide +kernel

/-- A block for the quantizer index 40: the factors are 37 and 44. -/
def ignoredBlock : Fin 16 → Int := fun i => if i = 0 then 132 else if i = 4 then 44 else if i = 8 then 43 else 0

/-- **C82** (what follows from not counting all errors): for a block, the default probabilities, the quantizer index 40 and the multipliers for it, the search
gives up a coefficient that should be kept: the plain values cost less, and not a little, if all errors are counted.  (A zero follows whose error, 43, is counted only if the
coefficient before it is kept.) -/
theorem C82_search_ignores : ∃ (q : Quantizer) (token : Fin 8 → Fin 3 → List Nat) (chosen plain : Fin 16 → Int) (a b : Bits),
    quantizer { yAcQi := 40, yDc := none, y2Dc := none, y2Ac := none, uvDc := none, uvAc := none } = some q ∧ RowsOf coeffDefaultProbs .yWithoutY2 token ∧
    trellisQuantize (costsFor token (rdMultipliers q.yAc).1 (rdMultipliers q.yAc).2) .yWithoutY2 q.yDc q.yAc (tokenContext none none) ignoredBlock = some chosen ∧
    quantize q.yDc q.yAc ignoredBlock = some plain ∧
    serializeTokens coeffDefaultProbs .yWithoutY2 none none { coeffs := chosen } = some a ∧ serializeTokens coeffDefaultProbs .yWithoutY2 none none { coeffs := plain } = some b ∧
    rdcost (price a) (losses q.yDc q.yAc ignoredBlock chosen (List.finRange 16)) (rdMultipliers q.yAc).1 (rdMultipliers q.yAc).2 = 4827 ∧
    rdcost (price b) (losses q.yDc q.yAc ignoredBlock plain (List.finRange 16)) (rdMultipliers q.yAc).1 (rdMultipliers q.yAc).2 = 2976 := by
  obtain ⟨token, h⟩ := rowsOf_exists coeffDefaultProbs .yWithoutY2
  have e : token = fun band ctx => (fillTokenCosts coeffDefaultProbs 3 band ctx (List.replicate 12 0)).getD [] := by
    funext band ctx
    rw [show fillTokenCosts coeffDefaultProbs 3 band ctx (List.replicate 12 0) = _ from h band ctx]
    rfl
  have hq : quantizer { yAcQi := 40, yDc := none, y2Dc := none, y2Ac := none, uvDc := none, uvAc := none } = some ⟨44, 37, 68, 74, 44, 37⟩ := by decide +kernel
  have k1 : ((trellisQuantize (costsFor token (rdMultipliers 44).1 (rdMultipliers 44).2) .yWithoutY2 37 44 (tokenContext none none) ignoredBlock).bind fun chosen =>
      (serializeTokens coeffDefaultProbs .yWithoutY2 none none { coeffs := chosen }).map fun a =>
        rdcost (price a) (losses 37 44 ignoredBlock chosen (List.finRange 16)) (rdMultipliers 44).1 (rdMultipliers 44).2) = some 4827 := by
    rw [e]
    decide +kernel
  have k2 : ((quantize 37 44 ignoredBlock).bind fun plain => (serializeTokens coeffDefaultProbs .yWithoutY2 none none { coeffs := plain }).map fun b =>
        rdcost (price b) (losses 37 44 ignoredBlock plain (List.finRange 16)) (rdMultipliers 44).1 (rdMultipliers 44).2) = some 2976 := by
    decide +kernel
  obtain ⟨chosen, hch, k1⟩ := Option.bind_eq_some_iff.1 k1
  obtain ⟨a, ha, k1⟩ := Option.map_eq_some_iff.1 k1
  obtain ⟨plain, hpl, k2⟩ := Option.bind_eq_some_iff.1 k2
  obtain ⟨b, hb, k2⟩ := Option.map_eq_some_iff.1 k2
  exact ⟨_, token, chosen, plain, a, b, hq, h, hch, hpl, ha, hb, k1, k2⟩

/-- The block meets the conditions of the theorem. -/
example : (∀ i, -32768 ≤ ignoredBlock i ∧ ignoredBlock i ≤ 32767) ∧ codedLength .yWithoutY2 ignoredBlock = 4 ∧
    (quantize 37 44 ignoredBlock).map (fun c => (List.finRange 16).map fun i => c (zigzag i)) = some [3, 0, 1, 0, 0, 0, 0, 0, 0, 0, 0, 0, 0, 0, 0, 0] := by
  decide +kernel

end Alfalfa
