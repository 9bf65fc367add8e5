import Verif.Proof.CostBlocks

/-! What the search counts. -/

namespace Alfalfa

theorem diff_exact {o : Int} {f : Nat} (h1 : 1 ≤ f) (h2 : f ≤ 442) (ho : -32768 ≤ o ∧ o ≤ 32767) {v : Int} (hv : OneStep (toInt16 (o.tdiv f)) v) :
    (toInt16 (o - v * f) * toInt16 (o - v * f)).toNat = (o - v * f).natAbs ^ 2 ∧ (o - v * f).natAbs ^ 2 ≤ 781456 := by
  have hs := diff_small h1 h2 ho hv
  have hq : toInt16 (o.tdiv f) = o.tdiv f := by
    have : (o.tdiv f).natAbs ≤ o.natAbs := Int.natAbs_tdiv_le_natAbs _ _
    have hp : 0 ≤ o → 0 ≤ o.tdiv f := fun h => Int.tdiv_nonneg h (by omega)
    have hn : o ≤ 0 → o.tdiv f ≤ 0 := fun h => by
      have := Int.tdiv_nonneg (a := -o) (b := f) (by omega) (by omega)
      rw [Int.neg_tdiv] at this
      omega
    unfold toInt16
    rw [Int.bmod_def]
    generalize o.tdiv f = q at *
    omega
  rw [hq] at hv
  have hm := Int.mul_tdiv_add_tmod o f
  have ht : (o.tmod f).natAbs < f := by
    rw [Int.natAbs_tmod]
    exact Nat.mod_lt _ h1
  have hd : -884 ≤ o - v * f ∧ o - v * f ≤ 884 := by
    unfold OneStep at hv
    generalize o.tdiv f = q at hm hv
    generalize o.tmod f = r at hm ht
    rcases hv with rfl | ⟨_, rfl⟩ | ⟨_, rfl⟩
    · have : v * f = f * v := by ring
      omega
    · have : (q - 1) * f = f * q - f := by ring
      omega
    · have : (q + 1) * f = f * q + f := by ring
      omega
  have e : toInt16 (o - v * f) = o - v * f := by
    unfold toInt16
    rw [Int.bmod_def]
    omega
  rw [e] at hs ⊢
  have : (o - v * f) * (o - v * f) = (((o - v * f).natAbs ^ 2 : Nat) : Int) := by rw [Nat.pow_two, Int.natAbs_mul_self]
  rw [this] at hs ⊢
  exact ⟨rfl, hs⟩

/-- What is known of a node. -/
def NodeFor (costs : TrellisCosts) (c : Fin 16 → Int) (dc ac : Nat) (idx : Fin 16) (next : Fin 2 → TrellisNode) (v : Int) (n : TrellisNode) : Prop :=
  ∃ b : Fin 2, OneStep (plainAt c dc ac idx) v ∧ ∃ sse : Nat, sse = (c (zigzag idx) - v * ((if idx = 0 then dc else ac : Nat) : Int)).natAbs ^ 2 ∧ sse ≤ 781456 ∧
    ((n.coeff = v ∧ n.token = tokenForCoeff v ∧ n.next = b.val ∧ (v ≠ 0 ∨ (next b).token ≠ eobToken) ∧ (-2048 ≤ v ∧ v ≤ 2047) ∧
        n.rate = (rateThrough costs idx (tokenForCoeff v) (next b) + costs.base v) % 2 ^ 32 ∧ n.distortion = ((next b).distortion + sse) % 2 ^ 32) ∨
      (v = 0 ∧ n.token = eobToken ∧ n.rate = 0 ∧ n.distortion = sse))

theorem trellisNode_for {costs : TrellisCosts} {idx : Fin 16} {c : Fin 16 → Int} {dc ac : Nat} {next : Fin 2 → TrellisNode} {v : Int} {n : TrellisNode}
    (hf : 1 ≤ (if idx = 0 then dc else ac : Nat) ∧ (if idx = 0 then dc else ac : Nat) ≤ 442) (hc : -32768 ≤ c (zigzag idx) ∧ c (zigzag idx) ≤ 32767) (hv : OneStep (plainAt c dc ac idx) v)
    (h : trellisNode costs idx (c (zigzag idx)) (if idx = 0 then dc else ac) next v = some n) : NodeFor costs c dc ac idx next v n := by
  obtain ⟨e1, e2⟩ := diff_exact hf.1 hf.2 hc hv
  unfold trellisNode at h
  dsimp only at h
  rw [e1] at h
  generalize chooseNext _ _ = b at h
  cases b with
  | none => exact nomatch h
  | some b =>
    rw [Option.bind_eq_bind, Option.bind_some] at h
    by_cases hz : v ≠ 0 ∨ (next b).token ≠ eobToken
    · rw [if_pos hz] at h
      by_cases hr : -2048 ≤ v ∧ v ≤ 2047
      · rw [if_pos hr] at h
        cases h
        exact ⟨b, hv, _, rfl, e2, Or.inl ⟨rfl, rfl, rfl, hz, hr, rfl, rfl⟩⟩
      · rw [if_neg hr] at h; exact nomatch h
    · rw [if_neg hz] at h
      cases h
      exact ⟨b, hv, _, rfl, e2, Or.inr ⟨not_not.1 fun h => hz (Or.inl h), rfl, rfl, rfl⟩⟩

theorem candidate_lowered {q : Int} {s : Fin 2} {v : Int} (h : candidate q s = some v) : v = lowered q s := by
  unfold candidate at h
  unfold lowered
  have hs := s.isLt
  by_cases h1 : q < 0
  · rw [if_pos h1] at h
    cases h
    rw [Int.sign_eq_neg_one_of_neg h1]
    split
    · next e => rw [e]; show min 0 (q + 0) = q; omega
    · next e => have : s.val = 1 := by omega
                rw [this]; show min 0 (q + 1) = q - -1; omega
  · rw [if_neg h1] at h
    by_cases h2 : q > 0 ∨ s = 0
    · rw [if_pos h2] at h
      cases h
      split
      · next e => rw [e]; show max 0 (q - 0) = q; omega
      · next e => have : s.val = 1 := by omega
                  have hq := h2.resolve_right e
                  rw [this, Int.sign_eq_one_of_pos hq]; show max 0 (q - 1) = q - 1; omega
    · rw [if_neg h2] at h
      exact nomatch h

theorem candidate_copy {q : Int} {s : Fin 2} (h : candidate q s = none) : lowered q 1 = lowered q 0 := by
  unfold candidate at h
  have : q = 0 := by
    by_contra hq
    by_cases h1 : q < 0
    · rw [if_pos h1] at h; exact nomatch h
    · rw [if_neg h1, if_pos (Or.inl (by omega))] at h; exact nomatch h
  subst this
  rfl

theorem trellisNodes_for {costs : TrellisCosts} {idx : Fin 16} {c : Fin 16 → Int} {dc ac : Nat} {next n : Fin 2 → TrellisNode}
    (hf : 1 ≤ (if idx = 0 then dc else ac : Nat) ∧ (if idx = 0 then dc else ac : Nat) ≤ 442) (hc : -32768 ≤ c (zigzag idx) ∧ c (zigzag idx) ≤ 32767)
    (h : trellisNodes costs idx (c (zigzag idx)) (if idx = 0 then dc else ac) next = some n) (i : Fin 2) :
    NodeFor costs c dc ac idx next (lowered (plainAt c dc ac idx) i) (n i) := by
  unfold trellisNodes at h
  rw [if_neg (by omega)] at h
  dsimp only at h
  have key : ∀ {s v m}, candidate (toInt16 ((c (zigzag idx)).tdiv (if idx = 0 then dc else ac : Nat))) s = some v →
      trellisNode costs idx (c (zigzag idx)) (if idx = 0 then dc else ac) next v = some m → NodeFor costs c dc ac idx next v m :=
    fun hv hm => trellisNode_for hf hc (candidate_steps hv) hm
  cases h0 : candidate (toInt16 ((c (zigzag idx)).tdiv (if idx = 0 then dc else ac : Nat))) 0 with
  | none => rw [h0] at h; exact nomatch h
  | some v0 =>
    rw [h0] at h
    dsimp only at h
    cases hn0 : trellisNode costs idx (c (zigzag idx)) (if idx = 0 then dc else ac) next v0 with
    | none => rw [hn0] at h; exact nomatch h
    | some n0 =>
      rw [hn0, Option.bind_eq_bind, Option.bind_some] at h
      cases h1 : candidate (toInt16 ((c (zigzag idx)).tdiv (if idx = 0 then dc else ac : Nat))) 1 with
      | none =>
        rw [h1] at h
        cases h
        have : i = 0 ∨ i = 1 := by omega
        have k := key h0 hn0
        rw [candidate_lowered h0] at k
        rcases this with rfl | rfl
        · exact k
        · rw [show lowered (plainAt c dc ac idx) 1 = lowered (plainAt c dc ac idx) 0 from candidate_copy h1]; exact k
      | some v1 =>
        rw [h1] at h
        dsimp only at h
        cases hn1 : trellisNode costs idx (c (zigzag idx)) (if idx = 0 then dc else ac) next v1 with
        | none => rw [hn1] at h; exact nomatch h
        | some n1 =>
          rw [hn1] at h
          cases h
          have : i = 0 ∨ i = 1 := by omega
          have k0 := key h0 hn0
          have k1 := key h1 hn1
          rw [candidate_lowered h0] at k0
          rw [candidate_lowered h1] at k1
          rcases this with rfl | rfl
          · exact k0
          · exact k1

theorem tokenPath_length : ∀ t : Fin 12, (tokenPath t).length ≤ 6 := by decide

theorem checked_le (lz : Bool) (prob : Fin 11 → Prob) (t : Fin 12) : price (checkedBits lz prob t) ≤ 14329 := by
  have hl : (checkedBits lz prob t).length ≤ 7 := by
    have := tokenPath_length t
    unfold checkedBits tokenBits
    split
    · show 1 ≤ 7; omega
    · rw [List.length_append, List.length_map]
      split
      · rw [List.length_nil]; omega
      · rw [List.length_singleton]; omega
  have := price_le (checkedBits lz prob t)
  omega

theorem writeExtra_length (ps : List Prob) (v : Nat) : (writeExtra ps v).length = ps.length := by
  induction ps with
  | nil => rfl
  | cons p ps ih => unfold writeExtra; rw [List.length_cons, ih, List.length_cons]

theorem coeff_le (v : Int) : price (coeffBits v) ≤ 24564 := by
  have hl : (coeffBits v).length ≤ 12 := by
    have : (categoryBits v.natAbs).length ≤ 11 := by
      unfold categoryBits
      split_ifs <;> simp only [writeExtra_length, List.length_nil, List.length_singleton] <;> decide
    unfold coeffBits
    rw [List.length_append]
    split
    · rw [List.length_nil]; omega
    · rw [List.length_singleton]; omega
  have := price_le (coeffBits v)
  omega

theorem finRange_drop : ∀ k : Fin 17, ((List.finRange 16).drop k.val = [] → k.val = 16) ∧
    ∀ i ∈ ((List.finRange 16).drop k.val).head?, i.val = k.val ∧ ((List.finRange 16).drop k.val).tail = (List.finRange 16).drop (k.val + 1) := by decide +kernel

/-- What the walk from a node of the trellis gives, and what the node says of it. -/
structure Walked (probs : CoeffProbs) (type : BlockType) (c0 : Fin 16 → Int) (dc ac : Nat) (is rest : List (Fin 16)) (node : TrellisNode) (c c' : Fin 16 → Int) : Prop where
  outside : ∀ i, i ∉ is ++ rest → c' (zigzag i) = c (zigzag i)
  rateLe : node.rate ≤ 41000 * is.length
  distortionLe : node.distortion ≤ 781456 * is.length
  last : is = [] → node.rate = 0 ∧ node.token = eobToken
  ended : node.token = eobToken → ∀ i ∈ is ++ rest, c' (zigzag i) = 0
  going : node.token ≠ eobToken → ∃ i ∈ is ++ rest, c' (zigzag i) ≠ 0
  rate : ∀ i ∈ (is ++ rest).head?, ∀ (lz : Bool) (ctx : Fin 3), lz = afterZeroRow type.index (coefficientToBand i) ctx → (lz = true → node.token ≠ eobToken) →
    price (tokensFrom (probs type.index) c' (is ++ rest) lz ctx) = price (checkedBits lz (probs type.index (coefficientToBand i) ctx) node.token) + node.rate
  distortion : ∃ m ≤ is.length, (∀ i ∈ (is ++ rest).drop m, c' (zigzag i) = 0) ∧ (∀ i ∈ (is.take m).getLast?, c' (zigzag i) ≠ 0) ∧
    node.distortion = losses dc ac c0 c' (is.take (m + 1))

theorem losses_congr {dc ac : Nat} {c0 c c' : Fin 16 → Int} {l : List (Fin 16)} (h : ∀ i ∈ l, c (zigzag i) = c' (zigzag i)) : losses dc ac c0 c l = losses dc ac c0 c' l := by
  unfold losses loss
  refine congrArg List.sum (List.map_congr_left fun i hi => ?_)
  rw [h i hi]

/-- The trellis for some indices, and all walks through it. -/
theorem buildTrellis_walked {probs : CoeffProbs} {type : BlockType} {token : Fin 8 → Fin 3 → List Nat} (hrows : RowsOf probs type token) (R D : Nat)
    {c0 : Fin 16 → Int} {dc ac : Nat} (h1 : 1 ≤ dc ∧ 1 ≤ ac) (h2 : dc ≤ 442 ∧ ac ≤ 442) (hc : ∀ i, -32768 ≤ c0 i ∧ c0 i ≤ 32767)
    (is : List (Fin 16)) (rest : List (Fin 16)) (k : Fin 17) (hk : type.first ≤ k.val) (hcons : is ++ rest = (List.finRange 16).drop k.val) {t : List (Fin 2 → TrellisNode)}
    (hb : buildTrellis (costsFor token R D) c0 dc ac is = some t) :
    ∃ n t', t = n :: t' ∧ ∀ (j : Fin 2) (c : Fin 16 → Int), ∃ c', walkTrellis t j.val (is ++ rest) c = some c' ∧
      ((n j).token ≠ eobToken → ∀ i ∈ is.head?, c' (zigzag i) = lowered (plainAt c0 dc ac i) j) ∧ Walked probs type c0 dc ac is rest (n j) c c' := by
  induction is generalizing k t with
  | nil =>
    cases hb
    refine ⟨_, _, rfl, fun j c => ?_⟩
    cases rest with
    | nil =>
      exact ⟨c, rfl, fun h => absurd rfl h, fun _ _ => rfl, Nat.zero_le _, Nat.zero_le _, fun _ => ⟨rfl, rfl⟩, fun _ _ h => (nomatch h), fun h => absurd rfl h, fun _ h => (nomatch h),
        0, Nat.le_refl _, fun _ h => (nomatch h), fun _ h => (nomatch h), rfl⟩
    | cons a rest =>
      have hz : ∀ i ∈ [] ++ a :: rest, zeroFrom c (a :: rest) (zigzag i) = 0 := fun i hi => by rw [zeroFrom_at]; exact if_pos hi
      refine ⟨zeroFrom c (a :: rest), ?_, fun h => absurd rfl h, fun i hi => ?_, Nat.zero_le _, Nat.zero_le _, fun _ => ⟨rfl, rfl⟩, fun _ => hz, fun h => absurd rfl h, fun i hi lz ctx _ _ => ?_,
        0, Nat.le_refl _, hz, fun _ h => (nomatch h), rfl⟩
      · show (if h : j.val < 2 then _ else _) = _
        rw [dif_pos j.isLt]
        exact if_pos rfl
      · rw [zeroFrom_at]; exact if_neg hi
      · rw [tokensFrom_zero _ _ _ hz]
        cases hi
        rfl
  | cons idx is ih =>
    obtain ⟨hkd, hkt⟩ := (finRange_drop k).2 idx (by rw [← hcons]; rfl)
    rw [← hcons] at hkt
    have hk16 : k.val < 16 := by have := idx.isLt; omega
    have hkt : is ++ rest = (List.finRange 16).drop (k.val + 1) := hkt
    have hnd : (idx :: (is ++ rest)).Nodup := by
      have := hcons ▸ (List.nodup_finRange 16).sublist (List.drop_sublist k.val _)
      exact this
    unfold buildTrellis at hb
    cases hr : buildTrellis (costsFor token R D) c0 dc ac is with
    | none => rw [hr] at hb; exact nomatch hb
    | some t' =>
      rw [hr, Option.bind_eq_bind, Option.bind_some] at hb
      obtain ⟨next, t'', rfl, hw⟩ := ih ⟨k.val + 1, by omega⟩ (by show _ ≤ k.val + 1; omega) hkt hr
      dsimp only at hb
      cases hn : trellisNodes (costsFor token R D) idx (c0 (zigzag idx)) (if idx = 0 then dc else ac) next with
      | none => rw [hn] at hb; exact nomatch hb
      | some n =>
        rw [hn] at hb
        cases hb
        refine ⟨n, _, rfl, fun j c => ?_⟩
        obtain ⟨b, hv, sse, hsse, hsmall, hnode⟩ := trellisNodes_for (by split <;> omega) (hc _) hn j
        generalize hlow : lowered (plainAt c0 dc ac idx) j = v at *
        show ∃ c', (if h : j.val < 2 then _ else _) = _ ∧ _
        rw [dif_pos j.isLt]
        rcases hnode with ⟨e1, e2, e3, e4, e5, e6, e7⟩ | ⟨hv0, e2, e3, e4⟩
        · have hne : (n j).token ≠ eobToken := by rw [e2]; exact tokenForCoeff_ne v
          rw [if_neg hne, e3, e1]
          obtain ⟨c', hwalk, -, W⟩ := hw b (Function.update c (zigzag idx) v)
          have hat : c' (zigzag idx) = v := by rw [W.outside idx (List.nodup_cons.1 hnd).1, Function.update_self]
          have hl16 : (is ++ rest).length ≤ 15 := by
            rw [hkt, List.length_drop, List.length_finRange]; omega
          have hl : is.length ≤ 15 := by rw [List.length_append] at hl16; omega
          have hbase : (costsFor token R D).base v = price (coeffBits v) := by
            show (coeffBaseCost v).getD 0 = _
            rw [coeffBaseCost_price v e5]
            rfl
          have hthrough : ∃ x, rateThrough (costsFor token R D) idx (tokenForCoeff v) (next b) = x ∧ x ≤ 41000 * is.length + 14329 ∧
              x = price (tokensFrom (probs type.index) c' (is ++ rest) (decide (v = 0)) (prevTokenClass (tokenForCoeff v))) := by
            refine ⟨_, rfl, ?_⟩
            unfold rateThrough
            by_cases h15 : idx.val < 15
            · rw [dif_pos h15]
              cases hir : is ++ rest with
              | nil =>
                have := (finRange_drop ⟨k.val + 1, by omega⟩).1 (by rw [← hkt, hir])
                have : k.val + 1 = 16 := this
                omega
              | cons i' l =>
                obtain ⟨hi', -⟩ := (finRange_drop ⟨k.val + 1, by omega⟩).2 i' (by rw [← hkt, hir]; rfl)
                have hi' : i'.val = k.val + 1 := hi'
                have hidx : (⟨idx.val + 1, by omega⟩ : Fin 16) = i' := Fin.ext (by show idx.val + 1 = i'.val; omega)
                rw [hidx]
                have haz : decide (v = 0) = afterZeroRow type.index (coefficientToBand i') (prevTokenClass (tokenForCoeff v)) := by
                  rw [afterZeroRow_later type i' _ (by omega)]
                  exact decide_eq_decide.2 (tokenClass_zero v).symm
                have hok : decide (v = 0) = true → (next b).token ≠ eobToken := fun h => e4.resolve_left fun h' => h' (of_decide_eq_true h)
                have hrow := hrows.row (coefficientToBand i') (prevTokenClass (tokenForCoeff v)) (next b).token (fun h => hok (haz.trans h))
                have htok : (costsFor token R D).token (coefficientToBand i') (prevTokenClass (tokenForCoeff v)) (next b).token =
                    price (checkedBits (decide (v = 0)) (probs type.index (coefficientToBand i') (prevTokenClass (tokenForCoeff v))) (next b).token) := by
                  show (token _ _).getD _ 0 = _
                  rw [List.getD_eq_getElem?_getD, hrow, haz]
                  rfl
                have hp := W.rate i' (by rw [hir]; rfl) (decide (v = 0)) (prevTokenClass (tokenForCoeff v)) haz hok
                have hck := checked_le (decide (v = 0)) (probs type.index (coefficientToBand i') (prevTokenClass (tokenForCoeff v))) (next b).token
                have hrl := W.rateLe
                rw [hir] at hp
                rw [htok, hp, Nat.mod_eq_of_lt (by omega)]
                omega
            · rw [dif_neg h15]
              have hnil : is ++ rest = [] := by
                rw [hkt, List.drop_eq_nil_iff, List.length_finRange]; omega
              obtain ⟨hz, -⟩ := W.last (List.append_eq_nil_iff.1 hnil).1
              rw [hnil, hz]
              exact ⟨Nat.zero_le _, rfl⟩
          obtain ⟨x, hx1, hx2, hx3⟩ := hthrough
          have hcl := coeff_le v
          have hrate : (n j).rate = x + price (coeffBits v) := by
            rw [e6, hx1, hbase, Nat.mod_eq_of_lt (by omega)]
          have hdl := W.distortionLe
          have hdist : (n j).distortion = (next b).distortion + sse := by rw [e7, Nat.mod_eq_of_lt (by omega)]
          have hex : ∃ i ∈ idx :: (is ++ rest), c' (zigzag i) ≠ 0 := by
            rcases e4 with h | h
            · exact ⟨idx, List.mem_cons_self, by rw [hat]; exact h⟩
            · obtain ⟨i, hi, h⟩ := W.going h
              exact ⟨i, List.mem_cons_of_mem _ hi, h⟩
          refine ⟨c', hwalk, fun _ i hi => by cases hi; rw [hat, hlow], fun i hi => ?_, by rw [hrate, List.length_cons]; omega, by rw [hdist, List.length_cons]; omega, fun h => (nomatch h), fun h => absurd h hne, fun _ => hex,
            fun i hi lz ctx hlz _ => ?_, ?_⟩
          · have hne : i ≠ idx := fun e => hi (e ▸ List.mem_cons_self)
            rw [W.outside i fun h => hi (List.mem_cons_of_mem _ h), Function.update_of_ne fun h => hne (zigzag_inj h)]
          · cases hi
            rw [List.cons_append, tokensFrom_cons _ _ _ _ hex, hat, price_append, price_append, ← hx3, hrate, e2]
            omega
          · obtain ⟨m, hm, hz, hnz, hd⟩ := W.distortion
            have hloss : losses dc ac c0 c' (idx :: is.take (m + 1)) = (next b).distortion + sse := by
              show loss dc ac c0 c' idx + losses dc ac c0 c' (is.take (m + 1)) = _
              rw [← hd, hsse]
              unfold loss
              rw [hat, Nat.add_comm]
            refine ⟨m + 1, by rw [List.length_cons]; omega, hz, fun i hi => ?_, ?_⟩
            · rw [List.take_succ_cons, List.getLast?_cons] at hi
              cases hlast : (is.take m).getLast? with
              | some i' =>
                rw [hlast] at hi hnz
                cases hi
                exact hnz _ rfl
              | none =>
                rw [hlast] at hi
                cases hi
                show c' (zigzag idx) ≠ 0
                rw [hat]
                refine e4.resolve_right fun h => ?_
                obtain ⟨i, hi, hi'⟩ := W.going h
                have htake : is.take m = [] := List.getLast?_eq_none_iff.1 hlast
                have : is = [] ∨ m = 0 := by
                  rcases List.take_eq_nil_iff.1 htake with h | h
                  · exact Or.inr h
                  · exact Or.inl h
                rcases this with h' | h'
                · exact h (W.last h').2
                · rw [h'] at hz
                  exact hi' (hz i hi)
            · rw [hdist, List.take_succ_cons, hloss]
        · rw [if_pos e2]
          have hz : ∀ i ∈ idx :: (is ++ rest), zeroFrom c (idx :: (is ++ rest)) (zigzag i) = 0 := fun i hi => by rw [zeroFrom_at]; exact if_pos hi
          refine ⟨zeroFrom c (idx :: (is ++ rest)), rfl, fun h => absurd e2 h, fun i hi => ?_, by rw [e3]; exact Nat.zero_le _, by rw [e4, List.length_cons]; omega, fun h => (nomatch h), fun _ => hz, fun h => absurd e2 h,
            fun i hi lz ctx hlz hok => ?_, 0, Nat.zero_le _, hz, fun _ h => (nomatch h), ?_⟩
          · rw [zeroFrom_at]; exact if_neg hi
          · rw [List.cons_append, tokensFrom_zero _ _ _ hz, e2, e3]
            cases hi
            rfl
          · rw [e4, hsse, hv0]
            show _ = loss dc ac c0 _ idx + 0
            unfold loss
            rw [hz idx List.mem_cons_self]
            rfl

end Alfalfa
