import Verif.Proof.Parser
import Verif.Spec.Tokens
import Mathlib.Data.Fintype.Basic
import Mathlib.Tactic.FinCases
import Mathlib.Tactic.Ring

namespace Alfalfa

/-! ### Magnitudes -/

theorem parses_extra : ∀ (ps : List Prob) (acc v : Nat),
    Parses (readExtra ps acc) (writeExtra ps v) (acc * 2 ^ ps.length + v % 2 ^ ps.length)
  | [], acc, v => by
    have : acc * 2 ^ ([] : List Prob).length + v % 2 ^ ([] : List Prob).length = acc := by simp [Nat.mod_one]
    rw [this]; exact Parses.pure _
  | p :: ps, acc, v => by
    unfold readExtra writeExtra
    have h := parses_extra ps ((acc <<< 1) + (decide (v &&& (1 <<< ps.length) ≠ 0)).toNat) v
    have e : ((acc <<< 1) + (decide (v &&& (1 <<< ps.length) ≠ 0)).toNat) * 2 ^ ps.length + v % 2 ^ ps.length
        = acc * 2 ^ (p :: ps).length + v % 2 ^ (p :: ps).length := by
      have h1 : decide (v &&& (1 <<< ps.length) ≠ 0) = v.testBit ps.length := by
        rw [Nat.one_shiftLeft, Nat.and_two_pow]
        cases v.testBit ps.length <;> simp
      rw [h1, Nat.shiftLeft_eq, List.length_cons, Nat.mod_pow_succ, Nat.testBit_eq_decide_div_mod_eq]
      have h2 : (decide (v / 2 ^ ps.length % 2 = 1)).toNat = v / 2 ^ ps.length % 2 := by
        have : v / 2 ^ ps.length % 2 < 2 := Nat.mod_lt _ (by omega)
        by_cases h : v / 2 ^ ps.length % 2 = 1
        · simp [h]
        · have : v / 2 ^ ps.length % 2 = 0 := by omega
          simp [this]
      rw [h2, Nat.pow_succ, Nat.add_mul]
      ring
    rw [e] at h
    exact Parses.bind (Parses.getBit _ _) h

theorem parses_tokenDecode (t : Nat × List Prob) (v : Nat) (h1 : t.1 ≤ v) (h2 : v < upperLimit t) :
    ∃ bits, tokenEncode t v = some bits ∧ Parses (tokenDecode t) bits v := by
  refine ⟨writeExtra t.2 (v - t.1), ?_, ?_⟩
  · unfold tokenEncode; rw [if_neg (by omega)]
  · unfold tokenDecode
    refine Parses.bindPure (parses_extra _ _ _) ?_
    unfold upperLimit at h2
    rw [Nat.mod_eq_of_lt (by omega)]; omega

theorem Parses.branchF {α : Type} {q : Prob} {p r : Parser α} {bits : Bits} {x : α} (h : Parses p bits x) :
    Parses (Alfalfa.getBit q >>= fun b => if (!b) = true then p else r) ((false, q) :: bits) x :=
  Parses.bind (Parses.getBit false q) h

theorem Parses.branchT {α : Type} {q : Prob} {p r : Parser α} {bits : Bits} {x : α} (h : Parses r bits x) :
    Parses (Alfalfa.getBit q >>= fun b => if (!b) = true then p else r) ((true, q) :: bits) x :=
  Parses.bind (Parses.getBit true q) h

theorem parses_magnitude (prob : Fin 11 → Prob) (v : Nat) (h1 : 1 ≤ v) (h2 : v ≤ 2114) :
    ∃ bits ctx, writeMagnitude prob v = some (bits, ctx) ∧ Parses (readMagnitude prob) bits (v, ctx) := by
  unfold writeMagnitude
  have u1 : upperLimit tokenDecoder1 = 11 := by decide
  have u2 : upperLimit tokenDecoder2 = 19 := by decide
  have u3 : upperLimit tokenDecoder3 = 35 := by decide
  have u4 : upperLimit tokenDecoder4 = 67 := by decide
  have u5 : upperLimit tokenDecoder5 = 2115 := by decide
  rw [u1, u2, u3, u4, u5]
  by_cases c0 : v = 1
  · rw [if_pos c0]
    subst v; exact ⟨_, _, rfl, by unfold readMagnitude; exact .branchF (.pure _)⟩
  rw [if_neg c0]
  by_cases c1 : v = 2
  · rw [if_pos c1]
    subst v; exact ⟨_, _, rfl, by unfold readMagnitude; exact .branchT (.branchF (.branchF (.pure _)))⟩
  rw [if_neg c1]
  by_cases c2 : v = 3
  · rw [if_pos c2]
    subst v; exact ⟨_, _, rfl, by unfold readMagnitude; exact .branchT (.branchF (.branchT (.branchF (.pure _))))⟩
  rw [if_neg c2]
  by_cases c3 : v = 4
  · rw [if_pos c3]
    subst v; exact ⟨_, _, rfl, by unfold readMagnitude; exact .branchT (.branchF (.branchT (.branchT (.pure _))))⟩
  rw [if_neg c3]
  by_cases c4 : v < tokenDecoder1.1
  · rw [if_pos c4]
    have h : v < 7 := c4
    refine ⟨_, _, rfl, ?_⟩
    unfold readMagnitude
    refine .branchT (.branchT (.branchF (.branchF (Parses.bindPure (Parses.getBit _ _) ?_))))
    have : v = 5 ∨ v = 6 := by omega
    rcases this with rfl | rfl <;> rfl
  rw [if_neg c4]
  by_cases c5 : v < 11
  · rw [if_pos c5]
    have ha : ¬ v < 7 := c4
    obtain ⟨t, e, hp⟩ := parses_tokenDecode tokenDecoder1 v (by unfold tokenDecoder1; dsimp only; omega) (by omega)
    exact ⟨_, _, by rw [e]; rfl, by unfold readMagnitude; exact .branchT (.branchT (.branchF (.branchT (Parses.bindPure hp rfl))))⟩
  rw [if_neg c5]
  by_cases c6 : v < 19
  · rw [if_pos c6]
    obtain ⟨t, e, hp⟩ := parses_tokenDecode tokenDecoder2 v (by unfold tokenDecoder2; dsimp only; omega) (by omega)
    exact ⟨_, _, by rw [e]; rfl, by unfold readMagnitude; exact .branchT (.branchT (.branchT (.branchF (.branchF (Parses.bindPure hp rfl)))))⟩
  rw [if_neg c6]
  by_cases c7 : v < 35
  · rw [if_pos c7]
    obtain ⟨t, e, hp⟩ := parses_tokenDecode tokenDecoder3 v (by unfold tokenDecoder3; dsimp only; omega) (by omega)
    exact ⟨_, _, by rw [e]; rfl, by unfold readMagnitude; exact .branchT (.branchT (.branchT (.branchF (.branchT (Parses.bindPure hp rfl)))))⟩
  rw [if_neg c7]
  by_cases c8 : v < 67
  · rw [if_pos c8]
    obtain ⟨t, e, hp⟩ := parses_tokenDecode tokenDecoder4 v (by unfold tokenDecoder4; dsimp only; omega) (by omega)
    exact ⟨_, _, by rw [e]; rfl, by unfold readMagnitude; exact .branchT (.branchT (.branchT (.branchT (.branchF (Parses.bindPure hp rfl)))))⟩
  rw [if_neg c8]
  by_cases c9 : v < 2115
  · rw [if_pos c9]
    obtain ⟨t, e, hp⟩ := parses_tokenDecode tokenDecoder5 v (by unfold tokenDecoder5; dsimp only; omega) (by omega)
    exact ⟨_, _, by rw [e]; rfl, by unfold readMagnitude; exact .branchT (.branchT (.branchT (.branchT (.branchT (Parses.bindPure hp rfl)))))⟩
  rw [if_neg c9]
  exact absurd (by omega : v < 2115) c9

/-! ### The coefficient loop -/

theorem zigzag_inj : Function.Injective zigzag := by decide
theorem zigzag_surj : Function.Surjective zigzag := by decide

/-- `b` holds the coefficients of `c` except at the indices in `todo`, where it is still zero. -/
def Filled (c : Fin 16 → Int) (todo : List (Fin 16)) (b : Block) : Prop :=
  (∀ i, b.coeffs (zigzag i) = if i ∈ todo then 0 else c (zigzag i)) ∧
  (b.hasNonzero = true ↔ ∃ i, i ∉ todo ∧ c (zigzag i) ≠ 0)

theorem Filled.skip {c : Fin 16 → Int} {i : Fin 16} {todo : List (Fin 16)} {b : Block} (h : Filled c (i :: todo) b)
    (hc : c (zigzag i) = 0) : Filled c todo b := by
  refine ⟨fun j => ?_, ?_⟩
  · rw [h.1 j]
    by_cases hj : j = i
    · subst hj; simp [hc]
    · simp [hj]
  · rw [h.2]
    constructor
    · rintro ⟨j, h1, h2⟩; exact ⟨j, fun hm => h1 (List.mem_cons_of_mem _ hm), h2⟩
    · rintro ⟨j, h1, h2⟩
      refine ⟨j, fun hm => ?_, h2⟩
      rcases List.mem_cons.mp hm with rfl | hm
      · exact h2 hc
      · exact h1 hm

theorem Filled.set {c : Fin 16 → Int} {i : Fin 16} {todo : List (Fin 16)} {b : Block} (h : Filled c (i :: todo) b)
    (hn : i ∉ todo) (hc : c (zigzag i) ≠ 0) {v : Int} (hv : v = c (zigzag i)) :
    Filled c todo { coeffs := Function.update b.coeffs (zigzag i) v, hasNonzero := true } := by
  subst hv
  refine ⟨fun j => ?_, ?_⟩
  · by_cases hj : j = i
    · subst hj; simp [hn]
    · have : zigzag j ≠ zigzag i := fun h => hj (zigzag_inj h)
      simp only [Function.update_of_ne this]
      rw [h.1 j]; simp [hj]
  · simp only [true_iff]
    exact ⟨i, hn, hc⟩

/-- The end-of-block bit, if there is an index left to write it at. -/
def eobBits (probs : Fin 8 → Fin 3 → Fin 11 → Prob) (ctx : Fin 3) : List (Fin 16) → Bits
  | [] => []
  | i :: _ => [(false, probs (coefficientToBand i) ctx 0)]

theorem parses_coeffs (probs : Fin 8 → Fin 3 → Fin 11 → Prob) (c : Fin 16 → Int) (hc : ∀ i, (c i).natAbs ≤ 2114)
    (rest : List (Fin 16)) (hrest : ∀ i ∈ rest, c (zigzag i) = 0) :
    ∀ (wl : List (Fin 16)) (lz : Bool) (ctx : Fin 3) (b : Block), (wl ++ rest).Nodup → Filled c (wl ++ rest) b →
      (∀ h : wl ≠ [], c (zigzag (wl.getLast h)) ≠ 0) → (wl = [] → lz = false) →
      ∃ bits ctx', writeCoeffs probs c wl lz ctx = some (bits, false, ctx') ∧
        ∃ b', Filled c [] b' ∧
          Parses (readCoeffs probs (wl ++ rest) lz ctx b)
            (bits ++ eobBits probs ctx' rest) b'
  | [], lz, ctx, b, hnd, hf, _, hlz => by
    rw [hlz rfl]
    refine ⟨[], ctx, rfl, b, ?_, ?_⟩
    · refine ⟨fun i => ?_, ?_⟩
      · rw [hf.1 i]
        by_cases hi : i ∈ rest
        · simp [hi, hrest i hi]
        · simp [hi]
      · rw [hf.2]
        constructor
        · rintro ⟨j, _, h2⟩; exact ⟨j, List.not_mem_nil, h2⟩
        · rintro ⟨j, _, h2⟩; exact ⟨j, fun hm => h2 (hrest j hm), h2⟩
    · cases rest with
      | nil => exact Parses.pure _
      | cons i rest => exact Parses.bit (b := false) (Parses.pure b)
  | i :: wl, lz, ctx, b, hnd, hf, hlast, _ => by
    have hnd' := List.nodup_cons.mp hnd
    have hstart : ∀ {q : Prob} {f : Bool → Parser Block} {bits : Bits} {x : Block}, Parses (f true) bits x →
        Parses (readMore lz q >>= f) ((if lz then [] else [(true, q)]) ++ bits) x := by
      intro q f bits x h
      cases lz
      · exact Parses.bind (Parses.getBit true q) h
      · exact Parses.bind (Parses.pure true) h
    have hlast' : ∀ h : wl ≠ [], c (zigzag (wl.getLast h)) ≠ 0 := by
      intro h
      have := hlast (List.cons_ne_nil _ _)
      rwa [List.getLast_cons h] at this
    by_cases hz : c (zigzag i) = 0
    · have hwl : wl ≠ [] := by
        rintro rfl
        exact hlast (List.cons_ne_nil _ _) hz
      obtain ⟨bits, ctx', hw, b', hb', hp⟩ := parses_coeffs probs c hc rest hrest wl true 0 b hnd'.2 (hf.skip hz) hlast'
        (fun h => absurd h hwl)
      refine ⟨(if lz then [] else [(true, probs (coefficientToBand i) ctx 0)]) ++
        (false, probs (coefficientToBand i) ctx 1) :: bits, ctx', ?_, b', hb', ?_⟩
      · unfold writeCoeffs
        simp only [hz, Int.natAbs_zero, if_true, hw]
        rfl
      · rw [List.cons_append]
        unfold readCoeffs
        rw [List.append_assoc]
        refine hstart ?_
        rw [if_neg (by decide)]
        rw [List.cons_append]
        exact Parses.bit hp
    · obtain ⟨m, ctx1, hm, hmp⟩ := parses_magnitude (probs (coefficientToBand i) ctx) (c (zigzag i)).natAbs (by omega) (hc _)
      obtain ⟨bits, ctx', hw, b', hb', hp⟩ := parses_coeffs probs c hc rest hrest wl false ctx1
        { coeffs := Function.update b.coeffs (zigzag i) (if decide (c (zigzag i) < 0) = true then -((c (zigzag i)).natAbs : Int)
            else ((c (zigzag i)).natAbs : Int)), hasNonzero := true } hnd'.2
        (hf.set hnd'.1 hz (by by_cases hn : c (zigzag i) < 0 <;> simp [hn] <;> omega)) hlast' (fun _ => rfl)
      refine ⟨(if lz then [] else [(true, probs (coefficientToBand i) ctx 0)]) ++
        (true, probs (coefficientToBand i) ctx 1) :: (m ++ (decide (c (zigzag i) < 0), 128) :: bits), ctx', ?_, b', hb', ?_⟩
      · unfold writeCoeffs
        have : ¬ (c (zigzag i)).natAbs = 0 := by omega
        simp only [if_neg this, hm, hw, Option.bind_eq_bind, Option.bind_some]
        rfl
      · rw [List.cons_append]
        unfold readCoeffs
        rw [List.append_assoc]
        refine hstart ?_
        rw [if_neg (by decide)]
        rw [List.cons_append, List.append_assoc]
        refine Parses.bind (Parses.getBit true _) ?_
        rw [if_neg (by decide)]
        refine Parses.bind hmp ?_
        rw [List.cons_append]
        exact Parses.bit hp

/-! ### A whole block -/

theorem codedLength_fold (c : Fin 16 → Int) : ∀ (l : List (Fin 16)) (acc : Nat), l.Pairwise (· < ·) →
    let r := l.foldl (fun acc i => if c (zigzag i) ≠ 0 then i.val + 1 else acc) acc
    (∀ i ∈ l, r ≤ i.val → c (zigzag i) = 0) ∧ (r = acc ∨ ∃ i ∈ l, r = i.val + 1 ∧ c (zigzag i) ≠ 0)
  | [], acc, _ => ⟨fun _ h => absurd h List.not_mem_nil, Or.inl rfl⟩
  | i :: l, acc, hl => by
    rw [List.pairwise_cons] at hl
    simp only [List.foldl_cons]
    obtain ⟨h1, h2⟩ := codedLength_fold c l (if c (zigzag i) ≠ 0 then i.val + 1 else acc) hl.2
    refine ⟨fun j hj hr => ?_, ?_⟩
    · rcases List.mem_cons.mp hj with rfl | hj
      · by_contra hc
        rw [if_pos hc] at h2 hr
        rcases h2 with h2 | ⟨k, hk, h2, _⟩
        · omega
        · have : j.val < k.val := hl.1 k hk
          omega
      · exact h1 j hj hr
    · rcases h2 with h2 | ⟨k, hk, h2⟩
      · by_cases hc : c (zigzag i) ≠ 0
        · rw [if_pos hc] at h2 ⊢
          exact Or.inr ⟨i, List.mem_cons_self, h2, hc⟩
        · rw [if_neg hc] at h2 ⊢
          exact Or.inl h2
      · exact Or.inr ⟨k, List.mem_cons_of_mem _ hk, h2⟩

theorem indices_split : ∀ (type : BlockType) (len : Fin 17),
    indicesFrom type.first = (indicesFrom type.first).filter (fun i => decide (i.val < len.val)) ++
      (indicesFrom type.first).filter (fun i => !decide (i.val < len.val)) := by
  intro type; cases type <;> decide +kernel

theorem indices_last : ∀ (type : BlockType) (len : Fin 17), ∀ i ∈
    ((indicesFrom type.first).filter (fun i => decide (i.val < len.val))).getLast?, i.val + 1 = len.val := by
  intro type; cases type <;> decide +kernel

theorem indices_rest_head : ∀ (type : BlockType) (len : Fin 17), len.val < 16 →
    (((indicesFrom type.first).filter (fun i => !decide (i.val < len.val))).head?.map Fin.val) = some (max type.first len.val) := by
  intro type; cases type <;> decide +kernel

theorem indices_rest_nil : ∀ (type : BlockType) (len : Fin 17), ¬ len.val < 16 →
    (indicesFrom type.first).filter (fun i => !decide (i.val < len.val)) = [] := by
  intro type; cases type <;> decide +kernel

theorem indices_sorted (type : BlockType) : (indicesFrom type.first).Pairwise (· < ·) := by
  cases type <;> decide +kernel

theorem indices_missing (type : BlockType) : ∀ i, i ∉ indicesFrom type.first → type = .yAfterY2 ∧ i = 0 := by
  cases type <;> decide +kernel

theorem codedLength_le (type : BlockType) (c : Fin 16 → Int) : codedLength type c ≤ 16 := by
  rcases (codedLength_fold c _ 0 (indices_sorted type)).2 with h | ⟨i, _, h, _⟩
  · unfold codedLength; omega
  · unfold codedLength; omega

theorem codedLength_rest (type : BlockType) (c : Fin 16 → Int) (i : Fin 16) (hi : i ∈ indicesFrom type.first)
    (h : codedLength type c ≤ i.val) : c (zigzag i) = 0 :=
  (codedLength_fold c _ 0 (indices_sorted type)).1 i hi h

theorem codedLength_last (type : BlockType) (c : Fin 16 → Int) (i : Fin 16) (h : i.val + 1 = codedLength type c) :
    c (zigzag i) ≠ 0 := by
  rcases (codedLength_fold c _ 0 (indices_sorted type)).2 with h' | ⟨j, _, h', hj⟩
  · have : codedLength type c = 0 := h'
    omega
  · have : codedLength type c = j.val + 1 := h'
    have : i = j := Fin.ext (by omega)
    rwa [this]

theorem zigzag_zero : zigzag 0 = 0 := by decide

theorem parses_tokens (probs : CoeffProbs) (type : BlockType) (above left : Option Bool) (blk : Block)
    (h : blk.Representable type) :
    ∃ bits, serializeTokens probs type above left blk = some bits ∧ Parses (parseTokens probs type above left {}) bits blk := by
  obtain ⟨len, hlen⟩ : ∃ len : Fin 17, len.val = codedLength type blk.coeffs :=
    ⟨⟨_, Nat.lt_succ_of_le (codedLength_le type blk.coeffs)⟩, rfl⟩
  obtain ⟨wl, hwl⟩ : ∃ wl, wl = (indicesFrom type.first).filter (fun i => decide (i.val < len.val)) := ⟨_, rfl⟩
  obtain ⟨rest, hrest⟩ : ∃ rest, rest = (indicesFrom type.first).filter (fun i => !decide (i.val < len.val)) := ⟨_, rfl⟩
  have hsplit : indicesFrom type.first = wl ++ rest := by rw [hwl, hrest]; exact indices_split type len
  have hz : ∀ i, i ∉ indicesFrom type.first → blk.coeffs (zigzag i) = 0 := by
    intro i hi
    obtain ⟨h1, h2⟩ := indices_missing type i hi
    rw [h2, zigzag_zero]; exact h.dc h1
  obtain ⟨bits, ctx', hw, b', hb', hp⟩ := parses_coeffs (probs type.index) blk.coeffs
    (fun i => by have := h.magnitude i; omega) rest
    (fun i hi => by
      rw [hrest, List.mem_filter] at hi
      refine codedLength_rest type _ i hi.1 ?_
      have := hi.2
      simp only [Bool.not_eq_true', decide_eq_false_iff_not] at this
      omega)
    wl false (tokenContext above left) {}
    (by rw [← hsplit]; exact (indices_sorted type).imp (fun h => ne_of_lt h))
    (by
      rw [← hsplit]
      refine ⟨fun i => ?_, ?_⟩
      · by_cases hi : i ∈ indicesFrom type.first
        · rw [if_pos hi]
        · rw [if_neg hi, hz i hi]
      · constructor
        · intro h; cases h
        · rintro ⟨i, h1, h2⟩; exact absurd (hz i h1) h2)
    (fun hne => by
      refine codedLength_last type _ _ ?_
      rw [← hlen]
      refine indices_last type len _ ?_
      rw [← hwl, Option.mem_def, List.getLast?_eq_some_getLast hne])
    (fun _ => rfl)
  have hbb : b' = blk := by
    have hc : b'.coeffs = blk.coeffs := by
      funext i
      obtain ⟨j, rfl⟩ := zigzag_surj i
      rw [hb'.1 j]; simp
    refine Block.ext hc ?_
    rw [Bool.eq_iff_iff, hb'.2, h.flag]
    constructor
    · rintro ⟨i, _, hi⟩; exact ⟨_, hi⟩
    · rintro ⟨i, hi⟩
      obtain ⟨j, rfl⟩ := zigzag_surj i
      exact ⟨j, List.not_mem_nil, hi⟩
  subst hbb
  refine ⟨bits ++ eobBits (probs type.index) ctx' rest, ?_, ?_⟩
  · unfold serializeTokens
    simp only [← hlen, ← hwl, hw, Option.bind_eq_bind, Option.bind_some]
    rw [if_neg (by decide)]
    by_cases h16 : len.val < 16
    · rw [dif_pos h16]
      have := indices_rest_head type len h16
      rw [← hrest] at this
      cases rest with
      | nil => cases this
      | cons i rest =>
        simp only [List.head?_cons, Option.map_some, Option.some.injEq] at this
        have hi : ∀ h : max type.first len.val < 16, (⟨max type.first len.val, h⟩ : Fin 16) = i := fun _ => Fin.ext this.symm
        rw [hi]
        rfl
    · rw [dif_neg h16]
      have := indices_rest_nil type len h16
      rw [← hrest] at this
      subst this
      simp [eobBits]
  · unfold parseTokens
    rw [hsplit]
    exact hp

/-! ### What the reader can produce -/

theorem produces_extra : ∀ (ps : List Prob) (acc : Nat),
    Produces (readExtra ps acc) (fun v => acc * 2 ^ ps.length ≤ v ∧ v < (acc + 1) * 2 ^ ps.length)
  | [], acc => Produces.pure (by simp)
  | p :: ps, acc => by
    unfold readExtra
    refine Produces.bind (Produces.getBit _) fun b _ => (produces_extra ps _).mono fun v hv => ?_
    have hb : b.toNat ≤ 1 := Bool.toNat_le _
    have h0 : (acc <<< 1) = acc * 2 := by rw [Nat.shiftLeft_eq]
    rw [h0] at hv
    rw [List.length_cons, Nat.pow_succ]
    constructor
    · calc acc * (2 ^ ps.length * 2) = (acc * 2) * 2 ^ ps.length := by ring
        _ ≤ (acc * 2 + b.toNat) * 2 ^ ps.length := Nat.mul_le_mul_right _ (by omega)
        _ ≤ v := hv.1
    · calc v < (acc * 2 + b.toNat + 1) * 2 ^ ps.length := hv.2
        _ ≤ (acc * 2 + 1 + 1) * 2 ^ ps.length := Nat.mul_le_mul_right _ (by omega)
        _ = (acc + 1) * (2 ^ ps.length * 2) := by ring

theorem produces_tokenDecode (t : Nat × List Prob) (h1 : 1 ≤ t.1) (h2 : upperLimit t ≤ 2115) :
    Produces (tokenDecode t) (fun v => 1 ≤ v ∧ v ≤ 2114) := by
  unfold tokenDecode
  refine Produces.bind (produces_extra _ _) fun v hv => Produces.pure ?_
  unfold upperLimit at h2
  have := hv.2
  rw [Nat.zero_add, Nat.one_mul] at this
  omega

theorem Produces.branch {α : Type} {q : Prob} {p r : Parser α} {P : α → Prop} (hp : Produces p P) (hr : Produces r P) :
    Produces (Alfalfa.getBit q >>= fun b => if (!b) = true then p else r) P :=
  Produces.bind (Produces.getBit _) fun b _ => by cases b; exacts [hp, hr]

theorem produces_magnitude (prob : Fin 11 → Prob) : Produces (readMagnitude prob) (fun v => 1 ≤ v.1 ∧ v.1 ≤ 2114) := by
  have tail : ∀ t : Nat × List Prob, 1 ≤ t.1 → upperLimit t ≤ 2115 →
      Produces (tokenDecode t >>= fun v => Pure.pure (v, (2 : Fin 3))) (fun v : Nat × Fin 3 => 1 ≤ v.1 ∧ v.1 ≤ 2114) :=
    fun t h1 h2 => Produces.bind (produces_tokenDecode t h1 h2) fun v hv => Produces.pure hv
  unfold readMagnitude
  refine .branch (.pure ⟨by decide, by decide⟩) (.branch
    (.branch (.pure ⟨by decide, by decide⟩) (.branch (.pure ⟨by decide, by decide⟩) (.pure ⟨by decide, by decide⟩)))
    (.branch (.branch (.bind (Produces.getBit _) fun b _ => .pure ?_) (tail _ (by decide) (by decide)))
      (.branch (.branch (tail _ (by decide) (by decide)) (tail _ (by decide) (by decide)))
        (.branch (tail _ (by decide) (by decide)) (tail _ (by decide) (by decide))))))
  cases b <;> exact ⟨by decide, by decide⟩

/-- Invariant of the reading loop; `l` are the indices still to come. -/
def ReadOk (l : List (Fin 16)) (b : Block) : Prop :=
  (∀ i, -2114 ≤ b.coeffs i ∧ b.coeffs i ≤ 2114) ∧ (∀ i ∈ l, b.coeffs (zigzag i) = 0) ∧
  (b.hasNonzero = true ↔ ∃ i, b.coeffs i ≠ 0)

theorem produces_coeffs (probs : Fin 8 → Fin 3 → Fin 11 → Prob) (z : Fin 16 → Prop) :
    ∀ (l : List (Fin 16)) (lz : Bool) (ctx : Fin 3) (b : Block), l.Nodup → (∀ i ∈ l, ¬ z i) → ReadOk l b →
      (∀ i, z i → b.coeffs (zigzag i) = 0) →
      Produces (readCoeffs probs l lz ctx b) (fun b' => ReadOk [] b' ∧ ∀ i, z i → b'.coeffs (zigzag i) = 0)
  | [], _, _, b, _, _, hb, hz => Produces.pure ⟨hb, hz⟩
  | i :: l, lz, ctx, b, hnd, hlz, hb, hz => by
    have hnd' := List.nodup_cons.mp hnd
    have hdone : ReadOk [] b := ⟨hb.1, fun _ h => absurd h List.not_mem_nil, hb.2.2⟩
    unfold readCoeffs
    have hmore : Produces (readMore lz (probs (coefficientToBand i) ctx 0)) (fun _ => True) := by
      unfold readMore
      cases lz
      · exact Produces.getBit _
      · exact Produces.pure trivial
    refine Produces.bind hmore fun more _ => ?_
    cases more
    · exact Produces.pure ⟨hdone, hz⟩
    rw [if_neg (by decide)]
    refine Produces.bind (Produces.getBit _) fun nonzero _ => ?_
    cases nonzero
    · exact produces_coeffs probs z l true 0 b hnd'.2 (fun j hj => hlz j (List.mem_cons_of_mem _ hj))
        ⟨hb.1, fun j hj => hb.2.1 j (List.mem_cons_of_mem _ hj), hb.2.2⟩ hz
    rw [if_neg (by decide)]
    refine Produces.bind (produces_magnitude _) fun v hv => ?_
    refine Produces.bind (Produces.getBit _) fun s _ => ?_
    refine produces_coeffs probs z l false _ _ hnd'.2 (fun j hj => hlz j (List.mem_cons_of_mem _ hj)) ⟨?_, ?_, ?_⟩ ?_
    · intro j
      by_cases hj : j = zigzag i
      · subst hj
        simp only [Function.update_self]
        split <;> omega
      · simp only [Function.update_of_ne hj]; exact hb.1 j
    · intro j hj
      have : zigzag j ≠ zigzag i := fun h => hnd'.1 (zigzag_inj h ▸ hj)
      simp only [Function.update_of_ne this]
      exact hb.2.1 j (List.mem_cons_of_mem _ hj)
    · simp only [true_iff]
      refine ⟨zigzag i, ?_⟩
      simp only [Function.update_self]
      split <;> omega
    · intro j hj
      have : zigzag j ≠ zigzag i := fun h => hlz i List.mem_cons_self (zigzag_inj h ▸ hj)
      simp only [Function.update_of_ne this]
      exact hz j hj

theorem produces_tokens (probs : CoeffProbs) (type : BlockType) (above left : Option Bool) :
    Produces (parseTokens probs type above left {}) (Block.Representable type) := by
  unfold parseTokens
  refine (produces_coeffs _ (fun i => i ∉ indicesFrom type.first) _ _ _ _
    ((indices_sorted type).imp (fun h => ne_of_lt h)) (fun i hi h => h hi) ⟨fun _ => (by decide : (-2114 : Int) ≤ 0 ∧ (0 : Int) ≤ 2114), fun _ _ => rfl, ?_⟩
    (fun _ _ => rfl)).mono fun b hb => ⟨hb.1.1, ?_, hb.1.2.2⟩
  · constructor
    · intro h; cases h
    · rintro ⟨i, hi⟩; exact absurd rfl hi
  · rintro rfl
    have := hb.2 0 (by decide +kernel)
    rwa [zigzag_zero] at this

/-! ### Values that are too large -/

theorem writeMagnitude_large (prob : Fin 11 → Prob) (v : Nat) (h : 2114 < v) : writeMagnitude prob v = none := by
  have u1 : upperLimit tokenDecoder1 = 11 := by decide
  have u2 : upperLimit tokenDecoder2 = 19 := by decide
  have u3 : upperLimit tokenDecoder3 = 35 := by decide
  have u4 : upperLimit tokenDecoder4 = 67 := by decide
  have u5 : upperLimit tokenDecoder5 = 2115 := by decide
  have c4 : ¬ v < tokenDecoder1.1 := by show ¬ v < 7; omega
  unfold writeMagnitude
  rw [u1, u2, u3, u4, u5, if_neg (by omega), if_neg (by omega), if_neg (by omega), if_neg (by omega), if_neg c4,
    if_neg (by omega), if_neg (by omega), if_neg (by omega), if_neg (by omega), if_neg (by omega)]

theorem writeCoeffs_large (probs : Fin 8 → Fin 3 → Fin 11 → Prob) (c : Fin 16 → Int) (i : Fin 16)
    (hi : 2114 < (c (zigzag i)).natAbs) : ∀ (l : List (Fin 16)) (lz : Bool) (ctx : Fin 3), i ∈ l →
      writeCoeffs probs c l lz ctx = none
  | [], _, _, h => by cases h
  | j :: l, lz, ctx, h => by
    unfold writeCoeffs
    by_cases hj : (c (zigzag j)).natAbs = 0
    · have hm : i ∈ l := by
        rcases List.mem_cons.mp h with rfl | h
        · omega
        · exact h
      simp only [if_pos hj, writeCoeffs_large probs c i hi l true 0 hm]
      rfl
    · simp only [if_neg hj]
      by_cases hij : i = j
      · subst hij
        rw [writeMagnitude_large _ _ hi]; rfl
      · have hm : i ∈ l := by
          rcases List.mem_cons.mp h with rfl | h
          · exact absurd rfl hij
          · exact h
        cases writeMagnitude (probs (coefficientToBand j) ctx) (c (zigzag j)).natAbs with
        | none => rfl
        | some m =>
          simp only [Option.bind_eq_bind, Option.bind_some, writeCoeffs_large probs c i hi l false m.2 hm]
          rfl

theorem serializeTokens_large (probs : CoeffProbs) (type : BlockType) (above left : Option Bool) (blk : Block) (i : Fin 16)
    (hi : 2114 < (blk.coeffs i).natAbs) (hdc : type = .yAfterY2 → i ≠ 0) :
    serializeTokens probs type above left blk = none := by
  obtain ⟨j, rfl⟩ := zigzag_surj i
  have hj : j ∈ indicesFrom type.first := by
    by_contra hj
    obtain ⟨h1, h2⟩ := indices_missing type j hj
    exact hdc h1 (by rw [h2, zigzag_zero])
  have : j ∈ (indicesFrom type.first).filter (fun i => decide (i.val < codedLength type blk.coeffs)) := by
    rw [List.mem_filter]
    refine ⟨hj, ?_⟩
    rw [decide_eq_true_iff]
    by_contra hlt
    have := codedLength_rest type blk.coeffs j hj (by omega)
    omega
  unfold serializeTokens
  simp only [writeCoeffs_large _ _ j hi _ _ _ this]
  rfl

end Alfalfa
