import Verif.Spec.CoefficientBits
import Verif.Proof.Frame
import Verif.Props.Tokens
import Verif.Props.ModeBits

/-! C107: the coefficients of every macroblock are coded with the tokens, in the order and in the contexts the format
gives. -/

namespace Alfalfa

open CoefficientSpec

theorem scan_eq : scan = (List.finRange 16).map zigzag := by decide +kernel

theorem band_eq : ∀ i : Fin 16, coefficientToBand i = band i.val := by decide +kernel

theorem and_shift_testBit (x k : Nat) : decide (x &&& (1 <<< k) ≠ 0) = x.testBit k := by
  rw [Nat.one_shiftLeft, Nat.and_two_pow]
  cases x.testBit k <;> simp

theorem writeMagnitude_spec (prob : Fin 11 → Prob) (v : Nat) (h1 : 1 ≤ v) (h2 : v ≤ 2114) :
    writeMagnitude prob v = some (((token v).drop 2).map (fun x => (x.1, prob (Fin.ofNat 11 x.2))) ++ extra v,
      if v = 1 then 1 else 2) := by
  have u1 : upperLimit tokenDecoder1 = 11 := by decide
  have u2 : upperLimit tokenDecoder2 = 19 := by decide
  have u3 : upperLimit tokenDecoder3 = 35 := by decide
  have u4 : upperLimit tokenDecoder4 = 67 := by decide
  have u5 : upperLimit tokenDecoder5 = 2115 := by decide
  have b1 : tokenDecoder1.1 = 7 := rfl
  unfold writeMagnitude token extra category
  rw [u1, u2, u3, u4, u5, b1]
  by_cases e1 : v = 1
  · subst e1; rfl
  by_cases e2 : v = 2
  · subst e2; rfl
  by_cases e3 : v = 3
  · subst e3; rfl
  by_cases e4 : v = 4
  · subst e4; rfl
  have e0 : ¬ v = 0 := by omega
  have e5 : ¬ v < 5 := by omega
  simp only [if_neg e0, if_neg e1, if_neg e2, if_neg e3, if_neg e4, if_neg e5]
  by_cases c1 : v < 7
  · simp only [if_pos c1]
    have : v = 5 ∨ v = 6 := by omega
    rcases this with rfl | rfl <;> rfl
  simp only [if_neg c1]
  by_cases c2 : v < 11
  · simp only [if_pos c2, tokenEncode, if_neg (show ¬ v < tokenDecoder1.1 by rw [b1]; omega)]
    simp only [tokenDecoder1, writeExtra, and_shift_testBit]
    rfl
  simp only [if_neg c2]
  by_cases c3 : v < 19
  · simp only [if_pos c3, tokenEncode, if_neg (show ¬ v < tokenDecoder2.1 from c2)]
    simp only [tokenDecoder2, writeExtra, and_shift_testBit]
    rfl
  simp only [if_neg c3]
  by_cases c4 : v < 35
  · simp only [if_pos c4, tokenEncode, if_neg (show ¬ v < tokenDecoder3.1 from c3)]
    simp only [tokenDecoder3, writeExtra, and_shift_testBit]
    rfl
  simp only [if_neg c4]
  by_cases c5 : v < 67
  · simp only [if_pos c5, tokenEncode, if_neg (show ¬ v < tokenDecoder4.1 from c4)]
    simp only [tokenDecoder4, writeExtra, and_shift_testBit]
    rfl
  simp only [if_neg c5, if_pos (show v < 2115 by omega), tokenEncode, if_neg (show ¬ v < tokenDecoder5.1 from c5)]
  simp only [tokenDecoder5, writeExtra, and_shift_testBit]
  rfl

theorem token_head (v : Nat) (h : v ≠ 0) : token v = (true, 0) :: (true, 1) :: (token v).drop 2 := by
  unfold token
  rw [if_neg h]
  repeat (split; · rfl)
  rfl

theorem writeCoeffs_spec (probs : Fin 8 → Fin 3 → Fin 11 → Prob) (c : Fin 16 → Int) (hc : ∀ i, (c i).natAbs ≤ 2114) :
    ∀ (todo : List (Fin 16)) (n : Nat) (lz : Bool) (ctx : Fin 3), todo.map Fin.val = List.range' n todo.length →
    ∃ bits lz' ctx', writeCoeffs probs c todo lz ctx = some (bits, lz', ctx') ∧
      tokens probs n ctx lz (todo.map fun i => c (zigzag i)) = bits ++ tokens probs (n + todo.length) ctx' lz' []
  | [], n, lz, ctx, _ => ⟨[], lz, ctx, rfl, rfl⟩
  | idx :: rest, n, lz, ctx, h => by
    rw [List.length_cons, List.range'_succ, List.map_cons, List.cons.injEq] at h
    have hb : coefficientToBand idx = band n := by rw [band_eq, h.1]
    obtain ⟨bits, lz', ctx', h1, h2⟩ := writeCoeffs_spec probs c hc rest (n + 1) (decide (c (zigzag idx) = 0))
      (contextAfter (c (zigzag idx))) h.2
    have hlen : n + (idx :: rest).length = n + 1 + rest.length := by rw [List.length_cons]; omega
    rw [hlen, List.map_cons]
    unfold writeCoeffs
    simp only [hb]
    unfold tokens
    rw [h2]
    by_cases hz : c (zigzag idx) = 0
    · have hz' : (c (zigzag idx)).natAbs = 0 := by omega
      have e : contextAfter (c (zigzag idx)) = 0 := if_pos hz
      rw [e, decide_eq_true hz] at h1
      rw [if_pos hz', h1]
      refine ⟨_, lz', ctx', rfl, ?_⟩
      simp only [hz', if_pos hz]
      cases lz <;> rfl
    · have hz' : ¬ (c (zigzag idx)).natAbs = 0 := by omega
      have e : contextAfter (c (zigzag idx)) = if (c (zigzag idx)).natAbs = 1 then 1 else 2 := if_neg hz
      rw [e, decide_eq_false hz] at h1
      rw [if_neg hz', writeMagnitude_spec _ _ (by omega) (hc _)]
      simp only [Option.bind_eq_bind, Option.bind_some, h1, if_neg hz]
      refine ⟨_, lz', ctx', rfl, ?_⟩
      have ht := token_head _ hz'
      generalize token (c (zigzag idx)).natAbs = w at ht ⊢
      generalize w.drop 2 = t at ht ⊢
      subst ht
      cases lz <;> simp <;> exact ⟨rfl, rfl⟩

theorem trim_append {p : Int → Bool} {a b : List Int} (hb : ∀ x ∈ b, p x = true) (ha : ∀ x ∈ a.getLast?, p x = false) :
    (a ++ b).rdropWhile p = a := by
  induction b using List.reverseRecOn with
  | nil =>
    rw [List.append_nil, List.rdropWhile_eq_self_iff]
    intro hl
    rw [ha _ (List.getLast?_eq_some_getLast hl)]
    decide
  | append_singleton b x ih =>
    rw [← List.append_assoc, List.rdropWhile_concat_pos _ _ _ (hb x (by simp))]
    exact ih fun y hy => hb y (by simp [hy])

theorem indices_range : ∀ (type : BlockType) (len : Fin 17),
    (((indicesFrom type.first).filter (fun i => decide (i.val < len.val))).map Fin.val =
      List.range' type.first ((indicesFrom type.first).filter (fun i => decide (i.val < len.val))).length) ∧
    (len.val < 16 → type.first + ((indicesFrom type.first).filter (fun i => decide (i.val < len.val))).length = max type.first len.val) ∧
    (¬ len.val < 16 → type.first + ((indicesFrom type.first).filter (fun i => decide (i.val < len.val))).length = 16) := by
  intro type; cases type <;> decide +kernel

/-- **C107**, one block: every block the format can carry is written as the tokens the format gives for it, with their
probabilities, and the parser reads those bits as that block. -/
theorem C107_block (probs : CoeffProbs) (type : BlockType) (above left : Option Bool) (blk : Block) (h : blk.Representable type) :
    serializeTokens probs type above left blk = some (blockBits probs type (above.getD false) (left.getD false) blk.coeffs) ∧
    RoundTrips (parseTokens probs type above left {}) (blockBits probs type (above.getD false) (left.getD false) blk.coeffs) blk := by
  have hw : serializeTokens probs type above left blk =
      some (blockBits probs type (above.getD false) (left.getD false) blk.coeffs) := by
    obtain ⟨out, hout, _⟩ := C07_token_round_trip probs type above left blk h
    have hle := codedLength_le type blk.coeffs
    obtain ⟨r1, r2, r3⟩ := indices_range type ⟨codedLength type blk.coeffs, by omega⟩
    have hsplit := indices_split type ⟨codedLength type blk.coeffs, by omega⟩
    have hlast := indices_last type ⟨codedLength type blk.coeffs, by omega⟩
    simp only at r1 r2 r3 hsplit hlast
    have hctx : tokenContext above left = Fin.ofNat 3 ((above.getD false).toNat + (left.getD false).toNat) := by
      unfold tokenContext
      cases above.getD false <;> cases left.getD false <;> rfl
    have hplane : plane type = type.index := by cases type <;> rfl
    have hstart : start type = type.first := by cases type <;> rfl
    obtain ⟨bits, lz, ctx, h1, h2⟩ := writeCoeffs_spec (probs type.index) blk.coeffs
      (fun i => by have := h.magnitude i; omega) _ type.first false (tokenContext above left) r1
    have htrim : ((scan.drop (start type)).map blk.coeffs).rdropWhile (· = 0) =
        ((indicesFrom type.first).filter (fun i => decide (i.val < codedLength type blk.coeffs))).map fun i => blk.coeffs (zigzag i) := by
      have e : (scan.drop (start type)).map blk.coeffs = (indicesFrom type.first).map fun i => blk.coeffs (zigzag i) := by
        rw [scan_eq, hstart, ← List.map_drop, List.map_map]
        rfl
      rw [e]
      conv_lhs => rw [hsplit]
      rw [List.map_append]
      apply trim_append
      · intro x hx
        obtain ⟨i, hi, rfl⟩ := List.mem_map.1 hx
        rw [List.mem_filter] at hi
        have : ¬ i.val < codedLength type blk.coeffs := by simpa using hi.2
        exact decide_eq_true (codedLength_rest type blk.coeffs i hi.1 (by omega))
      · intro x hx
        rw [List.getLast?_map] at hx
        obtain ⟨i, hi, rfl⟩ := Option.mem_map.1 hx
        exact decide_eq_false (codedLength_last type blk.coeffs i (hlast i hi))
    unfold blockBits
    rw [htrim, hplane, hstart, ← hctx, h2]
    unfold serializeTokens at hout ⊢
    simp only [h1, Option.bind_eq_bind, Option.bind_some] at hout ⊢
    cases lz with
    | true => rw [if_pos rfl] at hout; cases hout
    | false =>
      rw [if_neg Bool.false_ne_true]
      by_cases hl : codedLength type blk.coeffs < 16
      · rw [dif_pos hl, r2 hl]
        unfold tokens
        have : max type.first (codedLength type blk.coeffs) < 16 := by
          cases type <;> simp only [BlockType.first] <;> omega
        rw [if_pos this, band_eq]
        rfl
      · rw [dif_neg hl, r3 hl]
        unfold tokens
        rw [if_neg (by omega), List.append_nil]
        rfl
  obtain ⟨bits, h1, h2⟩ := C07_token_round_trip probs type above left blk h
  rw [hw] at h1
  cases h1
  exact ⟨hw, h2⟩

theorem chroma_spec (probs : CoeffProbs) (above left : Option (Fin 4 → Block)) (b : Fin 4 → Block) (h : ∀ i, (b i).Representable .uv) :
    writeChroma probs above left b =
      some (chromaBits probs (above.map fun f j => (f j).hasNonzero) (left.map fun f j => (f j).hasNonzero) b) := by
  unfold writeChroma
  simp only [(C107_block probs .uv _ _ _ (h 0)).1, (C107_block probs .uv _ _ _ (h 1)).1, (C107_block probs .uv _ _ _ (h 2)).1,
    (C107_block probs .uv _ _ _ (h 3)).1, Option.bind_eq_bind, Option.bind_some]
  cases above <;> cases left <;> simp [chromaBits, List.finRange, chromaAbove, chromaLeft] <;> rfl

theorem y2_present_iff (m : MBModes) : m.y2Coded = true ↔ m.yMode ≠ B_PRED ∧ m.yMode ≠ SPLITMV := by
  unfold MBModes.y2Coded
  simp

/-- **C107**, a macroblock: what is written for the coefficients of any macroblock, whatever is around it, is the sequence
of bits, with their probabilities, that the format gives, and the parser reads those bits as these coefficients. -/
theorem C107_macroblock (probs : CoeffProbs) (m : MBModes) (y2Above y2Left : Option Bool) (above left : Option Residue) (r : Residue)
    (h : r.Ok m) :
    writeResidue probs m y2Above y2Left above left r =
      some (residueBits probs m (y2Above.getD false) (y2Left.getD false) above left r) ∧
    RoundTrips (parseResidue probs m y2Above y2Left above left)
      (residueBits probs m (y2Above.getD false) (y2Left.getD false) above left r) r := by
  have hw : writeResidue probs m y2Above y2Left above left r =
      some (residueBits probs m (y2Above.getD false) (y2Left.getD false) above left r) := by
    unfold writeResidue residueBits
    by_cases hs : m.skip = some true
    · rw [if_pos hs, if_pos (by rw [hs]; rfl)]
    have hs' : ¬ m.skip.getD false = true := by
      intro h'
      cases hk : m.skip with
      | none => rw [hk] at h'; cases h'
      | some b => rw [hk] at h'; exact hs (by rw [hk]; exact congrArg some h')
    rw [if_neg hs, if_neg hs']
    have hy2 : writeY2 probs m.y2Coded y2Above y2Left r.y2 = some (if m.yMode ≠ B_PRED ∧ m.yMode ≠ SPLITMV then
        blockBits probs .y2 (y2Above.getD false) (y2Left.getD false) r.y2.coeffs else []) := by
      unfold writeY2
      by_cases hc : m.y2Coded = true
      · rw [if_pos hc, if_pos ((y2_present_iff m).1 hc)]
        exact (C107_block _ _ _ _ _ h.y2).1
      · rw [if_neg hc, if_neg (fun h' => hc ((y2_present_iff m).2 h'))]
    have ht : m.yType = if m.yMode ≠ B_PRED ∧ m.yMode ≠ SPLITMV then .yAfterY2 else .yWithoutY2 := by
      unfold MBModes.yType
      by_cases hc : m.y2Coded = true
      · rw [if_pos hc, if_pos ((y2_present_iff m).1 hc)]
      · rw [if_neg hc, if_neg (fun h' => hc ((y2_present_iff m).2 h'))]
    have hrep : ∀ i, (r.y i).Representable m.yType := by
      intro i
      have := h.y i
      rw [ht]
      by_cases hc : m.yMode ≠ B_PRED ∧ m.yMode ≠ SPLITMV
      · rw [if_pos hc]
        rwa [if_neg (by rintro (h' | h'); exacts [hc.1 h', hc.2 h'])] at this
      · rw [if_neg hc]
        rwa [if_pos (by by_contra h'; exact hc ⟨fun e => h' (Or.inl e), fun e => h' (Or.inr e)⟩)] at this
    have hmap : ∀ (x : Option Residue), (x.map (·.y)).map (fun (f : Fin 16 → Block) i => (f i).hasNonzero) =
        x.map fun n i => (n.y i).hasNonzero := fun x => by cases x <;> rfl
    have hluma : ∀ i, writeLuma probs m.yType (above.map (·.y)) (left.map (·.y)) r.y i = some (blockBits probs m.yType
        (ModeSpec.blockAbove (fun i => (r.y i).hasNonzero) (above.map fun n i => (n.y i).hasNonzero)
          (left.map fun n i => (n.y i).hasNonzero) false i)
        (ModeSpec.blockLeft (fun i => (r.y i).hasNonzero) (above.map fun n i => (n.y i).hasNonzero)
          (left.map fun n i => (n.y i).hasNonzero) false i) (r.y i).coeffs) := by
      intro i
      unfold writeLuma
      rw [(C107_block _ _ _ _ _ (hrep i)).1]
      have ha : (aboveOf r.y (above.map (·.y)) i).map (·.hasNonzero) =
          aboveOf (fun i => (r.y i).hasNonzero) (above.map fun n i => (n.y i).hasNonzero) i := by
        unfold aboveOf
        split <;> cases above <;> rfl
      have hl : (leftOf r.y (left.map (·.y)) i).map (·.hasNonzero) =
          leftOf (fun i => (r.y i).hasNonzero) (left.map fun n i => (n.y i).hasNonzero) i := by
        unfold leftOf
        split <;> cases left <;> rfl
      rw [ha, hl, ModeSpec.aboveOf_blockAbove _ _ (left.map fun n i => (n.y i).hasNonzero),
        ModeSpec.leftOf_blockLeft _ (above.map fun n i => (n.y i).hasNonzero)]
    rw [hy2, writeGroups_single hluma, chroma_spec _ _ _ _ h.u, chroma_spec _ _ _ _ h.v, ht]
    simp only [Option.bind_eq_bind, Option.bind_some, Option.map_map, List.append_assoc]
    rfl
  obtain ⟨bits, h1, h2⟩ := parses_residue probs m y2Above y2Left above left r h
  rw [hw] at h1
  cases h1
  exact ⟨hw, h2.roundTrips⟩

/-! ### Concrete cases -/

/-- Minus nine, then two zeros, then one, at the beginning of a chroma block: two bits for the category of seven to ten, one
for the zero after which the end is not excluded, none for the place after it. -/
example : blockBits (fun _ _ _ _ => 7) .uv false true ![-9, 0, 0, 0, 0, 0, 0, 0, 1, 0, 0, 0, 0, 0, 0, 0] =
    [(true, 7), (true, 7), (true, 7), (true, 7), (false, 7), (true, 7), (true, 165), (false, 145), (true, 128),
      (true, 7), (false, 7), (false, 7), (true, 7), (false, 7), (false, 128), (false, 7)] := by decide +kernel

example : exampleBlock.Representable .yAfterY2 :=
  ⟨by decide +kernel, fun _ => rfl, iff_of_true rfl ⟨1, by decide⟩⟩

end Alfalfa
