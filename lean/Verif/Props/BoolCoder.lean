import Verif.Proof.BoolDecoder

/-! # Properties of the arithmetic coder (C01, C02, C03, C56) -/

namespace Alfalfa

/-- **C01.** Any sequence of bits, each under any probability, is written without failure, and reading the bytes
with the same probabilities gives the same bits. -/
theorem C01_bool_coder_round_trip (s : List (Bool × Prob)) :
    ∃ bytes, encodeBits s = some bytes ∧
      (BoolDecoder.init bytes).getAll (s.map Prod.snd) = s.map Prod.fst := by
  obtain ⟨bytes, h1, -, h2⟩ := encode_reads s
  exact ⟨bytes, h1, reads_getAll h2⟩

/-- C01 has no hypothesis; this instance writes an actual byte string. -/
example : encodeBits [(true, 1), (true, 3), (false, 255), (true, 0), (true, 128)] = some [130, 0] := by
  decide +kernel

/-- A consequence of C01 stated on its own: two bit strings under the same probabilities that are written as the
same bytes are the same bit string. -/
theorem C01_encoding_injective (ps : List Prob) (a b : List Bool) (ha : a.length = ps.length) (hb : b.length = ps.length)
    (h : encodeBits (a.zip ps) = encodeBits (b.zip ps)) : a = b := by
  obtain ⟨x, h1, h2⟩ := C01_bool_coder_round_trip (a.zip ps)
  obtain ⟨y, h3, h4⟩ := C01_bool_coder_round_trip (b.zip ps)
  rw [h1, h3] at h
  cases h
  rw [List.map_snd_zip (by omega), List.map_fst_zip (by omega)] at h2 h4
  rw [← h2, ← h4]

/-- **C02.** Writing any bits never hits undefined behaviour (`none`), leaves the range register in 128..255, and
finishing succeeds too, with at least one byte of output. -/
theorem C02_encoder_no_undefined_behaviour (s : List (Bool × Prob)) :
    ∃ e : BoolEncoder, ({} : BoolEncoder).putAll s = some e ∧ 128 ≤ e.range ∧ e.range ≤ 255 ∧ e.bottom < 2 ^ 32 ∧
      ∃ bytes, e.finish = some bytes ∧ bytes ≠ [] := by
  obtain ⟨e1, w1, h1, h2⟩ := putAll_spec einv_init s
  obtain ⟨bytes, h3, h4, -⟩ := encode_reads s
  refine ⟨e1, h1, ?_, ?_, ?_, bytes, ?_, h4⟩
  · rw [h2.range]; exact h2.ok.1
  · rw [h2.range]; exact h2.ok.2
  · have a := h2.room
    have b := h2.ok.1
    have : (2:Nat) ^ (w1 + 1) ≤ 2 ^ 32 := Nat.pow_le_pow_right (by omega) (by have := h2.w2; omega)
    omega
  · simp only [encodeBits, h1, Option.bind_eq_bind, Option.bind_some] at h3
    exact h3

/-- The carry ripples; with no byte below 255 to absorb it the model reports undefined behaviour, which C02 excludes. -/
example : addOneToOutput [1, 255, 255] = some [2, 0, 0] ∧ addOneToOutput [255] = none := by decide +kernel

/-- **C03.** On any bytes and any probabilities the decoder's range register is in 128..255 after every read (so the
renormalisation loop has ended by itself), the bit counter is below 8, and what is left to read is a suffix of
the input. -/
theorem C03_decoder_total (chunk : List UInt8) (complete : Bool) (ps : List Prob) :
    let d := stateAfter (BoolDecoder.init chunk complete) ps
    128 ≤ d.range ∧ d.range ≤ 255 ∧ d.bitCount < 8 ∧ d.chunk <:+ chunk := by
  intro d
  have h : DecOk d ∧ d.chunk <:+ chunk := by
    apply stateAfter_inv (P := fun d => DecOk d ∧ d.chunk <:+ chunk)
    · intro d p ⟨h1, h2⟩
      exact ⟨get_decOk h1 p, (get_suffix d p).trans h2⟩
    · refine ⟨init_decOk _ _, ?_⟩
      unfold BoolDecoder.init
      simp only
      refine (loadOctet_suffix _).trans ?_
      exact loadOctet_suffix { chunk := chunk, completeChunk := complete }
  exact ⟨h.1.r1, h.1.r2, h.1.bc, h.2⟩

/-- **C03**, zero padding: a complete chunk reads as if followed by any number of zero bytes. -/
theorem C03_decoder_zero_padding (chunk : List UInt8) (ps : List Prob) (m : Nat) :
    (BoolDecoder.init (chunk ++ List.replicate m 0)).getAll ps = (BoolDecoder.init chunk).getAll ps :=
  padRel_getAll (padRel_init chunk m) ps

/-- The padding claim is about real reads past the end: one byte, twenty reads. -/
example : (BoolDecoder.init [0xa5]).getAll (List.replicate 20 128) ≠ List.replicate 20 false := by decide +kernel

/-- **C56** (partial: the first byte must not be 0xff).  The value register stays below 256 times the range. -/
theorem C56_value_in_range_partial (chunk : List UInt8) (complete : Bool) (ps : List Prob)
    (h : chunk.head? ≠ some 0xff) :
    let d := stateAfter (BoolDecoder.init chunk complete) ps
    d.value < 256 * d.range := by
  intro d
  have hi : ValOk (BoolDecoder.init chunk complete) := by
    unfold BoolDecoder.init
    simp only
    rcases chunk with _ | ⟨b, rest⟩
    · unfold BoolDecoder.loadOctet
      cases complete <;> simp <;> exact ⟨by decide, by simp⟩
    · have hb : b.toNat < 255 := by
        have h1 : b.toNat < 2 ^ 8 := UInt8.toNat_lt _
        have h2 : b.toNat ≠ 255 := by
          intro hc
          apply h
          simp only [List.head?_cons, Option.some.injEq]
          exact UInt8.toNat_inj.mp hc
        omega
      have hsh : (0 ||| b.toNat) <<< 8 % 2 ^ 32 = b.toNat * 256 := by
        rw [Nat.zero_or, Nat.shiftLeft_eq]; omega
      apply loadOctet_valOk
      · show (0 ||| b.toNat) <<< 8 % 2 ^ 32 < 256 * 255
        rw [hsh]; omega
      · show 256 ∣ (0 ||| b.toNat) <<< 8 % 2 ^ 32
        rw [hsh]; exact Nat.dvd_mul_left _ _
      · rfl
  have h2 : DecOk d ∧ ValOk d := by
    apply stateAfter_inv (P := fun d => DecOk d ∧ ValOk d)
    · intro d p ⟨h1, h2⟩
      exact ⟨get_decOk h1 p, get_valOk h1 h2 p⟩
    · exact ⟨init_decOk _ _, hi⟩
  exact h2.2.lt

example : ([0xfe, 0xff, 3] : List UInt8).head? ≠ some 0xff := by decide

/-- **C56**, the case left out is really false of the code: input starting with 0xff starts outside the range. -/
theorem C56_value_out_of_range : ∃ chunk : List UInt8, ¬ ((BoolDecoder.init chunk).value < 256 * (BoolDecoder.init chunk).range) :=
  ⟨[0xff, 0xff], by decide +kernel⟩

end Alfalfa
