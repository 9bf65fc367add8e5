import Verif.Spec.Arithmetic
import Verif.Props.BoolCoder

/-! C110: the arithmetic coder is the one of the format. -/

namespace Alfalfa

open ArithmeticSpec

theorem splitPoint_spec (r : Nat) (p : Prob) : splitPoint r p = split r p.toNat := by
  unfold splitPoint split
  rw [Nat.shiftRight_eq_div_pow]

theorem doublings_table : ∀ r : Fin 256, 1 ≤ r.val → vp8Norm[r.val]? = some (doublings r) := by decide +kernel

theorem doublings_spec {r : Nat} (h1 : 1 ≤ r) (h2 : r ≤ 255) : doublings r = normK r := by
  have a := (norm_spec r h1 h2).1
  have b : vp8Norm[r]? = some (doublings r) := doublings_table ⟨r, by omega⟩ h1
  exact Option.some.inj (b.symm.trans a)

theorem number_spec (l : List UInt8) : number l = bytesVal l := by
  induction l with
  | nil => rfl
  | cons x xs ih =>
    have := bytesVal_append [x] xs
    rw [List.singleton_append] at this
    rw [this, number, ih]
    simp [bytesVal]

/-- The comparison of the specification is the one with the interval. -/
theorem compare_spec (N A n m S : Nat) (h : S + 8 ≤ 8 * m) :
    A * 256 ^ n ≤ 256 * N * 2 ^ S ↔ A * 2 ^ (8 * (n + m) - 8 - S) ≤ N * 256 ^ m := by
  have e1 : A * 2 ^ (8 * (n + m) - 8 - S) = A * 256 ^ n * 2 ^ (8 * m - 8 - S) := by
    rw [Nat.mul_assoc, show (256 : Nat) ^ n = 2 ^ (8 * n) by rw [Nat.pow_mul], ← Nat.pow_add]
    congr 2
    omega
  have e2 : N * 256 ^ m = 256 * N * 2 ^ S * 2 ^ (8 * m - 8 - S) := by
    rw [show (256 : Nat) ^ m = 2 ^ (8 * m) by rw [Nat.pow_mul], Nat.mul_assoc (256 * N), ← Nat.pow_add, Nat.mul_comm 256 N, Nat.mul_assoc,
      show (256 : Nat) = 2 ^ 8 from rfl, ← Nat.pow_add]
    congr 2
    omega
  rw [e1, e2]
  exact (Nat.mul_le_mul_right_iff (Nat.two_pow_pos _)).symm

theorem decode_spec {bytes : List UInt8} {m : Nat} : ∀ (ps : List Prob) {d : BoolDecoder} {g : G} {value : Nat},
    DI (bytes ++ List.replicate m 0) d g → g.Ok → value + g.L * 256 ^ bytes.length = 256 * number bytes * 2 ^ g.S →
    g.S + 7 * ps.length + 16 ≤ 8 * m → d.getAll ps = decode (256 ^ bytes.length) value g.R ps
  | [], _, _, _, _, _, _, _ => rfl
  | p :: ps, d, g, value, hd, hok, hv, hm => by
    rw [List.length_cons] at hm
    have hlen : (bytes ++ List.replicate m (0 : UInt8)).length = bytes.length + m := by rw [List.length_append, List.length_replicate]
    have hB : bytesVal (bytes ++ List.replicate m 0) = number bytes * 256 ^ m := by
      rw [bytesVal_append, bytesVal_zeros, List.length_replicate, number_spec, Nat.add_zero]
    have step : ∀ b : Bool, (b = decide (split g.R p.toNat * 256 ^ bytes.length ≤ value)) →
        (d.get p).1 = b ∧ DI (bytes ++ List.replicate m 0) (d.get p).2 (g.step b p) := by
      intro b hb
      refine hd.get hok b p ?_
      have hn := G.next_bounds hok.1 hok.2 b p
      obtain ⟨-, -, -, n3, -⟩ := norm_spec _ hn.1 hn.2.1
      have hcmp := compare_spec (number bytes) (g.L + split g.R p.toNat) bytes.length m g.S (by omega)
      have hcond : split g.R p.toNat * 256 ^ bytes.length ≤ value ↔
          (g.L + split g.R p.toNat) * 256 ^ bytes.length ≤ 256 * number bytes * 2 ^ g.S := by
        rw [← hv, Nat.add_mul]; omega
      have hsub : (g.L + G.add g.R b p) * 2 ^ (8 * (bytes.length + m) - 8 - g.S) ≤ number bytes * 256 ^ m ∧
          number bytes * 256 ^ m < (g.L + G.add g.R b p + G.next g.R b p) * 2 ^ (8 * (bytes.length + m) - 8 - g.S) := by
        have lo := hd.lo; have hi := hd.hi
        rw [hB, hlen] at lo hi
        have hs := splitPoint_lt g.R p (by have := hok.1; omega)
        cases b with
        | true =>
          have c := hcmp.mp (hcond.mp (of_decide_eq_true hb.symm))
          refine ⟨?_, ?_⟩
          · simp only [G.add, if_true, splitPoint_spec]
            exact c
          · simp only [G.add, G.next, if_true]
            rw [show g.L + splitPoint g.R p + (g.R - splitPoint g.R p) = g.L + g.R by omega]
            exact hi
        | false =>
          have c := fun h => of_decide_eq_false hb.symm (hcond.mpr (hcmp.mpr h))
          refine ⟨?_, ?_⟩
          · simp only [G.add, Bool.false_eq_true, if_false, Nat.add_zero]
            exact lo
          · simp only [G.add, G.next, Bool.false_eq_true, if_false, Nat.add_zero, splitPoint_spec]
            exact Nat.lt_of_not_le c
      have e : (2 : Nat) ^ (8 * (bytes.length + m) - 8 - g.S) = 2 ^ normK (G.next g.R b p) *
          2 ^ (8 * (bytes.length + m) - 8 - (g.S + normK (G.next g.R b p))) := (two_pow_mul (by omega)).symm
      rw [e, ← Nat.mul_assoc, ← Nat.mul_assoc, Nat.add_mul _ (G.next g.R b p)] at hsub
      refine ⟨?_, ?_, ?_⟩
      · rw [hlen]; simp only [G.step]; omega
      · rw [hlen, hB]; exact hsub.1
      · rw [hlen, hB]; exact hsub.2
    have next : ∀ b : Bool, g.S + normK (G.next g.R b p) + 7 * ps.length + 16 ≤ 8 * m ∧ doublings (G.next g.R b p) = normK (G.next g.R b p) := by
      intro b
      have hn := G.next_bounds hok.1 hok.2 b p
      obtain ⟨-, -, -, n3, -⟩ := norm_spec _ hn.1 hn.2.1
      exact ⟨by omega, doublings_spec hn.1 hn.2.1⟩
    have follow : ∀ (b : Bool) (v : Nat), v + G.add g.R b p * 256 ^ bytes.length = value →
        v * 2 ^ normK (G.next g.R b p) + (g.step b p).L * 256 ^ bytes.length = 256 * number bytes * 2 ^ (g.step b p).S := by
      intro b v h
      simp only [G.step]
      have e : 256 * number bytes * 2 ^ (g.S + normK (G.next g.R b p)) =
          (v + G.add g.R b p * 256 ^ bytes.length + g.L * 256 ^ bytes.length) * 2 ^ normK (G.next g.R b p) := by
        rw [Nat.pow_add, ← Nat.mul_assoc, ← hv, ← h]
      rw [e, Nat.mul_right_comm (g.L + G.add g.R b p), ← Nat.add_mul, Nat.add_mul g.L, Nat.add_assoc,
        Nat.add_comm (g.L * 256 ^ bytes.length)]
    unfold BoolDecoder.getAll decode
    simp only
    by_cases hb : split g.R p.toNat * 256 ^ bytes.length ≤ value
    · rw [if_pos hb]
      obtain ⟨h1, h2⟩ := step true (decide_eq_true hb).symm
      rw [h1, decode_spec ps h2 (G.step_ok hok true p) (follow true (value - split g.R p.toNat * 256 ^ bytes.length)
        (by simp only [G.add, if_true, splitPoint_spec]; omega)) (next true).1, ← (next true).2]
      simp only [G.step, ← (next true).2]
      simp only [G.next, if_true, splitPoint_spec]
    · rw [if_neg hb]
      obtain ⟨h1, h2⟩ := step false (decide_eq_false hb).symm
      rw [h1, decode_spec ps h2 (G.step_ok hok false p) (follow false value
        (by simp only [G.add, Bool.false_eq_true, if_false]; omega)) (next false).1, ← (next false).2]
      simp only [G.step, ← (next false).2]
      simp only [G.next, Bool.false_eq_true, if_false, splitPoint_spec]

/-- **C110**, reading: the bits that are read from any string of bytes, asked with any probabilities, are those the format says are in
it.  Strings that begin with 0xff are outside every range, and no encoder writes them (C56). -/
theorem C110_reading (bytes : List UInt8) (ps : List Prob) (h : bytes.head? ≠ some 0xff) :
    (BoolDecoder.init bytes).getAll ps = decodeBytes bytes ps := by
  rw [← C03_decoder_zero_padding bytes ps (ps.length + 2)]
  have hB : bytesVal (bytes ++ List.replicate (ps.length + 2) 0) = number bytes * 256 ^ (ps.length + 2) := by
    rw [bytesVal_append, bytesVal_zeros, List.length_replicate, number_spec, Nat.add_zero]
  have hlen : (bytes ++ List.replicate (ps.length + 2) (0 : UInt8)).length = bytes.length + (ps.length + 2) := by
    rw [List.length_append, List.length_replicate]
  have hnum : 256 * number bytes < 255 * 256 ^ bytes.length := by
    match bytes, h with
    | [], _ => decide
    | x :: xs, h =>
      have h1 : x.toNat < 2 ^ 8 := UInt8.toNat_lt _
      have h2 : x.toNat ≠ 255 := fun hc => h (congrArg some (UInt8.toNat_inj.mp hc))
      have h3 := bytesVal_lt xs
      rw [number, number_spec, List.length_cons, Nat.pow_succ]
      have : x.toNat * 256 ^ xs.length ≤ 254 * 256 ^ xs.length := Nat.mul_le_mul_right _ (by omega)
      omega
  refine decode_spec (g := G.init) ps (DI.init ⟨?_, ?_, ?_⟩) init_ok ?_ ?_
  · rw [hlen]; simp only [G.init]; omega
  · simp only [G.init, Nat.zero_mul]; exact Nat.zero_le _
  · have c := compare_spec (number bytes) 255 bytes.length (ps.length + 2) 0 (by omega)
    rw [hlen, hB]
    simp only [G.init, Nat.zero_add]
    rw [Nat.pow_zero, Nat.mul_one] at c
    omega
  · simp only [G.init, Nat.zero_mul, Nat.add_zero, Nat.pow_zero, Nat.mul_one]
  · simp only [G.init]; omega

theorem encode_spec : ∀ (s : List (Bool × Prob)) (g : G), g.Ok →
    encode (g.L, g.R, g.S) s = ((g.run s).L, (g.run s).R, (g.run s).S)
  | [], _, _ => rfl
  | (b, p) :: s, g, hok => by
    have hn := G.next_bounds hok.1 hok.2 b p
    have ih := encode_spec s (g.step b p) (G.step_ok hok b p)
    rw [G.run, ← ih]
    conv_lhs => unfold encode
    simp only
    have e1 : (if b = true then g.R - split g.R p.toNat else split g.R p.toNat) = G.next g.R b p := by
      unfold G.next; rw [splitPoint_spec]
    have e2 : (if b = true then g.L + split g.R p.toNat else g.L) = g.L + G.add g.R b p := by
      unfold G.add
      rw [splitPoint_spec]
      cases b <;> rfl
    rw [e1, e2, doublings_spec hn.1 hn.2.1]
    rfl

theorem run_below : ∀ (s : List (Bool × Prob)) (g : G), g.Ok → g.L + g.R ≤ 255 * 2 ^ g.S → (g.run s).L + (g.run s).R ≤ 255 * 2 ^ (g.run s).S
  | [], _, _, h => h
  | (b, p) :: s, g, hok, h => by
    refine run_below s (g.step b p) (G.step_ok hok b p) ?_
    have hn := G.next_bounds hok.1 hok.2 b p
    simp only [G.step]
    rw [← Nat.add_mul, Nat.pow_add, ← Nat.mul_assoc]
    exact Nat.mul_le_mul_right _ (by omega)

/-- **C110**, writing: the string of bytes written for any bits and probabilities, as a fraction, is the lower end of the range that the
format gives for them; it does not begin with 0xff, and the format says these bits are in it. -/
theorem C110_writing (s : List (Bool × Prob)) : ∃ bytes, encodeBits s = some bytes ∧
    (let (low, _, scale) := encode (0, 255, 0) s; number bytes * 2 ^ (8 + scale) = low * 256 ^ bytes.length) ∧
    bytes.head? ≠ some 0xff ∧ decodeBytes bytes (s.map Prod.snd) = s.map Prod.fst := by
  obtain ⟨bytes, w, t, h1, h2, h3, h4, -⟩ := encodeBits_spec s
  have key : number bytes * 2 ^ (8 + (G.init.run s).S) = (G.init.run s).L * 256 ^ bytes.length := by
    rw [number_spec]
    refine Nat.eq_of_mul_eq_mul_right (Nat.two_pow_pos t) ?_
    rw [Nat.mul_assoc, ← Nat.pow_add, show 8 + (G.init.run s).S + t = w + 8 * bytes.length by omega, Nat.pow_add, ← Nat.mul_assoc, h4,
      Nat.mul_right_comm, show (256 : Nat) ^ bytes.length = 2 ^ (8 * bytes.length) by rw [Nat.pow_mul]]
  have hhead : bytes.head? ≠ some 0xff := by
    intro hh
    match bytes, hh with
    | x :: xs, hh =>
    cases hh
    have hb := run_below s G.init init_ok (by decide)
    have hr := (G.run_ok init_ok s).1
    have hlt : (G.init.run s).L * 256 ^ (xs.length + 1) < 255 * 2 ^ (G.init.run s).S * 256 ^ (xs.length + 1) :=
      Nat.mul_lt_mul_of_pos_right (by omega) (Nat.pow_pos (by decide))
    rw [List.length_cons] at key
    rw [← key, number, Nat.pow_add, Nat.pow_succ 256] at hlt
    have hge : 255 * 256 ^ xs.length * (2 ^ 8 * 2 ^ (G.init.run s).S) ≤
        ((255 : UInt8).toNat * 256 ^ xs.length + number xs) * (2 ^ 8 * 2 ^ (G.init.run s).S) := Nat.mul_le_mul_right _ (Nat.le_add_right _ _)
    have e : 255 * 2 ^ (G.init.run s).S * (256 ^ xs.length * 256) = 255 * 256 ^ xs.length * (2 ^ 8 * 2 ^ (G.init.run s).S) := by
      rw [show (2 : Nat) ^ 8 = 256 from rfl]
      generalize 2 ^ (G.init.run s).S = a
      generalize 256 ^ xs.length = c
      rw [Nat.mul_comm 256 a, Nat.mul_assoc, Nat.mul_assoc, Nat.mul_left_comm a c 256]
    rw [e] at hlt
    exact absurd (Nat.lt_of_le_of_lt hge hlt) (Nat.lt_irrefl _)
  refine ⟨bytes, h1, ?_, hhead, ?_⟩
  · have e := encode_spec s G.init init_ok
    simp only [G.init] at e
    rw [e]
    exact key
  · obtain ⟨bytes', h1', h⟩ := C01_bool_coder_round_trip s
    cases h1.symm.trans h1'
    rw [← C110_reading bytes _ hhead]
    exact h

/-! ### Concrete cases -/

/-- The range 255 split at the probability 128, and 13 doubled to be 208. -/
example : split 255 128 = 128 ∧ split 255 1 = 1 ∧ split 128 255 = 127 ∧ doublings 13 = 4 := by decide

/-- Eight bits of even odds are not quite the bits of a byte. -/
example : decodeBytes [0xa5] [128, 128, 128, 128, 128, 128, 128, 128] = [true, false, true, false, false, true, false, true] ∧
    decodeBytes [0x80] [128, 128, 128] = [true, false, false] ∧ decodeBytes [0x7f, 0xc3] [128, 255, 1, 77, 90] = [false, true, true, true, true] := by decide +kernel

end Alfalfa
