import Verif.Proof.BoolCoder

/-! Lemmas on the bool decoder: zero padding, the range invariant, and the refinement of the interval arithmetic. -/

namespace Alfalfa

/-! ### The range invariant on arbitrary input -/

@[simp] theorem loadOctet_range (d : BoolDecoder) : d.loadOctet.range = d.range := by
  unfold BoolDecoder.loadOctet; split <;> [rfl; (split <;> rfl)]

@[simp] theorem loadOctet_bitCount (d : BoolDecoder) : d.loadOctet.bitCount = d.bitCount := by
  unfold BoolDecoder.loadOctet; split <;> [rfl; (split <;> rfl)]

@[simp] theorem loadOctet_complete (d : BoolDecoder) : d.loadOctet.completeChunk = d.completeChunk := by
  unfold BoolDecoder.loadOctet; split <;> [rfl; (split <;> rfl)]

theorem shiftOnce_range (d : BoolDecoder) : d.shiftOnce.range = (2 * d.range) % 2 ^ 32 := by
  unfold BoolDecoder.shiftOnce
  simp only
  split <;> simp [Nat.shiftLeft_eq, Nat.mul_comm]

theorem shiftOnce_bitCount (d : BoolDecoder) (h : d.bitCount < 8) : d.shiftOnce.bitCount = (d.bitCount + 1) % 8 := by
  unfold BoolDecoder.shiftOnce
  simp only
  split <;> simp <;> omega

theorem renorm_range (n : Nat) (d : BoolDecoder) (h1 : 1 ≤ d.range) (h2 : d.range ≤ 255)
    (h3 : 128 ≤ d.range * 2 ^ n) (h4 : d.bitCount < 8) :
    128 ≤ (d.renorm n).range ∧ (d.renorm n).range ≤ 255 ∧ (d.renorm n).bitCount < 8 := by
  induction n generalizing d with
  | zero => simp only [BoolDecoder.renorm]; omega
  | succ n ih =>
    unfold BoolDecoder.renorm
    split
    · have hr := shiftOnce_range d
      rw [Nat.mod_eq_of_lt (by omega)] at hr
      apply ih
      · omega
      · omega
      · rw [hr]; rw [Nat.pow_succ] at h3; rw [Nat.mul_comm 2, Nat.mul_assoc, Nat.mul_comm 2]; exact h3
      · rw [shiftOnce_bitCount d h4]; omega
    · omega

structure DecOk (d : BoolDecoder) : Prop where
  r1 : 128 ≤ d.range
  r2 : d.range ≤ 255
  bc : d.bitCount < 8

theorem init_decOk (c : List UInt8) (b : Bool) : DecOk (BoolDecoder.init c b) := by
  constructor <;> simp [BoolDecoder.init]

theorem get_decOk {d : BoolDecoder} (h : DecOk d) (p : Prob) : DecOk (d.get p).2 := by
  have hs := splitPoint_lt d.range p (by have := h.r1; omega)
  have hp := splitPoint_pos d.range p
  have := h.r2
  unfold BoolDecoder.get
  simp only
  split
  · have := renorm_range 8 { d with range := d.range - splitPoint d.range p, value := d.value - splitPoint d.range p <<< 8 % 2 ^ 32 }
      (by simp only; omega) (by simp only; omega) (by simp only; omega) h.bc
    exact ⟨this.1, this.2.1, this.2.2⟩
  · have := renorm_range 8 { d with range := splitPoint d.range p }
      (by simp only; omega) (by simp only; omega) (by simp only; omega) h.bc
    exact ⟨this.1, this.2.1, this.2.2⟩

/-! ### Zero padding -/

def PadRel (d d' : BoolDecoder) : Prop :=
  d.completeChunk = true ∧ ∃ m, d' = { d with chunk := d.chunk ++ List.replicate m 0 }

theorem padRel_load {d d' : BoolDecoder} (h : PadRel d d') : PadRel d.loadOctet d'.loadOctet := by
  obtain ⟨hc, m, rfl⟩ := h
  refine ⟨by simp [hc], ?_⟩
  unfold BoolDecoder.loadOctet
  rcases hd : d.chunk with _ | ⟨b, rest⟩
  · rcases m with _ | m
    · exact ⟨0, by simp [hc, hd]⟩
    · exact ⟨m, by simp [List.replicate_succ, hc, hd]⟩
  · exact ⟨m, by simp⟩

theorem padRel_init (c : List UInt8) (m : Nat) :
    PadRel (BoolDecoder.init c) (BoolDecoder.init (c ++ List.replicate m 0)) := by
  unfold BoolDecoder.init
  simp only
  apply padRel_load
  have h0 : PadRel ({ chunk := c, completeChunk := true }) ({ chunk := c ++ List.replicate m 0, completeChunk := true }) :=
    ⟨rfl, m, rfl⟩
  obtain ⟨h1, k, h2⟩ := padRel_load h0
  exact ⟨h1, k, by rw [h2]⟩

theorem padRel_shift {d d' : BoolDecoder} (h : PadRel d d') : PadRel d.shiftOnce d'.shiftOnce := by
  obtain ⟨hc, m, rfl⟩ := h
  unfold BoolDecoder.shiftOnce
  simp only
  split
  · exact padRel_load ⟨hc, m, rfl⟩
  · exact ⟨hc, m, rfl⟩

theorem padRel_renorm {d d' : BoolDecoder} (h : PadRel d d') (n : Nat) : PadRel (d.renorm n) (d'.renorm n) := by
  induction n generalizing d d' with
  | zero => exact h
  | succ n ih =>
    have hr : d'.range = d.range := by obtain ⟨hc, m, rfl⟩ := h; rfl
    unfold BoolDecoder.renorm
    rw [hr]
    split
    · exact ih (padRel_shift h)
    · exact h

theorem padRel_get {d d' : BoolDecoder} (h : PadRel d d') (p : Prob) :
    (d'.get p).1 = (d.get p).1 ∧ PadRel (d.get p).2 (d'.get p).2 := by
  obtain ⟨hc, m, rfl⟩ := h
  unfold BoolDecoder.get
  simp only
  split
  · exact ⟨rfl, padRel_renorm (by exact ⟨hc, m, rfl⟩) 8⟩
  · exact ⟨rfl, padRel_renorm (by exact ⟨hc, m, rfl⟩) 8⟩

theorem padRel_getAll {d d' : BoolDecoder} (h : PadRel d d') (ps : List Prob) : d'.getAll ps = d.getAll ps := by
  induction ps generalizing d d' with
  | nil => rfl
  | cons p ps ih =>
    have := padRel_get h p
    simp only [BoolDecoder.getAll, this.1, ih this.2]

/-! ### The decoder refines the interval arithmetic -/

/-- The decoder state `d` is at interval `g` of the byte string `B`, and the string lies in that interval. -/
structure DI (B : List UInt8) (d : BoolDecoder) (g : G) : Prop where
  range : d.range = g.R
  bc    : d.bitCount = g.S % 8
  chunk : d.chunk = B.drop (2 + g.S / 8)
  val   : d.value + 256 * g.L = bytesVal (B.take (2 + g.S / 8)) * 2 ^ (g.S % 8)
  len   : g.S + 16 ≤ 8 * B.length
  lo    : g.L * 2 ^ (8 * B.length - 8 - g.S) ≤ bytesVal B
  hi    : bytesVal B < (g.L + g.R) * 2 ^ (8 * B.length - 8 - g.S)

theorem bytesVal_split (B : List UInt8) (k : Nat) :
    bytesVal B = bytesVal (B.take k) * 256 ^ (B.drop k).length + bytesVal (B.drop k) := by
  conv => lhs; rw [← List.take_append_drop k B, bytesVal_append]

theorem interval_le (B : List UInt8) (S A V : Nat) (hlen : S + 16 ≤ 8 * B.length)
    (hV : V = bytesVal (B.take (2 + S / 8)) * 2 ^ (S % 8)) :
    A * 2 ^ (8 * B.length - 8 - S) ≤ bytesVal B ↔ 256 * A ≤ V := by
  have hsp := bytesVal_split B (2 + S / 8)
  have hlt := bytesVal_lt (B.drop (2 + S / 8))
  have hdl : (B.drop (2 + S / 8)).length = B.length - (2 + S / 8) := List.length_drop ..
  rw [hdl] at hsp hlt
  have h256 : (256:Nat) ^ (B.length - (2 + S / 8)) = 2 ^ (8 * (B.length - (2 + S / 8))) := by
    rw [Nat.pow_mul]
  rw [h256] at hsp hlt
  generalize hM : 8 * (B.length - (2 + S / 8)) = M at *
  generalize bytesVal (B.take (2 + S / 8)) = T at *
  generalize bytesVal (B.drop (2 + S / 8)) = low at *
  generalize bytesVal B = X at *
  have hpow : (2:Nat) ^ (8 * B.length - 8 - S) = 2 ^ (8 - S % 8) * 2 ^ M := (two_pow_mul (by omega)).symm
  have h1 : A * 2 ^ (8 * B.length - 8 - S) ≤ X ↔ A * 2 ^ (8 - S % 8) ≤ T := by
    rw [hpow, ← Nat.mul_assoc, ← Nat.le_div_iff_mul_le (Nat.two_pow_pos M), hsp, Nat.mul_comm T,
      Nat.mul_add_div (Nat.two_pow_pos M), Nat.div_eq_of_lt hlt, Nat.add_zero]
  rw [h1, hV]
  have h2 : 256 * A = A * 2 ^ (8 - S % 8) * 2 ^ (S % 8) := by
    rw [Nat.mul_assoc, two_pow_mul (c := 8) (by omega), Nat.mul_comm]; rfl
  rw [h2]
  exact (Nat.mul_le_mul_right_iff (Nat.two_pow_pos _)).symm

theorem DI.value_lt {B : List UInt8} {d : BoolDecoder} {g : G} (h : DI B d g) : d.value < 256 * g.R := by
  have := interval_le B g.S (g.L + g.R) _ h.len h.val
  have h2 := h.hi
  omega

theorem DI.shift {B d} {L R S : Nat} (h : DI B d ⟨L, R, S⟩) (hR : R < 128) (hlen : S + 1 + 16 ≤ 8 * B.length) :
    DI B d.shiftOnce ⟨L * 2, R * 2, S + 1⟩ := by
  have hv := h.value_lt
  obtain ⟨h1, h2, h3, h4, h5, h6, h7⟩ := h
  simp only at *
  have hD : 8 * B.length - 8 - S = (8 * B.length - 8 - (S + 1)) + 1 := by omega
  have hlo : L * 2 * 2 ^ (8 * B.length - 8 - (S + 1)) ≤ bytesVal B := by
    rw [hD, Nat.pow_succ] at h6; rwa [Nat.mul_assoc, Nat.mul_comm 2]
  have hhi : bytesVal B < (L * 2 + R * 2) * 2 ^ (8 * B.length - 8 - (S + 1)) := by
    rw [hD, Nat.pow_succ] at h7; rwa [← Nat.add_mul, Nat.mul_assoc, Nat.mul_comm 2]
  have hsv : d.value <<< 1 % 2 ^ 32 = 2 * d.value := by rw [Nat.shiftLeft_eq]; omega
  have hsr : d.range <<< 1 % 2 ^ 32 = 2 * d.range := by rw [Nat.shiftLeft_eq]; omega
  unfold BoolDecoder.shiftOnce
  simp only [hsv, hsr]
  by_cases hb : d.bitCount + 1 = 8
  · rw [if_pos hb]
    have hS7 : S % 8 = 7 := by omega
    have hS8 : (S + 1) % 8 = 0 := by omega
    have hSd : (S + 1) / 8 = S / 8 + 1 := by omega
    have hidx : 2 + S / 8 < B.length := by omega
    have hdrop : B.drop (2 + S / 8) = B[2 + S / 8] :: B.drop (2 + S / 8 + 1) := List.drop_eq_getElem_cons hidx
    have hch : d.chunk = B[2 + S / 8] :: B.drop (2 + S / 8 + 1) := by rw [h3, hdrop]
    have hor : 2 * d.value ||| B[2 + S / 8].toNat = 2 * d.value + B[2 + S / 8].toNat := by
      have hm : 2 * d.value = (d.value / 128) <<< 8 := by
        rw [Nat.shiftLeft_eq]; rw [hS7] at h4; omega
      have hlt : B[2 + S / 8].toNat < 2 ^ 8 := UInt8.toNat_lt _
      rw [hm, Nat.shiftLeft_add_eq_or_of_lt hlt]
    have hload : BoolDecoder.loadOctet { d with range := 2 * d.range, value := 2 * d.value, bitCount := 0 }
        = { d with range := 2 * d.range, value := 2 * d.value + B[2 + S / 8].toNat, bitCount := 0,
                   chunk := B.drop (2 + S / 8 + 1) } := by
      unfold BoolDecoder.loadOctet
      simp only [hch, hor]
    rw [hload]
    constructor <;> simp only
    · omega
    · omega
    · rw [hSd]; rfl
    · rw [hS8, hSd, ← Nat.add_assoc, List.take_succ_eq_append_getElem hidx, bytesVal_snoc]
      rw [hS7] at h4
      omega
    · exact hlen
    · exact hlo
    · exact hhi
  · rw [if_neg hb]
    have hSm : (S + 1) % 8 = S % 8 + 1 := by omega
    have hSd : (S + 1) / 8 = S / 8 := by omega
    constructor <;> simp only
    · omega
    · omega
    · rw [hSd]; exact h3
    · rw [hSm, hSd, Nat.pow_succ, ← Nat.mul_assoc (bytesVal _), ← h4]; omega
    · exact hlen
    · exact hlo
    · exact hhi

theorem DI.renorm {B} (n : Nat) {d} {L R S k : Nat} (h : DI B d ⟨L, R, S⟩) (hk : k ≤ n)
    (h1 : 128 ≤ R * 2 ^ k) (h2 : k ≠ 0 → R * 2 ^ (k - 1) < 128) (hlen : S + k + 16 ≤ 8 * B.length) :
    DI B (d.renorm n) ⟨L * 2 ^ k, R * 2 ^ k, S + k⟩ := by
  induction n generalizing d L R S k with
  | zero =>
    have : k = 0 := by omega
    subst this; simpa [BoolDecoder.renorm] using h
  | succ n ih =>
    unfold BoolDecoder.renorm
    rcases k with _ | k
    · rw [if_neg (by have := h.range; simp only at this; omega)]; simpa using h
    · have h2' := h2 (by omega)
      simp only [Nat.add_sub_cancel] at h2'
      have hR : R < 128 := by
        have : R * 1 ≤ R * 2 ^ k := Nat.mul_le_mul_left _ (Nat.two_pow_pos k)
        omega
      rw [if_pos (by have := h.range; simp only at this; omega)]
      have := ih (h.shift hR (by omega)) (k := k) (by omega)
        (by rw [Nat.mul_assoc, ← Nat.pow_succ']; exact h1)
        (by intro hk0
            rw [Nat.mul_assoc, ← Nat.pow_succ']
            have : (k - 1).succ = k := by omega
            rw [this]; exact h2')
        (by omega)
      have e1 : L * 2 * 2 ^ k = L * 2 ^ (k + 1) := by rw [Nat.mul_assoc, ← Nat.pow_succ']
      have e2 : R * 2 * 2 ^ k = R * 2 ^ (k + 1) := by rw [Nat.mul_assoc, ← Nat.pow_succ']
      have e3 : S + 1 + k = S + (k + 1) := by omega
      rw [e1, e2, e3] at this
      exact this

/-- The byte string `B` is in the interval `g`. -/
structure Nest (B : List UInt8) (g : G) : Prop where
  len   : g.S + 16 ≤ 8 * B.length
  lo    : g.L * 2 ^ (8 * B.length - 8 - g.S) ≤ bytesVal B
  hi    : bytesVal B < (g.L + g.R) * 2 ^ (8 * B.length - 8 - g.S)

theorem Nest.sub {B : List UInt8} {g : G} (b : Bool) (p : Prob) (h : Nest B (g.step b p)) :
    g.S + 16 ≤ 8 * B.length ∧
    (g.L + G.add g.R b p) * 2 ^ (8 * B.length - 8 - g.S) ≤ bytesVal B ∧
    bytesVal B < (g.L + G.add g.R b p + G.next g.R b p) * 2 ^ (8 * B.length - 8 - g.S) := by
  obtain ⟨h1, h2, h3⟩ := h
  simp only [G.step] at *
  generalize normK (G.next g.R b p) = k at *
  have e : (2:Nat) ^ (8 * B.length - 8 - g.S) = 2 ^ k * 2 ^ (8 * B.length - 8 - (g.S + k)) :=
    (two_pow_mul (by omega)).symm
  refine ⟨by omega, ?_, ?_⟩
  · rw [e, ← Nat.mul_assoc]; exact h2
  · rw [e, ← Nat.mul_assoc, Nat.add_mul _ _ (2 ^ k)]; exact h3

theorem Nest.back1 {B : List UInt8} {g : G} (hok : g.Ok) (b : Bool) (p : Prob) (h : Nest B (g.step b p)) : Nest B g := by
  obtain ⟨h1, h2, h3⟩ := Nest.sub b p h
  have hb := G.next_bounds hok.1 hok.2 b p
  refine ⟨h1, ?_, ?_⟩
  · exact Nat.le_trans (Nat.mul_le_mul_right _ (by omega)) h2
  · exact Nat.lt_of_lt_of_le h3 (Nat.mul_le_mul_right _ (by omega))

theorem Nest.back {B : List UInt8} {g : G} (hok : g.Ok) (s : List (Bool × Prob)) (h : Nest B (g.run s)) : Nest B g := by
  induction s generalizing g with
  | nil => exact h
  | cons x s ih => exact Nest.back1 hok x.1 x.2 (ih (G.step_ok hok x.1 x.2) h)

theorem DI.get {B : List UInt8} {d : BoolDecoder} {g : G} (h : DI B d g) (hok : g.Ok) (b : Bool) (p : Prob) (hn : Nest B (g.step b p)) :
    (d.get p).1 = b ∧ DI B (d.get p).2 (g.step b p) := by
  obtain ⟨s1, s2, s3⟩ := Nest.sub b p hn
  have hb := G.next_bounds hok.1 hok.2 b p
  obtain ⟨-, n1, n2, n3, n4⟩ := norm_spec _ hb.1 hb.2.1
  have hcmp := interval_le B g.S (g.L + splitPoint g.R p) _ h.len h.val
  have hsl := splitPoint_lt g.R p (by have := hok.1; omega)
  have hR := hok.2
  have hbig : (splitPoint d.range p) <<< 8 % 2 ^ 32 = 256 * splitPoint g.R p := by
    rw [h.range, Nat.shiftLeft_eq]; omega
  unfold BoolDecoder.get
  simp only [hbig]
  have hmk : ∀ d1 : BoolDecoder, DI B d1 ⟨g.L + G.add g.R b p, G.next g.R b p, g.S⟩ →
      DI B (d1.renorm 8) (g.step b p) := by
    intro d1 hd1
    have := DI.renorm 8 hd1 (k := normK (G.next g.R b p)) (by omega) n1 n4 hn.len
    exact this
  cases b with
  | true =>
    simp only [G.add, if_true] at s2
    have hle : 256 * splitPoint g.R p ≤ d.value := by have := hcmp.mp s2; omega
    rw [if_pos hle]
    refine ⟨rfl, hmk _ ?_⟩
    obtain ⟨h1, h2, h3, h4, h5, h6, h7⟩ := h
    constructor <;> simp only [G.add, G.next, if_true]
    · rw [h1]
    · exact h2
    · exact h3
    · rw [← h4]; omega
    · exact h5
    · exact s2
    · exact s3
  | false =>
    simp only [G.add, G.next, Nat.add_zero, Bool.false_eq_true, if_false] at s3
    have hnle : ¬ 256 * splitPoint g.R p ≤ d.value := by
      intro hc
      have := hcmp.mpr (by omega)
      omega
    rw [if_neg hnle]
    refine ⟨rfl, hmk _ ?_⟩
    obtain ⟨h1, h2, h3, h4, h5, h6, h7⟩ := h
    constructor <;> simp only [G.add, G.next, Bool.false_eq_true, if_false, Nat.add_zero]
    · rw [h1]
    · exact h2
    · exact h3
    · exact h4
    · exact h5
    · exact h6
    · exact s3

/-- Reading with the probabilities of `s` gives the bits of `s`. -/
def Reads (d : BoolDecoder) : List (Bool × Prob) → Prop
  | [] => True
  | (b, p) :: s => (d.get p).1 = b ∧ Reads (d.get p).2 s

theorem DI.reads {B : List UInt8} {d : BoolDecoder} {g : G} (h : DI B d g) (hok : g.Ok) (s : List (Bool × Prob)) (hn : Nest B (g.run s)) :
    Reads d s := by
  induction s generalizing d g with
  | nil => trivial
  | cons x s ih =>
    have hok' := G.step_ok hok x.1 x.2
    have := h.get hok x.1 x.2 (Nest.back hok' s hn)
    exact ⟨this.1, ih this.2 hok' hn⟩

theorem Reads.pad {d d'} (h : PadRel d d') {s} (hr : Reads d' s) : Reads d s := by
  induction s generalizing d d' with
  | nil => trivial
  | cons x s ih =>
    have := padRel_get h x.2
    exact ⟨by rw [← this.1]; exact hr.1, ih this.2 hr.2⟩

theorem DI.init {B : List UInt8} (h : Nest B G.init) : DI B (BoolDecoder.init B) G.init := by
  have hl := h.len
  simp only [G.init] at hl
  match B, h with
  | b0 :: b1 :: rest, h =>
    have hb1 : b1.toNat < 2 ^ 8 := UInt8.toNat_lt _
    have hb0 : b0.toNat < 2 ^ 8 := UInt8.toNat_lt _
    have hsh : b0.toNat <<< 8 % 2 ^ 32 = b0.toNat <<< 8 := by rw [Nat.shiftLeft_eq]; omega
    have hv : (BoolDecoder.init (b0 :: b1 :: rest)).value = b0.toNat * 256 + b1.toNat := by
      simp only [BoolDecoder.init, BoolDecoder.loadOctet, Nat.zero_or, hsh]
      rw [← Nat.shiftLeft_add_eq_or_of_lt hb1, Nat.shiftLeft_eq]
    constructor
    · rfl
    · rfl
    · rfl
    · rw [hv]; simp [G.init, bytesVal]
    · exact h.len
    · exact h.lo
    · exact h.hi

theorem encode_reads (s : List (Bool × Prob)) :
    ∃ bytes, encodeBits s = some bytes ∧ bytes ≠ [] ∧ Reads (BoolDecoder.init bytes) s := by
  obtain ⟨bytes, w, t, h1, h2, h3, h4, h5⟩ := encodeBits_spec s
  refine ⟨bytes, h1, h5, ?_⟩
  have hnest : Nest (bytes ++ List.replicate 1 0) (G.init.run s) := by
    have hlen : (bytes ++ List.replicate 1 (0:UInt8)).length = bytes.length + 1 := by simp
    have hval : bytesVal (bytes ++ List.replicate 1 (0:UInt8)) = bytesVal bytes * 2 ^ 8 := by
      rw [show List.replicate 1 (0:UInt8) = [0] from rfl, bytesVal_snoc]; show _ * 256 + 0 = _; omega
    have hx : bytesVal bytes = (G.init.run s).L * 2 ^ (t - w) := by
      have e : (2:Nat) ^ t = 2 ^ (t - w) * 2 ^ w := (two_pow_mul (by omega)).symm
      rw [e, ← Nat.mul_assoc] at h4
      exact Nat.eq_of_mul_eq_mul_right (Nat.two_pow_pos w) h4
    have hD : 8 * (bytes.length + 1) - 8 - (G.init.run s).S = t - w + 8 := by omega
    have hok := G.run_ok init_ok s
    constructor
    · rw [hlen]; omega
    · rw [hlen, hval, hD, Nat.pow_add, ← Nat.mul_assoc, hx]
    · rw [hlen, hval, hD, Nat.pow_add, ← Nat.mul_assoc, hx]
      apply Nat.mul_lt_mul_of_pos_right _ (Nat.two_pow_pos 8)
      apply Nat.mul_lt_mul_of_pos_right _ (Nat.two_pow_pos _)
      have := hok.1
      omega
  have hd := DI.init (Nest.back init_ok s hnest)
  exact Reads.pad (padRel_init bytes 1) (hd.reads init_ok s hnest)

theorem reads_getAll {d : BoolDecoder} {s : List (Bool × Prob)} (h : Reads d s) :
    d.getAll (s.map Prod.snd) = s.map Prod.fst := by
  induction s generalizing d with
  | nil => rfl
  | cons x s ih =>
    simp only [List.map_cons, BoolDecoder.getAll]
    rw [h.1, ih h.2]

/-! ### The value register -/

/-- The value register is below the range, and its low `bitCount` bits are still empty. -/
structure ValOk (d : BoolDecoder) : Prop where
  lt  : d.value < 256 * d.range
  low : 2 ^ d.bitCount ∣ d.value

theorem loadOctet_valOk {d : BoolDecoder} (h1 : d.value < 256 * d.range) (h2 : 256 ∣ d.value) (h3 : d.bitCount = 0) :
    ValOk d.loadOctet := by
  unfold BoolDecoder.loadOctet
  split
  · rename_i b rest hb
    have hlt : b.toNat < 2 ^ 8 := UInt8.toNat_lt _
    obtain ⟨q, hq⟩ := h2
    have hor : d.value ||| b.toNat = d.value + b.toNat := by
      have : d.value = q <<< 8 := by rw [Nat.shiftLeft_eq]; omega
      rw [this, Nat.shiftLeft_add_eq_or_of_lt hlt]
    constructor
    · show d.value ||| b.toNat < 256 * d.range
      rw [hor]; omega
    · show 2 ^ d.bitCount ∣ _; rw [h3]; simp
  · split <;> exact ⟨h1, by show 2 ^ d.bitCount ∣ _; rw [h3]; simp⟩

theorem shiftOnce_valOk {d : BoolDecoder} (h : ValOk d) (hr : d.range ≤ 127) (_hb : d.bitCount < 8) :
    ValOk d.shiftOnce := by
  have h1 := h.lt
  obtain ⟨q, hq⟩ := h.low
  have hsv : d.value <<< 1 % 2 ^ 32 = 2 * d.value := by rw [Nat.shiftLeft_eq]; omega
  have hsr : d.range <<< 1 % 2 ^ 32 = 2 * d.range := by rw [Nat.shiftLeft_eq]; omega
  unfold BoolDecoder.shiftOnce
  simp only [hsv, hsr]
  split
  · rename_i h8
    apply loadOctet_valOk
    · show 2 * d.value < 256 * (2 * d.range); omega
    · show 256 ∣ 2 * d.value
      have : d.bitCount = 7 := by omega
      rw [this] at hq
      exact ⟨q, by omega⟩
    · rfl
  · constructor
    · show 2 * d.value < 256 * (2 * d.range); omega
    · show 2 ^ (d.bitCount + 1) ∣ 2 * d.value
      rw [Nat.pow_succ, Nat.mul_comm]; exact Nat.mul_dvd_mul_left 2 ⟨q, hq⟩

theorem renorm_valOk (n : Nat) {d : BoolDecoder} (h : ValOk d) (hb : d.bitCount < 8) : ValOk (d.renorm n) := by
  induction n generalizing d with
  | zero => exact h
  | succ n ih =>
    unfold BoolDecoder.renorm
    split
    · exact ih (shiftOnce_valOk h (by omega) hb) (by rw [shiftOnce_bitCount d hb]; omega)
    · exact h

theorem get_valOk {d : BoolDecoder} (hd : DecOk d) (h : ValOk d) (p : Prob) : ValOk (d.get p).2 := by
  have hs := splitPoint_lt d.range p (by have := hd.r1; omega)
  have hbig : (splitPoint d.range p) <<< 8 % 2 ^ 32 = 256 * splitPoint d.range p := by
    have := hd.r2
    rw [Nat.shiftLeft_eq]; omega
  have h1 := h.lt
  unfold BoolDecoder.get
  simp only [hbig]
  split
  · refine renorm_valOk 8 ?_ (show d.bitCount < 8 from hd.bc)
    constructor
    · simp only; omega
    · simp only
      apply Nat.dvd_sub h.low
      have : 2 ^ d.bitCount ∣ 256 := by
        rw [show (256:Nat) = 2 ^ 8 from rfl]; exact Nat.pow_dvd_pow 2 (by have := hd.bc; omega)
      exact Nat.dvd_trans this (Nat.dvd_mul_right _ _)
  · refine renorm_valOk 8 ?_ (show d.bitCount < 8 from hd.bc)
    constructor
    · simp only; omega
    · exact h.low

/-! ### The unread input is always a suffix of the chunk -/

theorem loadOctet_suffix (d : BoolDecoder) : d.loadOctet.chunk <:+ d.chunk := by
  unfold BoolDecoder.loadOctet
  split
  · rename_i b rest hb; rw [hb]; exact List.suffix_cons _ _
  · split <;> exact List.suffix_refl _

theorem shiftOnce_suffix (d : BoolDecoder) : d.shiftOnce.chunk <:+ d.chunk := by
  unfold BoolDecoder.shiftOnce
  simp only
  split
  · exact loadOctet_suffix _
  · exact List.suffix_refl _

theorem renorm_suffix (n : Nat) (d : BoolDecoder) : (d.renorm n).chunk <:+ d.chunk := by
  induction n generalizing d with
  | zero => exact List.suffix_refl _
  | succ n ih =>
    unfold BoolDecoder.renorm
    split
    · exact (ih _).trans (shiftOnce_suffix d)
    · exact List.suffix_refl _

theorem get_suffix (d : BoolDecoder) (p : Prob) : (d.get p).2.chunk <:+ d.chunk := by
  unfold BoolDecoder.get
  simp only
  split <;> exact renorm_suffix 8 _

/-- The decoder state after reading with the probabilities `ps`. -/
def stateAfter (d : BoolDecoder) (ps : List Prob) : BoolDecoder := ps.foldl (fun d p => (d.get p).2) d

theorem stateAfter_inv {P : BoolDecoder → Prop} (hstep : ∀ d p, P d → P (d.get p).2) {d : BoolDecoder} (h : P d)
    (ps : List Prob) : P (stateAfter d ps) := by
  induction ps generalizing d with
  | nil => exact h
  | cons p ps ih => exact ih (hstep d p h)

end Alfalfa
