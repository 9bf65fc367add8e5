import Verif.Model.BoolCoder
import Mathlib.Tactic.Ring
import Mathlib.Data.List.Induction
/-! Lemmas about the boolean coder: both machines refine exact interval arithmetic. -/
namespace Alfalfa

/-! ### Arithmetic -/

theorem splitPoint_pos (r : Nat) (p : Prob) : 1 ≤ splitPoint r p := by
  unfold splitPoint; omega

theorem splitPoint_lt (r : Nat) (p : Prob) (h : 2 ≤ r) : splitPoint r p < r := by
  unfold splitPoint
  have hp : p.toNat < 256 := p.toNat_lt
  rw [Nat.shiftRight_eq_div_pow]
  have : (r - 1) * p.toNat < 2^8 * (r - 1) := by
    rw [Nat.mul_comm]
    apply Nat.mul_lt_mul_of_pos_right
    · exact hp
    · omega
  have := Nat.div_lt_of_lt_mul this
  omega

/-- Ghost: the shift that `vp8_norm` prescribes. -/
def normK (r : Nat) : Nat := (vp8Norm[r]?).getD 0

theorem norm_table : ∀ r : Fin 256, 1 ≤ r.val →
    vp8Norm[r.val]? = some (normK r) ∧ 128 ≤ r.val * 2 ^ normK r ∧ r.val * 2 ^ normK r ≤ 255
    ∧ normK r ≤ 7 ∧ (normK r ≠ 0 → r.val * 2 ^ (normK r - 1) < 128) := by
  decide +kernel

theorem norm_spec (r : Nat) (h1 : 1 ≤ r) (h2 : r ≤ 255) :
    vp8Norm[r]? = some (normK r) ∧ 128 ≤ r * 2 ^ normK r ∧ r * 2 ^ normK r ≤ 255
    ∧ normK r ≤ 7 ∧ (normK r ≠ 0 → r * 2 ^ (normK r - 1) < 128) :=
  norm_table ⟨r, by omega⟩ h1

attribute [irreducible] normK

/-! ### Big-endian value of a byte string -/

def bytesVal (l : List UInt8) : Nat := l.foldl (fun a b => a * 256 + b.toNat) 0

@[simp] theorem bytesVal_nil : bytesVal [] = 0 := rfl

theorem bytesVal_snoc (a : List UInt8) (b : UInt8) : bytesVal (a ++ [b]) = bytesVal a * 256 + b.toNat := by
  simp [bytesVal]

theorem bytesVal_append (a b : List UInt8) :
    bytesVal (a ++ b) = bytesVal a * 256 ^ b.length + bytesVal b := by
  induction b using List.reverseRecOn with
  | nil => simp
  | append_singleton l b ih =>
    rw [← List.append_assoc, bytesVal_snoc, ih, bytesVal_snoc]
    simp only [List.length_append, List.length_singleton]; ring

theorem bytesVal_lt (l : List UInt8) : bytesVal l < 256 ^ l.length := by
  induction l using List.reverseRecOn with
  | nil => simp
  | append_singleton l b ih =>
    rw [bytesVal_snoc]; simp only [List.length_append, List.length_singleton, Nat.pow_succ]
    have := b.toNat_lt
    omega

theorem bytesVal_zeros (k : Nat) : bytesVal (List.replicate k (0 : UInt8)) = 0 := by
  induction k with
  | zero => rfl
  | succ k ih => rw [List.replicate_succ', bytesVal_snoc, ih]; rfl

/-! ### Carry propagation -/

theorem addOneRev_spec (l : List UInt8) (h : bytesVal l.reverse + 1 < 256 ^ l.length) :
    ∃ l', addOneRev l = some l' ∧ l'.length = l.length ∧ bytesVal l'.reverse = bytesVal l.reverse + 1 := by
  induction l with
  | nil => simp at h
  | cons b l ih =>
    simp only [List.reverse_cons, bytesVal_snoc, List.length_cons, Nat.pow_succ] at h ⊢
    have hb := b.toNat_lt
    unfold addOneRev
    split
    · rename_i hb2
      subst hb2
      have h255 : (255 : UInt8).toNat = 255 := rfl
      rw [h255] at h ⊢
      obtain ⟨l', h1, h2, h3⟩ := ih (by omega)
      refine ⟨0 :: l', by simp [h1], by simp [h2], ?_⟩
      simp only [List.reverse_cons, bytesVal_snoc, h3]
      have : (0 : UInt8).toNat = 0 := rfl
      omega
    · rename_i hb2
      refine ⟨_, rfl, by simp, ?_⟩
      simp only [List.reverse_cons, bytesVal_snoc]
      have : b.toNat ≠ 255 := by
        intro hh; apply hb2; apply UInt8.toNat_inj.mp; rw [hh]; rfl
      have h2 : (b + 1).toNat = b.toNat + 1 := by
        rw [UInt8.toNat_add]
        have : (1 : UInt8).toNat = 1 := rfl
        omega
      omega

theorem addOne_spec (l : List UInt8) (h : bytesVal l + 1 < 256 ^ l.length) :
    ∃ l', addOneToOutput l = some l' ∧ l'.length = l.length ∧ bytesVal l' = bytesVal l + 1 := by
  obtain ⟨l', h1, h2, h3⟩ := addOneRev_spec l.reverse (by simpa using h)
  refine ⟨l'.reverse, by simp [addOneToOutput, h1], by simpa using h2, by simpa using h3⟩

/-! ### Exact interval arithmetic (ghost) -/

/-- Low end, width and number of shifts so far, all exact. -/
structure G where
  L : Nat
  R : Nat
  S : Nat

def G.next (r : Nat) (b : Bool) (p : Prob) : Nat := if b then r - splitPoint r p else splitPoint r p
def G.add (r : Nat) (b : Bool) (p : Prob) : Nat := if b then splitPoint r p else 0

def G.step (g : G) (b : Bool) (p : Prob) : G :=
  let k := normK (G.next g.R b p)
  ⟨(g.L + G.add g.R b p) * 2 ^ k, G.next g.R b p * 2 ^ k, g.S + k⟩

def G.run (g : G) : List (Bool × Prob) → G
  | [] => g
  | (b, p) :: s => (g.step b p).run s

theorem G.run_append (g : G) (s t : List (Bool × Prob)) : g.run (s ++ t) = (g.run s).run t := by
  induction s generalizing g with
  | nil => rfl
  | cons x s ih => obtain ⟨b, p⟩ := x; exact ih _

theorem G.next_bounds {r : Nat} (h1 : 128 ≤ r) (h2 : r ≤ 255) (b : Bool) (p : Prob) :
    1 ≤ G.next r b p ∧ G.next r b p ≤ 255 ∧ G.add r b p + G.next r b p ≤ r := by
  have := splitPoint_pos r p
  have := splitPoint_lt r p (by omega)
  unfold G.next G.add
  cases b <;> simp <;> omega

def G.Ok (g : G) : Prop := 128 ≤ g.R ∧ g.R ≤ 255

theorem G.step_ok {g : G} (h : g.Ok) (b : Bool) (p : Prob) : (g.step b p).Ok := by
  have hb := G.next_bounds h.1 h.2 b p
  have := norm_spec _ hb.1 hb.2.1
  exact ⟨this.2.1, this.2.2.1⟩

theorem G.run_ok {g : G} (h : g.Ok) (s : List (Bool × Prob)) : (g.run s).Ok := by
  induction s generalizing g with
  | nil => exact h
  | cons x s ih => exact ih (G.step_ok h _ _)

theorem G.S_le_run (g : G) (s : List (Bool × Prob)) : g.S ≤ (g.run s).S := by
  induction s generalizing g with
  | nil => exact Nat.le_refl _
  | cons x s ih =>
    have := ih (g := g.step x.1 x.2)
    have h2 : g.S ≤ (g.step x.1 x.2).S := by simp [G.step]
    exact Nat.le_trans h2 this

/-! ### The encoder refines the interval arithmetic -/

structure EInv (e : BoolEncoder) (g : G) (w : Nat) : Prop where
  w1 : 8 ≤ w
  w2 : w ≤ 31
  bc : e.bitCount = (w : Int) - 32
  range : e.range = g.R
  ok : g.Ok
  S : 8 * e.output.length + w = g.S + 8
  L : bytesVal e.output * 2 ^ w + e.bottom = g.L
  room : e.bottom + g.R ≤ 2 ^ (w + 1)
  top : g.L + g.R ≤ 2 ^ (g.S + 8)

def G.init : G := ⟨0, 255, 0⟩

theorem einv_init : EInv {} G.init 8 := by
  constructor <;> simp [G.init, G.Ok]

theorem two_pow_mul {a b c : Nat} (h : a + b = c) : (2:Nat) ^ a * 2 ^ b = 2 ^ c := by
  rw [← h, Nat.pow_add]

theorem and_high_bit (x : Nat) (h : x < 2 ^ 32) : (x &&& 0x80000000 ≠ 0) ↔ 2 ^ 31 ≤ x := by
  have hb : (x &&& 0x80000000 ≠ 0) ↔ x.testBit 31 = true := by
    constructor
    · intro h0
      by_contra hc
      apply h0
      apply Nat.eq_of_testBit_eq
      intro i
      rw [Nat.testBit_and, show (0x80000000 : Nat) = 2 ^ 31 from rfl, Nat.testBit_two_pow]
      by_cases hi : 31 = i
      · subst hi; simpa using hc
      · simp [hi]
    · intro ht h0
      have := congrArg (fun y => y.testBit 31) h0
      simp only [Nat.testBit_and, Nat.zero_testBit] at this
      rw [show (0x80000000 : Nat) = 2 ^ 31 from rfl, Nat.testBit_two_pow_self, ht] at this
      cases this
  rw [hb, Nat.testBit_eq_decide_div_mod_eq, decide_eq_true_iff]
  omega

theorem put_spec {e : BoolEncoder} {g : G} {w : Nat} (h : EInv e g w) (b : Bool) (p : Prob) :
    ∃ e' w', e.put b p = some e' ∧ EInv e' (g.step b p) w' ∧
      ((e'.output.length = e.output.length ∧ (b = false → e.bottom < 2 ^ w → e'.bottom < 2 ^ w'))
        ∨ (e'.output.length = e.output.length + 1 ∧ e'.bottom < 2 ^ w')) := by
  have hb := G.next_bounds h.ok.1 h.ok.2 b p
  have hn := norm_spec _ hb.1 hb.2.1
  obtain ⟨hn1, hn2, hn3, hn4, -⟩ := hn
  generalize hr : G.next g.R b p = r at *
  generalize ha : G.add g.R b p = a at *
  generalize hk : normK r = k at *
  obtain ⟨hw1, hw2, hbc, hrange, hok, hS, hL, hroom, htop⟩ := h
  have hbot : (if b = true then (e.bottom + splitPoint e.range p) % 2 ^ 32 else e.bottom) = e.bottom + a := by
    rw [hrange, ← ha]
    unfold G.add
    have h1 : (2:Nat) ^ (w + 1) ≤ 2 ^ 32 := Nat.pow_le_pow_right (by omega) (by omega)
    cases b
    · simp
    · simp only [if_true]
      apply Nat.mod_eq_of_lt
      have : splitPoint g.R p < g.R := splitPoint_lt _ _ (by have := hok.1; omega)
      omega
  have hrr : (if b = true then e.range - splitPoint e.range p else splitPoint e.range p) = r := by
    rw [hrange, ← hr]; rfl
  have hstep : g.step b p = ⟨(g.L + a) * 2 ^ k, r * 2 ^ k, g.S + k⟩ := by
    simp only [G.step, hr, ha, hk]
  have hR32 : (r <<< k) % 2 ^ 32 = r * 2 ^ k := by
    rw [Nat.shiftLeft_eq]; apply Nat.mod_eq_of_lt; omega
  have h2k : (2:Nat) ^ (w + 1 + k) = 2 ^ (w + 1) * 2 ^ k := Nat.pow_add ..
  have hkpos : 0 < 2 ^ k := Nat.two_pow_pos k
  have hstepok := G.step_ok hok b p
  have htop' : (g.L + a) * 2 ^ k + r * 2 ^ k ≤ 2 ^ (g.S + k + 8) := by
    have : g.S + k + 8 = (g.S + 8) + k := by omega
    rw [this, Nat.pow_add, ← Nat.add_mul]
    exact Nat.mul_le_mul_right _ (by omega)
  by_cases hem : (0 : Int) ≤ e.bitCount + (k : Int)
  · -- a byte is emitted
    have hwk : 32 ≤ w + k := by omega
    have hoffI : (k : Int) - (e.bitCount + k) = ((32 - w : Nat) : Int) := by omega
    generalize hoff : 32 - w = off at *
    have hbtn : (e.bitCount + (k : Int)).toNat = w + k - 32 := by omega
    generalize hB : e.bottom + a = B at *
    have hBlt : B < 2 ^ (w + 1) := by omega
    -- carry
    have e1 : (2:Nat) ^ (w + 1) * 2 ^ (off - 1) = 2 ^ 32 := by
      exact two_pow_mul (by omega)
    have e2 : (2:Nat) ^ w * 2 ^ (off - 1) = 2 ^ 31 := by
      exact two_pow_mul (by omega)
    have hx : (B <<< (off - 1)) % 2 ^ 32 = B * 2 ^ (off - 1) := by
      rw [Nat.shiftLeft_eq]; apply Nat.mod_eq_of_lt; rw [← e1]
      exact Nat.mul_lt_mul_of_pos_right hBlt (Nat.two_pow_pos _)
    have hcarry : ((B <<< (off - 1)) % 2 ^ 32 &&& 0x80000000 ≠ 0) ↔ 2 ^ w ≤ B := by
      rw [hx, and_high_bit, ← e2]
      · exact Nat.mul_le_mul_right_iff (Nat.two_pow_pos _)
      · rw [← e1]; exact Nat.mul_lt_mul_of_pos_right hBlt (Nat.two_pow_pos _)
    have hw8 : (2:Nat) ^ w = 2 ^ (w - 8) * 256 := by
      rw [show (256:Nat) = 2 ^ 8 from rfl]; exact (two_pow_mul (by omega)).symm
    have hpw : 0 < 2 ^ (w - 8) := Nat.two_pow_pos _
    -- new bottom
    have hbm : ((B <<< off) % 2 ^ 32) &&& 0xffffff = (B % 2 ^ (w - 8)) * 2 ^ off := by
      have : (0xffffff : Nat) = 2 ^ 24 - 1 := rfl
      rw [this, Nat.and_two_pow_sub_one_eq_mod, Nat.mod_mod_of_dvd _ (Nat.pow_dvd_pow 2 (by omega)),
        Nat.shiftLeft_eq]
      have e3 : (2:Nat) ^ 24 = 2 ^ (w - 8) * 2 ^ off := (two_pow_mul (by omega)).symm
      rw [e3, Nat.mul_mod_mul_right]
    have hbm2 : ((B % 2 ^ (w - 8)) * 2 ^ off) <<< (w + k - 32) % 2 ^ 32 = (B % 2 ^ (w - 8)) * 2 ^ k := by
      rw [Nat.shiftLeft_eq, Nat.mul_assoc, ← Nat.pow_add]
      have : off + (w + k - 32) = k := by omega
      rw [this]
      apply Nat.mod_eq_of_lt
      have h1 : B % 2 ^ (w - 8) < 2 ^ (w - 8) := Nat.mod_lt _ hpw
      have h2 : 2 ^ (w - 8) * 2 ^ k ≤ 2 ^ 32 := by
        rw [← Nat.pow_add]; exact Nat.pow_le_pow_right (by omega) (by omega)
      exact Nat.lt_of_lt_of_le (Nat.mul_lt_mul_of_pos_right h1 hkpos) h2
    -- output
    obtain ⟨out, ho1, ho2, ho3⟩ : ∃ out,
        (if (B <<< (off - 1)) % 2 ^ 32 &&& 0x80000000 ≠ 0 then addOneToOutput e.output else some e.output)
          = some out ∧ out.length = e.output.length ∧ bytesVal out = bytesVal e.output + B / 2 ^ w := by
      by_cases hc : 2 ^ w ≤ B
      · rw [if_pos (hcarry.mpr hc)]
        have hdiv : B / 2 ^ w = 1 := by
          apply Nat.div_eq_of_lt_le <;> rw [Nat.pow_succ] at hBlt <;> omega
        rw [hdiv]
        apply addOne_spec
        have h1 : (bytesVal e.output + 1) * 2 ^ w < 256 ^ e.output.length * 2 ^ w := by
          have : (256:Nat) ^ e.output.length * 2 ^ w = 2 ^ (g.S + 8) := by
            rw [show (256:Nat) = 2 ^ 8 from rfl, ← Nat.pow_mul]; exact two_pow_mul hS
          rw [this, Nat.add_mul]; omega
        exact Nat.lt_of_mul_lt_mul_right h1
      · rw [if_neg (fun hh => hc (hcarry.mp hh))]
        exact ⟨_, rfl, rfl, by rw [Nat.div_eq_of_lt (by omega)]; rfl⟩
    have h24 : 24 - off = w - 8 := by omega
    refine ⟨⟨out ++ [UInt8.ofNat (B >>> (24 - off))], r * 2 ^ k, (B % 2 ^ (w - 8)) * 2 ^ k,
      e.bitCount + k - 8⟩, w + k - 8, ?_, ?_, Or.inr ⟨by simp [ho2], ?_⟩⟩
    · simp only [BoolEncoder.put, Option.bind_eq_bind]
      rw [hbot, hrr, hn1]
      simp only [Option.bind_some]
      rw [if_pos hem, hoffI, if_neg (by omega), Int.toNat_natCast, hR32, hbtn, hbm, hbm2]
      split at ho1 <;> rename_i hc
      · rw [if_pos hc, ho1]; rfl
      · rw [if_neg hc]; cases ho1; rfl
    · rw [hstep] at hstepok ⊢
      have hsplit : bytesVal (out ++ [UInt8.ofNat (B >>> (24 - off))]) * 2 ^ (w - 8) + B % 2 ^ (w - 8)
          = bytesVal e.output * 2 ^ w + B := by
        rw [bytesVal_snoc, ho3, h24, Nat.shiftRight_eq_div_pow, UInt8.toNat_ofNat', hw8]
        have d1 : B / (2 ^ (w - 8) * 256) = B / 2 ^ (w - 8) / 256 := (Nat.div_div_eq_div_mul ..).symm
        rw [d1]
        have d2 := Nat.div_add_mod B (2 ^ (w - 8))
        have d3 := Nat.div_add_mod (B / 2 ^ (w - 8)) 256
        generalize B / 2 ^ (w - 8) = q at *
        generalize B % 2 ^ (w - 8) = m at *
        generalize 2 ^ (w - 8) = P at *
        have : q % 2 ^ 8 = q % 256 := rfl
        rw [this]
        generalize q / 256 = qd at *
        generalize q % 256 = qm at *
        generalize bytesVal e.output = V at *
        subst d3
        rw [← d2]
        ring
      constructor
      · omega
      · omega
      · show e.bitCount + k - 8 = _; omega
      · rfl
      · exact hstepok
      · simp only [List.length_append, List.length_singleton, ho2]; omega
      · show _ * 2 ^ (w + k - 8) + _ = (g.L + a) * 2 ^ k
        have : w + k - 8 = (w - 8) + k := by omega
        rw [this, Nat.pow_add, ← Nat.mul_assoc, ← Nat.add_mul, hsplit, ← hL, ← hB, Nat.add_assoc]
      · show (B % 2 ^ (w - 8)) * 2 ^ k + r * 2 ^ k ≤ 2 ^ (w + k - 8 + 1)
        have h1 : B % 2 ^ (w - 8) < 2 ^ (w - 8) := Nat.mod_lt _ hpw
        have h2 : (B % 2 ^ (w - 8)) * 2 ^ k < 2 ^ (w - 8) * 2 ^ k := Nat.mul_lt_mul_of_pos_right h1 hkpos
        have h3 : 2 ^ (w - 8) * 2 ^ k = 2 ^ (w + k - 8) := by exact two_pow_mul (by omega)
        have h4 : 2 ^ 8 ≤ 2 ^ (w + k - 8) := Nat.pow_le_pow_right (by omega) (by omega)
        rw [Nat.pow_succ]; omega
      · exact htop'
    · show (B % 2 ^ (w - 8)) * 2 ^ k < 2 ^ (w + k - 8)
      have h1 : B % 2 ^ (w - 8) < 2 ^ (w - 8) := Nat.mod_lt _ hpw
      have h2 : (B % 2 ^ (w - 8)) * 2 ^ k < 2 ^ (w - 8) * 2 ^ k := Nat.mul_lt_mul_of_pos_right h1 hkpos
      have h3 : 2 ^ (w - 8) * 2 ^ k = 2 ^ (w + k - 8) := by exact two_pow_mul (by omega)
      omega
  · -- no byte is emitted
    have hwk : w + k ≤ 31 := by omega
    have hsum : (e.bottom + a) * 2 ^ k + r * 2 ^ k ≤ 2 ^ (w + 1 + k) := by
      rw [h2k, ← Nat.add_mul]; exact Nat.mul_le_mul_right _ (by omega)
    have hb32 : ((e.bottom + a) <<< k) % 2 ^ 32 = (e.bottom + a) * 2 ^ k := by
      rw [Nat.shiftLeft_eq]; apply Nat.mod_eq_of_lt
      have : (2:Nat) ^ (w + 1 + k) ≤ 2 ^ 32 := Nat.pow_le_pow_right (by omega) (by omega)
      omega
    refine ⟨⟨e.output, r * 2 ^ k, (e.bottom + a) * 2 ^ k, e.bitCount + k⟩, w + k, ?_, ?_, Or.inl ⟨rfl, ?_⟩⟩
    · simp only [BoolEncoder.put, Option.bind_eq_bind]
      rw [hbot, hrr, hn1]
      simp only [Option.bind_some]
      rw [if_neg hem, hR32, hb32]
    · rw [hstep] at hstepok ⊢
      constructor
      · omega
      · omega
      · show e.bitCount + k = _; omega
      · rfl
      · exact hstepok
      · show 8 * e.output.length + (w + k) = g.S + k + 8; omega
      · show bytesVal e.output * 2 ^ (w + k) + (e.bottom + a) * 2 ^ k = (g.L + a) * 2 ^ k
        rw [← hL, Nat.pow_add, ← Nat.mul_assoc, ← Nat.add_mul, Nat.add_assoc]
      · show (e.bottom + a) * 2 ^ k + r * 2 ^ k ≤ 2 ^ (w + k + 1)
        have : w + k + 1 = w + 1 + k := by omega
        rw [this]; exact hsum
      · exact htop'
    · intro hbf hcl
      show (e.bottom + a) * 2 ^ k < 2 ^ (w + k)
      have : a = 0 := by rw [← ha, hbf]; rfl
      rw [this, Nat.add_zero, Nat.pow_add]
      exact Nat.mul_lt_mul_of_pos_right hcl hkpos

theorem putAll_spec {e : BoolEncoder} {g : G} {w : Nat} (h : EInv e g w) (s : List (Bool × Prob)) :
    ∃ e' w', e.putAll s = some e' ∧ EInv e' (g.run s) w' := by
  induction s generalizing e g w with
  | nil => exact ⟨e, w, rfl, h⟩
  | cons x s ih =>
    obtain ⟨b, p⟩ := x
    obtain ⟨e1, w1, h1, h2, -⟩ := put_spec h b p
    obtain ⟨e2, w2, h3, h4⟩ := ih h2
    exact ⟨e2, w2, by simp [BoolEncoder.putAll, h1, h3], h4⟩

/-! ### Flushing -/

theorem splitPoint_half (R : Nat) : splitPoint R 128 = 1 + (R - 1) / 2 := by
  unfold splitPoint
  rw [Nat.shiftRight_eq_div_pow]
  have : (128 : UInt8).toNat = 128 := rfl
  rw [this]; omega

theorem falses_spec {e : BoolEncoder} {g : G} {w : Nat} (h : EInv e g w) (n : Nat) :
    ∃ e' w', e.putAll (List.replicate n (false, 128)) = some e' ∧
      EInv e' (g.run (List.replicate n (false, 128))) w' ∧
      ((e'.output.length = e.output.length ∧ (e.bottom < 2 ^ w → e'.bottom < 2 ^ w'))
        ∨ (e.output.length < e'.output.length ∧ e'.bottom < 2 ^ w')) := by
  induction n generalizing e g w with
  | zero => exact ⟨e, w, rfl, h, Or.inl ⟨rfl, id⟩⟩
  | succ n ih =>
    obtain ⟨e1, w1, h1, h2, h3⟩ := put_spec h false 128
    obtain ⟨e2, w2, h4, h5, h6⟩ := ih h2
    refine ⟨e2, w2, by simp [List.replicate_succ, BoolEncoder.putAll, h1, h4], h5, ?_⟩
    rcases h3 with ⟨l1, c1⟩ | ⟨l1, c1⟩ <;> rcases h6 with ⟨l2, c2⟩ | ⟨l2, c2⟩
    · exact Or.inl ⟨by omega, fun hh => c2 (c1 rfl hh)⟩
    · exact Or.inr ⟨by omega, c2⟩
    · exact Or.inr ⟨by omega, c2 c1⟩
    · exact Or.inr ⟨by omega, c2⟩

theorem G.run_falses_L (g : G) (n : Nat) :
    ∃ t, (g.run (List.replicate n (false, 128))).S = g.S + t ∧
      (g.run (List.replicate n (false, 128))).L = g.L * 2 ^ t := by
  induction n generalizing g with
  | zero => exact ⟨0, rfl, by simp [G.run]⟩
  | succ n ih =>
    obtain ⟨t, h1, h2⟩ := ih (g.step false 128)
    refine ⟨normK (G.next g.R false 128) + t, ?_, ?_⟩
    · show (G.run (g.step false 128) _).S = _
      rw [h1]; simp only [G.step]; omega
    · show (G.run (g.step false 128) _).L = _
      rw [h2]; simp only [G.step, G.add]
      rw [Nat.pow_add, Nat.mul_assoc]; simp

theorem G.step_half {g : G} (h : g.Ok) (he : g.R % 2 = 0) :
    (g.step false 128).R = g.R ∧ (g.step false 128).S = g.S + 1 := by
  have h1 := h.1
  have h2 := h.2
  have hr : G.next g.R false 128 = g.R / 2 := by
    simp only [G.next, splitPoint_half]; simp; omega
  obtain ⟨-, n1, n2, n3, -⟩ := norm_spec (g.R / 2) (by omega) (by omega)
  simp only [G.step, hr]
  have hk : normK (g.R / 2) = 1 := by
    generalize normK (g.R / 2) = k at *
    rcases k with _ | _ | k
    · simp at n1; omega
    · rfl
    · exfalso
      have : (2:Nat) ^ (k + 1 + 1) = 2 ^ k * 4 := by rw [Nat.pow_succ, Nat.pow_succ]; omega
      rw [this] at n2
      have : 1 ≤ 2 ^ k := Nat.two_pow_pos k
      have h4 : g.R / 2 * (1 * 4) ≤ g.R / 2 * (2 ^ k * 4) := Nat.mul_le_mul_left _ (Nat.mul_le_mul_right _ this)
      omega
  rw [hk]; constructor <;> omega

theorem G.run_half {g : G} (h : g.Ok) (he : g.R % 2 = 0) (n : Nat) :
    (g.run (List.replicate n (false, 128))).S = g.S + n := by
  induction n generalizing g with
  | zero => rfl
  | succ n ih =>
    obtain ⟨h1, h2⟩ := G.step_half h he
    show (G.run (g.step false 128) _).S = _
    rw [ih (G.step_ok h _ _) (by rw [h1]; exact he), h2]; omega

theorem G.step_even {g : G} (h : g.Ok) : (g.step false 128).R % 2 = 0 := by
  have h1 := h.1
  have h2 := h.2
  have hr : G.next g.R false 128 = 1 + (g.R - 1) / 2 := by
    simp only [G.next, splitPoint_half]; simp
  obtain ⟨-, n1, n2, n3, -⟩ := norm_spec (1 + (g.R - 1) / 2) (by omega) (by omega)
  simp only [G.step, hr]
  generalize normK (1 + (g.R - 1) / 2) = k at *
  rcases k with _ | k
  · simp at n1 n2 ⊢; omega
  · rw [Nat.pow_succ, ← Nat.mul_assoc, Nat.mul_mod_left]

theorem G.run_flush_S {g : G} (h : g.Ok) : g.S + 31 ≤ (g.run (List.replicate 32 (false, 128))).S := by
  have e : g.run (List.replicate (31 + 1) (false, 128)) = (g.step false 128).run (List.replicate 31 (false, 128)) := by
    rw [List.replicate_succ]; generalize List.replicate 31 (false, (128 : Prob)) = l; rfl
  rw [show (32:Nat) = 31 + 1 from rfl, e, G.run_half (G.step_ok h _ _) (G.step_even h)]
  simp only [G.step]; omega

theorem init_ok : G.init.Ok := by simp [G.init, G.Ok]

/-- What `encodeBits` writes, as a number: the low end of the final interval. -/
theorem encodeBits_spec (s : List (Bool × Prob)) :
    ∃ bytes w t, encodeBits s = some bytes ∧ w ≤ t ∧
      8 * bytes.length + w = (G.init.run s).S + t + 8 ∧
      bytesVal bytes * 2 ^ w = (G.init.run s).L * 2 ^ t ∧ bytes ≠ [] := by
  obtain ⟨e1, w1, h1, h2⟩ := putAll_spec einv_init s
  obtain ⟨e2, w2, h3, h4, h5⟩ := falses_spec h2 32
  obtain ⟨t, ht1, ht2⟩ := G.run_falses_L (G.init.run s) 32
  have ht3 := G.run_flush_S h2.ok
  have hS1 := h2.S
  have hS2 := h4.S
  have := h4.w2
  have := h2.w1
  have hgrow : e1.output.length < e2.output.length := by omega
  have hclean : e2.bottom < 2 ^ w2 := by
    rcases h5 with ⟨l, -⟩ | ⟨-, c⟩
    · omega
    · exact c
  have hL := h4.L
  have hwt : w2 ≤ t := by omega
  have hz : e2.bottom = 0 := by
    have e : (2:Nat) ^ t = 2 ^ w2 * 2 ^ (t - w2) := (two_pow_mul (by omega)).symm
    rw [ht2, e] at hL
    have hd : e2.bottom % 2 ^ w2 = 0 := by
      have := congrArg (· % 2 ^ w2) hL
      beta_reduce at this
      rw [Nat.mul_comm (bytesVal _), Nat.mul_add_mod, Nat.mul_left_comm, Nat.mul_mod_right] at this
      exact this
    rwa [Nat.mod_eq_of_lt hclean] at hd
  refine ⟨e2.output, w2, t, ?_, hwt, by omega, ?_, ?_⟩
  · simp only [encodeBits, h1, BoolEncoder.finish, BoolEncoder.flush, h3, Option.bind_eq_bind, Option.bind_some,
      Option.map_some]
  · rw [← ht2, ← hL, hz, Nat.add_zero]
  · intro h0; rw [h0] at hgrow; simp at hgrow

end Alfalfa
