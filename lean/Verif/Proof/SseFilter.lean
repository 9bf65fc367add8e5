import Verif.Model.SseFilter
import Verif.Proof.LoopFilter
import Verif.Proof.SseInter
import Mathlib.Tactic.FinCases

/-! Lemmas about the loop filter in vector code: what happens in one lane of the registers. -/

namespace Alfalfa.Sse

open LoopFilterSpec

/-! ### Bytes -/

theorem toNat_psubusb (a b : Reg) (j : Nat) : (psubusb a b j).toNat = (a j).toNat - (b j).toNat := by
  unfold psubusb saturateU
  have h1 := (a j).isLt
  have h2 := (b j).isLt
  have : max 0 (min (((a j).toNat : Int) - (b j).toNat) (2 ^ 8 - 1)) = (((a j).toNat - (b j).toNat : Nat) : Int) := by omega
  rw [this, BitVec.ofInt_natCast, BitVec.toNat_ofNat]
  omega

theorem toNat_paddusb (a b : Reg) (j : Nat) : (paddusb a b j).toNat = min ((a j).toNat + (b j).toNat) 255 := by
  unfold paddusb saturateU
  have : max 0 (min (((a j).toNat : Int) + (b j).toNat) (2 ^ 8 - 1)) = ((min ((a j).toNat + (b j).toNat) 255 : Nat) : Int) := by omega
  rw [this, BitVec.ofInt_natCast, BitVec.toNat_ofNat]
  omega

theorem toNat_pmaxub (a b : Reg) (j : Nat) : (pmaxub a b j).toNat = max (a j).toNat (b j).toNat := by
  unfold pmaxub; split <;> omega

theorem toNat_distance (a b : Reg) (j : Nat) : (por (psubusb a b) (psubusb b a) j).toNat = far (a j).toNat (b j).toNat := by
  unfold far
  have h1 := toNat_psubusb a b j
  have h2 := toNat_psubusb b a j
  unfold por
  rcases Nat.le_total (a j).toNat (b j).toNat with h | h
  · have h0 : psubusb a b j = 0#8 := BitVec.eq_of_toNat_eq (by rw [h1, Nat.sub_eq_zero_of_le h]; rfl)
    rw [h0, BitVec.zero_or, h2]; omega
  · have h0 : psubusb b a j = 0#8 := BitVec.eq_of_toNat_eq (by rw [h2, Nat.sub_eq_zero_of_le h]; rfl)
    rw [h0, BitVec.or_zero, h1]; omega

/-- The two masks `-1` and `0`. -/
def bit (b : Bool) : BitVec 8 := if b then -1 else 0

theorem and_bit (x : BitVec 8) (b : Bool) : x &&& bit b = if b then x else 0 := by
  cases b <;> simp [bit]; exact BitVec.and_allOnes

theorem bit_and (x : BitVec 8) (b : Bool) : bit b &&& x = if b then x else 0 := by rw [BitVec.and_comm, and_bit]

theorem not_bit (b : Bool) : ~~~ bit b = bit (!b) := by cases b <;> decide

theorem pcmpeqb_bit (a b : Reg) (j : Nat) : pcmpeqb a b j = bit (decide (a j = b j)) := by
  unfold pcmpeqb bit; simp

theorem or_eq_zero (a b : BitVec 8) : a ||| b = 0 ↔ a = 0 ∧ b = 0 := by
  constructor
  · intro h
    constructor <;> ext i hi <;> have := congrArg (fun x => x.getLsbD i) h <;> simp [BitVec.getLsbD_eq_getElem hi] at this ⊢ <;> simp [this]
  · rintro ⟨rfl, rfl⟩; rfl

theorem eq_zero_iff (a : BitVec 8) : a = 0 ↔ a.toNat = 0 := ⟨fun h => by rw [h]; rfl, fun h => BitVec.eq_of_toNat_eq h⟩

theorem psrlw_byte (a : Reg) (n j : Nat) : psrlw a n j = (word a (j / 2) >>> n).extractLsb' (8 * (j % 2)) 8 := rfl

theorem psrlw_and (a m : Reg) (n j : Nat) (hm : ∀ i, i + n ≥ 8 → i < 8 → (m j).getLsbD i = false) : (pand (psrlw a n) m) j = (a j >>> n) &&& m j := by
  unfold pand
  rw [psrlw_byte]
  ext i hi
  simp only [BitVec.getElem_and, BitVec.getElem_extractLsb', BitVec.getElem_ushiftRight, BitVec.getLsbD_ushiftRight]
  by_cases h : i + n ≥ 8
  · have := hm i h hi
    rw [BitVec.getLsbD_eq_getElem hi] at this
    rw [this]; simp
  · congr 1
    unfold word
    rw [BitVec.getLsbD_append]
    rcases Nat.mod_two_eq_zero_or_one j with hj | hj
    · rw [hj, if_pos (by omega)]
      rw [show 2 * (j / 2) = j by omega]; congr 1; omega
    · rw [hj, if_neg (by omega)]
      rw [show 2 * (j / 2) + 1 = j by omega]; congr 1; omega

/-- Half of each byte. -/
theorem toNat_half (a : Reg) (j : Nat) : (psrlw (pand a (times16 0xfe)) 1 j).toNat = (a j).toNat / 2 := by
  have key : ∀ x : BitVec 8, ((x &&& 0xfe#8) >>> 1).toNat = x.toNat / 2 := by decide +kernel
  rw [← key]
  congr 1
  rw [psrlw_byte]
  ext i hi
  simp only [BitVec.getElem_extractLsb', BitVec.getElem_ushiftRight, BitVec.getLsbD_ushiftRight]
  unfold word
  rw [BitVec.getLsbD_append]
  have h0 : ∀ x : BitVec 8, (x &&& 0xfe#8).getLsbD 0 = false := by intro x; simp
  rcases Nat.mod_two_eq_zero_or_one j with hj | hj
  · rw [hj]
    by_cases h7 : i = 7
    · subst h7
      rw [if_neg (by omega)]
      have e : pand a (times16 0xfe) (2 * (j / 2) + 1) = a (2 * (j / 2) + 1) &&& 0xfe#8 := rfl
      rw [e]
      simp
    · rw [if_pos (by omega)]
      rw [show 2 * (j / 2) = j by omega, show 1 + (8 * 0 + i) = 1 + i by omega]; rfl
  · rw [hj, if_neg (by omega)]
    rw [show 2 * (j / 2) + 1 = j by omega, show 1 + (8 * 1 + i) - 8 = 1 + i by omega]; rfl

theorem toNat_times16 {c : Nat} (h : c < 256) (j : Nat) : (times16 c j).toNat = c := by
  unfold times16; rw [BitVec.toNat_ofNat]; omega

/-! ### The masks -/

/-- The eight numbers in one lane. -/
def lane (v : Fin 8 → Reg) (j : Nat) : Fin 8 → Nat := fun i => (v i j).toNat

theorem filterYes_iff (I E : Nat) (w : Fin 8 → Nat) : filterYes I E w ↔
    far (w 0) (w 1) ≤ I ∧ far (w 1) (w 2) ≤ I ∧ far (w 2) (w 3) ≤ I ∧ far (w 4) (w 5) ≤ I ∧ far (w 5) (w 6) ≤ I ∧ far (w 6) (w 7) ≤ I ∧
      far (w 3) (w 4) * 2 + far (w 2) (w 5) / 2 ≤ E := by
  unfold filterYes
  constructor
  · rintro ⟨h, he⟩
    exact ⟨h 0 (by decide) (by decide), h 1 (by decide) (by decide), h 2 (by decide) (by decide), h 4 (by decide) (by decide),
      h 5 (by decide) (by decide), h 6 (by decide) (by decide), he⟩
  · rintro ⟨h0, h1, h2, h4, h5, h6, he⟩
    refine ⟨fun i hi h3 => ?_, he⟩
    fin_cases i
    · exact h0
    · exact h1
    · exact h2
    · exact absurd rfl h3
    · exact h4
    · exact h5
    · exact h6
    · exact absurd hi (by decide)

theorem far_comm (a b : Nat) : far a b = far b a := by unfold far; omega

theorem far_le (a b I : Nat) : far a b ≤ I ↔ a - b ≤ I ∧ b - a ≤ I := by unfold far; omega

theorem blimit_iff {E : Nat} (hE : E ≤ 254) (x y : Nat) : min (min (x + x) 255 + y / 2) 255 - E = 0 ↔ x * 2 + y / 2 ≤ E := by omega

/-- What the masks are: the first is right, and the second is right where the first is set. -/
def MasksRight (m : Reg × Reg) (v : Fin 8 → Reg) (I E T j : Nat) : Prop :=
  m.1 j = bit (decide (filterYes I E (lane v j))) ∧ ∃ h, m.2 j = bit h ∧ (filterYes I E (lane v j) → h = decide (hev T (lane v j)))

theorem lfhMasks_right (v : Fin 8 → Reg) {I E T : Nat} (hI : I ≤ 63) (hE : E ≤ 254) (hT : T < 256) (j : Nat) :
    MasksRight (lfhMasks v (times16 I) (times16 E) (times16 T)) v I E T j := by
  unfold MasksRight lfhMasks
  dsimp only
  constructor
  · rw [pcmpeqb_bit]
    congr 1
    rw [decide_eq_decide, filterYes_iff]
    show _ ||| _ = (0 : BitVec 8) ↔ _
    rw [or_eq_zero, eq_zero_iff, eq_zero_iff]
    simp only [toNat_psubusb, toNat_pmaxub, toNat_distance, toNat_paddusb, toNat_half, toNat_times16 (show I < 256 by omega), toNat_times16 (show E < 256 by omega), lane, blimit_iff hE, far_comm ((v 4 j).toNat) (v 3 j).toNat, far_comm ((v 5 j).toNat) (v 2 j).toNat]
    generalize (far (v 3 j).toNat (v 4 j).toNat * 2 + far (v 2 j).toNat (v 5 j).toNat / 2 ≤ E) = last
    simp only [Nat.sub_eq_zero_iff_le, Nat.max_le, far_le]
    tauto
  · rw [show ∀ a b : Reg, pxor (pcmpeqb a b) ones j = bit (!decide (a j = b j)) from fun a b => by
      unfold pxor ones; rw [pcmpeqb_bit]; cases decide (a j = b j) <;> decide]
    refine ⟨_, rfl, fun hy => ?_⟩
    rw [filterYes_iff] at hy
    rw [Bool.eq_iff_iff, Bool.not_eq_true', decide_eq_false_iff_not, decide_eq_true_iff, ← BitVec.toNat_inj]
    unfold paddb hev
    simp only [BitVec.toNat_add, toNat_psubusb, toNat_distance, toNat_paddusb, toNat_half, toNat_times16 (show E < 256 by omega), toNat_times16 hT,
      lane] at hy ⊢
    obtain ⟨-, -, h2, h4, -, -, he⟩ := hy
    rw [(blimit_iff hE _ _).2 he, far_comm (v 5 j).toNat]
    generalize far (v 2 j).toNat (v 3 j).toNat = x at *
    generalize far (v 4 j).toNat (v 5 j).toNat = y at *
    omega

theorem lfvMasks_right (v : Fin 8 → Reg) {I E T : Nat} (hI : I ≤ 63) (hE : E ≤ 254) (hT : T < 256) (j : Nat) :
    MasksRight (lfvMasks v (times16 I) (times16 E) (times16 T)) v I E T j := by
  unfold MasksRight lfvMasks
  dsimp only
  constructor
  · rw [pcmpeqb_bit]
    congr 1
    rw [decide_eq_decide, filterYes_iff]
    show _ ||| _ = (0 : BitVec 8) ↔ _
    rw [or_eq_zero, eq_zero_iff, eq_zero_iff]
    simp only [toNat_psubusb, toNat_pmaxub, toNat_distance, toNat_paddusb, toNat_half, toNat_times16 (show I < 256 by omega), toNat_times16 (show E < 256 by omega), lane, blimit_iff hE, far_comm ((v 4 j).toNat) (v 3 j).toNat, far_comm ((v 5 j).toNat) (v 2 j).toNat]
    generalize (far (v 3 j).toNat (v 4 j).toNat * 2 + far (v 2 j).toNat (v 5 j).toNat / 2 ≤ E) = last
    simp only [Nat.sub_eq_zero_iff_le, Nat.max_le, far_le]
    tauto
  · rw [show ∀ a b : Reg, pxor ones (pcmpeqb a b) j = bit (!decide (a j = b j)) from fun a b => by
      unfold pxor ones; rw [pcmpeqb_bit]; cases decide (a j = b j) <;> decide]
    refine ⟨_, rfl, fun hy => ?_⟩
    rw [filterYes_iff] at hy
    rw [Bool.eq_iff_iff, Bool.not_eq_true', decide_eq_false_iff_not, decide_eq_true_iff]
    rw [show ∀ a b c : Reg, a j = 0 → (¬ por b c j = a j ↔ ¬ (b j = 0 ∧ c j = 0)) from fun a b c h => by rw [h]; exact not_congr (or_eq_zero _ _)]
    · rw [eq_zero_iff, eq_zero_iff]
      unfold hev
      simp only [toNat_psubusb, toNat_distance, toNat_times16 hT, lane]
      unfold far
      omega
    · rw [eq_zero_iff]
      simp only [toNat_psubusb, toNat_pmaxub, toNat_distance, toNat_times16 (show I < 256 by omega), lane] at hy ⊢
      simp only [Nat.sub_eq_zero_iff_le, Nat.max_le, far_le] at hy ⊢
      tauto

theorem lfMasks_right (v : Fin 8 → Reg) (ninth : Option Reg) {I E T : Nat} (hI : I ≤ 63) (hE : E ≤ 254) (hT : T < 256) (j : Nat)
    (h9 : ∀ r, ninth = some r → (r j).toNat = far (lane v j 2) (lane v j 3)) :
    (lfMasks v ninth (times16 I) (times16 E) (times16 T)).1 j = bit (decide (filterYes I E (lane v j))) ∧
      (lfMasks v ninth (times16 I) (times16 E) (times16 T)).2.1 j = bit (!decide (hev T (lane v j))) ∧
      ((lfMasks v ninth (times16 I) (times16 E) (times16 T)).2.2 j).toNat = far (lane v j 6) (lane v j 7) := by
  have h9' : ((ninth.getD (lfAbs (v 2) (v 3))) j).toNat = far (lane v j 2) (lane v j 3) := by
    cases ninth with
    | none => exact toNat_distance _ _ _
    | some r => exact h9 r rfl
  unfold lfMasks
  dsimp only
  refine ⟨?_, ?_, toNat_distance _ _ _⟩
  · rw [pcmpeqb_bit]
    congr 1
    rw [decide_eq_decide, filterYes_iff]
    show _ ||| _ = (0 : BitVec 8) ↔ _
    rw [or_eq_zero, eq_zero_iff, eq_zero_iff]
    have : ∀ a b : Reg, (lfAbs a b j).toNat = far (a j).toNat (b j).toNat := fun a b => toNat_distance a b j
    simp only [toNat_psubusb, toNat_pmaxub, this, toNat_paddusb, toNat_half, h9', toNat_times16 (show I < 256 by omega), toNat_times16 (show E < 256 by omega), lane, blimit_iff hE, far_comm ((v 4 j).toNat) (v 3 j).toNat, far_comm ((v 5 j).toNat) (v 2 j).toNat]
    generalize (far (v 3 j).toNat (v 4 j).toNat * 2 + far (v 2 j).toNat (v 5 j).toNat / 2 ≤ E) = last
    simp only [Nat.sub_eq_zero_iff_le, Nat.max_le, far_le]
    tauto
  · rw [pcmpeqb_bit]
    congr 1
    rw [Bool.eq_iff_iff, decide_eq_true_iff, Bool.not_eq_true', decide_eq_false_iff_not]
    show _ = (0 : BitVec 8) ↔ _
    rw [eq_zero_iff]
    have : ∀ a b : Reg, (lfAbs a b j).toNat = far (a j).toNat (b j).toNat := fun a b => toNat_distance a b j
    unfold hev
    simp only [toNat_psubusb, toNat_pmaxub, this, h9', toNat_times16 hT, lane]
    unfold far
    omega

/-! ### The filters -/

theorem toInt_sat (x : Int) : (BitVec.ofInt 8 (saturate 8 x)).toInt = c x := by
  have h : saturate 8 x = c x := by unfold saturate c; omega
  have := c_range x
  rw [h, BitVec.toInt_ofInt, Int.bmod_def]
  omega

theorem toInt_paddsb (a b : Reg) (j : Nat) : (paddsb a b j).toInt = c ((a j).toInt + (b j).toInt) := toInt_sat _

theorem toInt_psubsb (a b : Reg) (j : Nat) : (psubsb a b j).toInt = c ((a j).toInt - (b j).toInt) := toInt_sat _

theorem toInt_flip (a : Reg) (j : Nat) : (pxor a (times16 0x80) j).toInt = toSigned ⟨a j⟩ := by
  have key : ∀ x : BitVec 8, (x ^^^ 128#8).toInt = (x.toNat : Int) - 128 := by decide +kernel
  exact key (a j)

theorem flip_eq (a : Reg) (j : Nat) : pxor a (times16 0x80) j = (fromSigned (a j).toInt).toBitVec := by
  have key : ∀ x : BitVec 8, x ^^^ 128#8 = (UInt8.ofNat ((x.toInt + 128) % 256).toNat).toBitVec := by decide +kernel
  exact key (a j)

theorem toInt_append (x g : BitVec 8) : (x ++ g : BitVec (8 + 8)).toInt = x.toInt * 256 + g.toNat := by
  have h : (x ++ g : BitVec (8 + 8)).toNat = x.toNat * 256 + g.toNat := by
    rw [BitVec.toNat_append, Nat.shiftLeft_eq, Nat.mul_comm, ← Nat.two_pow_add_eq_or_of_lt g.isLt]
  have := x.isLt
  have := g.isLt
  rw [BitVec.toInt_eq_toNat_cond, BitVec.toInt_eq_toNat_cond, h]
  omega

theorem toInt_range (x : BitVec 8) : -128 ≤ x.toInt ∧ x.toInt ≤ 127 := by
  have := x.isLt
  rw [BitVec.toInt_eq_toNat_cond]; omega

/-- The arithmetic shift of a byte by 3 in the upper half of a word. -/
theorem toInt_shift11 (x g : BitVec 8) : ((x ++ g : BitVec (8 + 8)).sshiftRight 11).toInt = x.toInt / 8 := by
  rw [BitVec.toInt_sshiftRight, toInt_append, Int.shiftRight_eq_div_pow]
  have := g.isLt
  omega

/-- The number in lane `j` of two registers of words. -/
theorem toInt_packsswb {a b : Reg} {j : Nat} {z : Int} (h : (if j < 8 then word a j else word b (j - 8)).toInt = z) (hz : -128 ≤ z ∧ z ≤ 127) :
    (packsswb a b j).toInt = z := by
  unfold packsswb
  rw [toInt_sat, h, c_of_range hz]

theorem toInt_sar3 (g g' x : Reg) (j : Nat) (hj : j < 16) :
    (packsswb (psraw (punpckl 1 g x) 11) (psraw (punpckh 8 1 g' x) 11) j).toInt = (x j).toInt / 8 := by
  have := toInt_range (x j)
  refine toInt_packsswb ?_ (by omega)
  split
  · rw [word_psraw, word_punpckl1]; exact toInt_shift11 _ _
  · rw [word_psraw, word_punpckh1, show 8 + (j - 8) = j by omega]; exact toInt_shift11 _ _

theorem toInt_half (g g' x : Reg) (j : Nat) (hj : j < 16) :
    (packsswb (psraw (paddsw (psraw (punpckl 1 g x) 11) (ofWords fun _ => 1)) 1) (psraw (paddsw (psraw (punpckh 8 1 g' x) 11) (ofWords fun _ => 1)) 1) j).toInt =
      ((x j).toInt / 8 + 1) / 2 := by
  have := toInt_range (x j)
  have e : ∀ y : BitVec 16, y.toInt = (x j).toInt / 8 → ((BitVec.ofInt 16 (saturate 16 (y.toInt + (1 : BitVec 16).toInt))).sshiftRight 1).toInt = ((x j).toInt / 8 + 1) / 2 := by
    intro y hy
    rw [BitVec.toInt_sshiftRight, hy, show (1 : BitVec 16).toInt = 1 from rfl, saturate_of_fits (by omega), toInt_ofInt16 (by omega), Int.shiftRight_eq_div_pow]
    rfl
  refine toInt_packsswb ?_ (by omega)
  split
  · rw [word_psraw, word_paddsw, word_ofWords]
    exact e _ (by rw [word_psraw, word_punpckl1]; exact toInt_shift11 _ _)
  · rw [word_psraw, word_paddsw, word_ofWords]
    exact e _ (by rw [word_psraw, word_punpckh1, show 8 + (j - 8) = j by omega]; exact toInt_shift11 _ _)

theorem three_steps {a d : Int} (ha : -128 ≤ a ∧ a ≤ 127) (hd : -255 ≤ d ∧ d ≤ 255) : c (c (c (a + c d) + c d) + c d) = c (a + 3 * d) := by
  unfold c; omega

theorem toSigned_range (x : UInt8) : -128 ≤ toSigned x ∧ toSigned x ≤ 127 := u2s_range x

/-- What the pixels of a lane are. -/
def pixels (v : Fin 8 → Reg) (j : Nat) : Fin 8 → UInt8 := fun i => ⟨v i j⟩

theorem toInt_ite (b : Bool) (x : BitVec 8) : (if b then x else 0).toInt = masked b x.toInt := by cases b <;> rfl

theorem bFilter_lane (v : Fin 8 → Reg) (mask hev xmm5 : Reg) (m h : Bool) {j : Nat} (hj : j < 16) (hm : mask j = bit m) (hh : hev j = bit h) (i : Fin 4) :
    bFilter (v 2) (v 3) (v 4) (v 5) mask hev xmm5 i j = (subblockFilter m h (pixels v j) (![2, 3, 4, 5] i)).toBitVec := by
  have r := fun k => toSigned_range (pixels v j k)
  have hA : ∀ k, (pxor (v k) (times16 0x80) j).toInt = toSigned (pixels v j k) := fun k => toInt_flip _ _
  have value : ∀ d : Reg, d = psubsb (pxor (v 4) (times16 0x80)) (pxor (v 3) (times16 0x80)) →
      (pand mask (paddsb (paddsb (paddsb (pand (psubsb (pxor (v 2) (times16 0x80)) (pxor (v 5) (times16 0x80))) hev) d) d) d) j).toInt =
        masked m (c (masked h (c (toSigned (pixels v j 2) - toSigned (pixels v j 5))) + 3 * (toSigned (pixels v j 4) - toSigned (pixels v j 3)))) := by
    rintro d rfl
    show (mask j &&& _).toInt = _
    rw [hm, bit_and, toInt_ite, toInt_paddsb, toInt_paddsb, toInt_paddsb, toInt_psubsb, hA, hA]
    show masked m (c (c (c ((_ &&& hev j).toInt + _) + _) + _)) = _
    rw [hh, and_bit, toInt_ite, toInt_psubsb, hA, hA, three_steps]
    · cases h
      · exact ⟨show (-128 : Int) ≤ 0 by decide, show (0 : Int) ≤ 127 by decide⟩
      · exact c_range _
    · have := r 3; have := r 4; omega
  have e3 : (times16 3 j).toInt = 3 := rfl
  have e4 : (times16 4 j).toInt = 4 := rfl
  unfold bFilter subblockFilter
  simp only [signedClamp_eq, shr3, shr1]
  fin_cases i
  · show pxor _ _ j = (fromSigned _).toBitVec
    rw [flip_eq, toInt_paddsb, hA]
    congr 5
    show (~~~ hev j &&& _).toInt = _
    rw [hh, not_bit, bit_and, toInt_ite, toInt_half _ _ _ _ hj, toInt_paddsb, value _ rfl, e4]
  · show pxor _ _ j = (fromSigned _).toBitVec
    rw [flip_eq, toInt_paddsb, hA, toInt_sar3 _ _ _ _ hj, toInt_paddsb, value _ rfl, e3]
  · show pxor _ _ j = (fromSigned _).toBitVec
    rw [flip_eq, toInt_psubsb, hA, toInt_sar3 _ _ _ _ hj, toInt_paddsb, value _ rfl, e4]
  · show pxor _ _ j = (fromSigned _).toBitVec
    rw [flip_eq, toInt_psubsb, hA]
    congr 5
    show (~~~ hev j &&& _).toInt = _
    rw [hh, not_bit, bit_and, toInt_ite, toInt_half _ _ _ _ hj, toInt_paddsb, value _ rfl, e4]

theorem toInt_lfShift3 (a : Reg) (j : Nat) : (lfShift3 a j).toInt = (a j).toInt / 8 := by
  have key : ∀ x : BitVec 8, (((x >>> 3) &&& 0x1f#8) ||| ((if x.toInt < (0#8).toInt then -1 else 0) &&& 0xe0#8)).toInt = x.toInt / 8 := by decide +kernel
  rw [← key]
  congr 1
  show pand _ _ j ||| _ = _
  rw [psrlw_and _ _ _ _ fun i hi h8 => by
    have : ∀ k : Fin 8, 5 ≤ k.val → (0x1f#8).getLsbD k = false := by decide
    exact this ⟨i, h8⟩ (by show 5 ≤ i; omega)]
  rfl

theorem toInt_lfShift1 (a : Reg) (j : Nat) : (lfShift1 a j).toInt = (a j).toInt / 2 := by
  have key : ∀ x : BitVec 8, (((x >>> 1) &&& 0x7f#8) ||| ((if x.toInt < (0#8).toInt then -1 else 0) &&& 0x80#8)).toInt = x.toInt / 2 := by decide +kernel
  rw [← key]
  congr 1
  show pand _ _ j ||| _ = _
  rw [psrlw_and _ _ _ _ fun i hi h8 => by
    have : ∀ k : Fin 8, 7 ≤ k.val → (0x7f#8).getLsbD k = false := by decide
    exact this ⟨i, h8⟩ (by show 7 ≤ i; omega)]
  rfl

theorem lfFilter_lane (v : Fin 8 → Reg) (mask noHev : Reg) (m h : Bool) {j : Nat} (hm : mask j = bit m) (hh : noHev j = bit (!h)) (i : Fin 4) :
    lfFilter (v 2) (v 3) (v 4) (v 5) mask noHev i j = (subblockFilter m h (pixels v j) (![2, 3, 4, 5] i)).toBitVec := by
  have r := fun k => toSigned_range (pixels v j k)
  have hA : ∀ k, (pxor (v k) (times16 0x80) j).toInt = toSigned (pixels v j k) := fun k => toInt_flip _ _
  have value : ∀ d : Reg, d = psubsb (pxor (v 4) (times16 0x80)) (pxor (v 3) (times16 0x80)) →
      (pand mask (paddsb (paddsb (paddsb (pandn noHev (psubsb (pxor (v 2) (times16 0x80)) (pxor (v 5) (times16 0x80)))) d) d) d) j).toInt =
        masked m (c (masked h (c (toSigned (pixels v j 2) - toSigned (pixels v j 5))) + 3 * (toSigned (pixels v j 4) - toSigned (pixels v j 3)))) := by
    rintro d rfl
    show (mask j &&& _).toInt = _
    rw [hm, bit_and, toInt_ite, toInt_paddsb, toInt_paddsb, toInt_paddsb, toInt_psubsb, hA, hA]
    show masked m (c (c (c ((~~~ noHev j &&& _).toInt + _) + _) + _)) = _
    rw [hh, not_bit, Bool.not_not, bit_and, toInt_ite, toInt_psubsb, hA, hA, three_steps]
    · cases h
      · exact ⟨show (-128 : Int) ≤ 0 by decide, show (0 : Int) ≤ 127 by decide⟩
      · exact c_range _
    · have := r 3; have := r 4; omega
  have e1 : (times16 1 j).toInt = 1 := rfl
  have e3 : (times16 3 j).toInt = 3 := rfl
  have e4 : (times16 4 j).toInt = 4 := rfl
  have e8 : ∀ x, c (c x / 8 + 1) = c x / 8 + 1 := fun x => c_of_range (by have := c_range x; omega)
  unfold lfFilter subblockFilter
  simp only [signedClamp_eq, shr3, shr1]
  fin_cases i
  · show pxor _ _ j = (fromSigned _).toBitVec
    rw [flip_eq, toInt_paddsb, hA]
    congr 5
    show (_ &&& noHev j).toInt = _
    rw [hh, and_bit, toInt_ite, toInt_lfShift1, toInt_paddsb, toInt_lfShift3, toInt_paddsb, value _ rfl, e4, e1, e8]
  · show pxor _ _ j = (fromSigned _).toBitVec
    rw [flip_eq, toInt_paddsb, hA, toInt_lfShift3, toInt_paddsb, value _ rfl, e3]
  · show pxor _ _ j = (fromSigned _).toBitVec
    rw [flip_eq, toInt_psubsb, hA, toInt_lfShift3, toInt_paddsb, value _ rfl, e4]
  · show pxor _ _ j = (fromSigned _).toBitVec
    rw [flip_eq, toInt_psubsb, hA]
    congr 5
    show (_ &&& noHev j).toInt = _
    rw [hh, and_bit, toInt_ite, toInt_lfShift1, toInt_paddsb, toInt_lfShift3, toInt_paddsb, value _ rfl, e4, e1, e8]

/-- Nine times a byte with a sign. -/
theorem word_nine (x : BitVec 8) : BitVec.ofInt 16 (((x ++ (0 : BitVec 8) : BitVec (8 + 8)).toInt * (0x0900 : BitVec 16).toInt) >>> 16) = BitVec.ofInt 16 (9 * x.toInt) := by
  rw [toInt_append, show (0x0900 : BitVec 16).toInt = 2304 from rfl, Int.shiftRight_eq_div_pow]
  congr 1
  show (x.toInt * 256 + (0 : Int)) * 2304 / 65536 = _
  omega

/-- The sums of the words in one lane: `k` times nine times a byte and 63, shifted. -/
theorem toInt_tap {A B : Reg} {j : Nat} {y : Int} (hb : -3456 ≤ y ∧ y ≤ 3456)
    (h : (if j < 8 then word A j else word B (j - 8)) = BitVec.ofInt 16 (63 + y)) :
    (packsswb (psraw A 7) (psraw B 7) j).toInt = c ((63 + y) / 128) := by
  rw [c_of_range (by omega)]
  refine toInt_packsswb ?_ (by omega)
  rw [word_psraw, word_psraw, ← apply_ite (fun w : BitVec 16 => w.sshiftRight 7), h, BitVec.toInt_sshiftRight, toInt_ofInt16 (by omega), Int.shiftRight_eq_div_pow]
  rfl

theorem mbFilter_lane (v : Fin 8 → Reg) (mask hev : Reg) (m h : Bool) {j : Nat} (hj : j < 16) (hm : mask j = bit m) (hh : hev j = bit h) (i : Fin 6) :
    mbFilter (v 1) (v 2) (v 3) (v 4) (v 5) (v 6) mask hev i j = (macroblockFilter m h (pixels v j) (![1, 2, 3, 4, 5, 6] i)).toBitVec := by
  have r := fun k => toSigned_range (pixels v j k)
  have hA : ∀ k, (pxor (v k) (times16 0x80) j).toInt = toSigned (pixels v j k) := fun k => toInt_flip _ _
  obtain ⟨V, hV⟩ : ∃ V : Reg, V = pand mask (paddsb (paddsb (paddsb (psubsb (pxor (v 2) (times16 0x80)) (pxor (v 5) (times16 0x80)))
    (psubsb (pxor (v 4) (times16 0x80)) (pxor (v 3) (times16 0x80)))) (psubsb (pxor (v 4) (times16 0x80)) (pxor (v 3) (times16 0x80))))
    (psubsb (pxor (v 4) (times16 0x80)) (pxor (v 3) (times16 0x80)))) := ⟨_, rfl⟩
  have value : (V j).toInt = masked m (c (c (toSigned (pixels v j 2) - toSigned (pixels v j 5)) + 3 * (toSigned (pixels v j 4) - toSigned (pixels v j 3)))) := by
    subst hV
    show (mask j &&& _).toInt = _
    rw [hm, bit_and, toInt_ite, toInt_paddsb, toInt_paddsb, toInt_paddsb, toInt_psubsb, hA, hA, toInt_psubsb, hA, hA, three_steps]
    · exact c_range _
    · have := r 3; have := r 4; omega
  have e3 : (times16 3 j).toInt = 3 := rfl
  have e4 : (times16 4 j).toInt = 4 := rfl
  have near : (pand V hev j).toInt = masked h (V j).toInt := by
    show (V j &&& hev j).toInt = _
    rw [hh, and_bit, toInt_ite]
  have wide : (pandn hev V j).toInt = masked (!h) (V j).toInt := by
    show (~~~ hev j &&& V j).toInt = _
    rw [hh, not_bit, bit_and, toInt_ite]
  obtain ⟨N, hN⟩ : ∃ N : Reg, N = pandn hev V := ⟨_, rfl⟩
  have hr := toInt_range (N j)
  have lo : ∀ i, word (pmulhw (punpckl 1 zero N) (ofWords fun _ => 0x0900)) i = BitVec.ofInt 16 (9 * (N i).toInt) := fun i => by
    rw [word_pmulhw, word_punpckl1, word_ofWords]; exact word_nine _
  have hi : ∀ i, word (pmulhw (punpckh 8 1 zero N) (ofWords fun _ => 0x0900)) i = BitVec.ofInt 16 (9 * (N (8 + i)).toInt) := fun i => by
    rw [word_pmulhw, word_punpckh1, word_ofWords]; exact word_nine _
  have c63 : (0x003f : BitVec 16) = BitVec.ofInt 16 63 := rfl
  have t9 : (packsswb (psraw (paddw (pmulhw (punpckl 1 zero N) (ofWords fun _ => 0x0900)) (ofWords fun _ => 0x003f)) 7)
      (psraw (paddw (pmulhw (punpckh 8 1 zero N) (ofWords fun _ => 0x0900)) (ofWords fun _ => 0x003f)) 7) j).toInt = c ((63 + (N j).toInt * 9) / 128) := by
    refine toInt_tap (by omega) ?_
    simp only [word_paddw, lo, hi, word_ofWords, c63, ← BitVec.ofInt_add]
    split
    · congr 1; omega
    · rw [show 8 + (j - 8) = j by omega]; congr 1; omega
  have t18 : (packsswb (psraw (paddw (pmulhw (punpckl 1 zero N) (ofWords fun _ => 0x0900)) (paddw (pmulhw (punpckl 1 zero N) (ofWords fun _ => 0x0900)) (ofWords fun _ => 0x003f))) 7)
      (psraw (paddw (pmulhw (punpckh 8 1 zero N) (ofWords fun _ => 0x0900)) (paddw (pmulhw (punpckh 8 1 zero N) (ofWords fun _ => 0x0900)) (ofWords fun _ => 0x003f))) 7) j).toInt =
      c ((63 + (N j).toInt * 18) / 128) := by
    refine toInt_tap (by omega) ?_
    simp only [word_paddw, lo, hi, word_ofWords, c63, ← BitVec.ofInt_add]
    split
    · congr 1; omega
    · rw [show 8 + (j - 8) = j by omega]; congr 1; omega
  have t27 : (packsswb (psraw (paddw (paddw (pmulhw (punpckl 1 zero N) (ofWords fun _ => 0x0900)) (pmulhw (punpckl 1 zero N) (ofWords fun _ => 0x0900)))
        (paddw (pmulhw (punpckl 1 zero N) (ofWords fun _ => 0x0900)) (ofWords fun _ => 0x003f))) 7)
      (psraw (paddw (paddw (pmulhw (punpckh 8 1 zero N) (ofWords fun _ => 0x0900)) (pmulhw (punpckh 8 1 zero N) (ofWords fun _ => 0x0900)))
        (paddw (pmulhw (punpckh 8 1 zero N) (ofWords fun _ => 0x0900)) (ofWords fun _ => 0x003f))) 7) j).toInt = c ((63 + (N j).toInt * 27) / 128) := by
    refine toInt_tap (by omega) ?_
    simp only [word_paddw, lo, hi, word_ofWords, c63, ← BitVec.ofInt_add]
    split
    · congr 1; omega
    · rw [show 8 + (j - 8) = j by omega]; congr 1; omega
  have hNj : (N j).toInt = masked (!h) (masked m (c (c (toSigned (pixels v j 2) - toSigned (pixels v j 5)) + 3 * (toSigned (pixels v j 4) - toSigned (pixels v j 3))))) := by
    rw [hN, wide, value]
  unfold mbFilter macroblockFilter
  simp only [← hV, ← hN]
  simp only [signedClamp_eq, shr3, shr7]
  fin_cases i
  · show pxor _ _ j = (fromSigned _).toBitVec
    rw [flip_eq, toInt_paddsb, hA, t9, hNj]
  · show pxor _ _ j = (fromSigned _).toBitVec
    rw [flip_eq, toInt_paddsb, hA, t18, hNj]
  · show pxor _ _ j = (fromSigned _).toBitVec
    rw [flip_eq, toInt_paddsb, toInt_paddsb, hA, t27, hNj, toInt_sar3 _ _ _ _ hj, toInt_paddsb, near, value, e3]
  · show pxor _ _ j = (fromSigned _).toBitVec
    rw [flip_eq, toInt_psubsb, toInt_psubsb, hA, t27, hNj, toInt_sar3 _ _ _ _ hj, toInt_paddsb, near, value, e4]
  · show pxor _ _ j = (fromSigned _).toBitVec
    rw [flip_eq, toInt_psubsb, hA, t18, hNj]
  · show pxor _ _ j = (fromSigned _).toBitVec
    rw [flip_eq, toInt_psubsb, hA, t9, hNj]

/-! ### Masks and filters together -/

theorem macroblockFilter_off (h : Bool) (v : Fin 8 → UInt8) : macroblockFilter false h v = v := by
  have e3 : c 3 / 8 = 0 := by decide
  have e4 : c 4 / 8 = 0 := by decide
  have e0 : c 0 = 0 := by decide
  have e63 : (63 : Int) / 128 = 0 := by decide
  have hm : ∀ b : Bool, (if b then (0 : Int) else 0) = 0 := fun b => by cases b <;> rfl
  funext i
  unfold macroblockFilter
  simp only [masked, signedClamp_eq, fromSigned_u2s, shr3, shr7, toSigned_eq, Bool.false_eq_true, if_false, Int.zero_add, e3,
    e4, e0, e63, hm, Int.zero_mul, Int.sub_zero, Int.add_zero, c_u2s]
  fin_cases i <;> rfl

theorem subblockFilter_off (h : Bool) (v : Fin 8 → UInt8) : subblockFilter false h v = v := by
  have e3 : c 3 / 8 = 0 := by decide
  have e4 : c 4 / 8 = 0 := by decide
  have hm : ∀ b : Bool, (if b then (0 : Int) else 0) = 0 := fun b => by cases b <;> rfl
  funext i
  unfold subblockFilter
  simp only [masked, signedClamp_eq, fromSigned_c, shr3, shr1, toSigned_eq, Bool.false_eq_true, if_false, Int.zero_add, e3,
    e4, show ((1 : Int) / 2) = 0 by decide, hm, Int.sub_zero, Int.add_zero, ofNat_same]
  fin_cases i <;> rfl

theorem pixels_toNat (v : Fin 8 → Reg) (j : Nat) : (fun i => (pixels v j i).toNat) = lane v j := rfl

theorem mbAcross_lane {m : Reg × Reg} {v : Fin 8 → Reg} {I E T j : Nat} (hm : MasksRight m v I E T j) (hj : j < 16) (i : Fin 8) :
    mbAcross m v i j = (onPixels (macroblock I E T) (pixels v j) i).toBitVec := by
  obtain ⟨h1, h, h2, h3⟩ := hm
  rw [← macroblockFilter_eq, filterMask_eq, hevMask_eq, pixels_toNat]
  have e := mbFilter_lane v m.1 m.2 _ _ hj h1 h2
  have same : macroblockFilter (decide (filterYes I E (lane v j))) (decide (hev T (lane v j))) (pixels v j) =
      macroblockFilter (decide (filterYes I E (lane v j))) h (pixels v j) := by
    by_cases hy : filterYes I E (lane v j)
    · rw [h3 hy]
    · rw [decide_eq_false hy, macroblockFilter_off, macroblockFilter_off]
  rw [same]
  unfold mbAcross
  fin_cases i
  · rfl
  · exact e 0
  · exact e 1
  · exact e 2
  · exact e 3
  · exact e 4
  · exact e 5
  · rfl

theorem bAcross_lane {m : Reg × Reg} {v : Fin 8 → Reg} {I E T j : Nat} (hm : MasksRight m v I E T j) (xmm5 : Reg) (hj : j < 16) (i : Fin 8) :
    bAcross m xmm5 v i j = (onPixels (subblock I E T) (pixels v j) i).toBitVec := by
  obtain ⟨h1, h, h2, h3⟩ := hm
  rw [← subblockFilter_eq, filterMask_eq, hevMask_eq, pixels_toNat]
  have e := bFilter_lane v m.1 m.2 xmm5 _ _ hj h1 h2
  have same : subblockFilter (decide (filterYes I E (lane v j))) (decide (hev T (lane v j))) (pixels v j) =
      subblockFilter (decide (filterYes I E (lane v j))) h (pixels v j) := by
    by_cases hy : filterYes I E (lane v j)
    · rw [h3 hy]
    · rw [decide_eq_false hy, subblockFilter_off, subblockFilter_off]
  rw [same]
  unfold bAcross
  fin_cases i
  · rfl
  · rfl
  · exact e 0
  · exact e 1
  · exact e 2
  · exact e 3
  · rfl
  · rfl

/-- The filter across one of the three edges, in one lane of sixteen pixels. -/
def stepLane (F : (Fin 8 → UInt8) → Fin 8 → UInt8) (k : Nat) (g : Nat → UInt8) : Nat → UInt8 := fun n =>
  if h : k ≤ n ∧ n < k + 8 then F (fun i => g (k + i)) ⟨n - k, by omega⟩ else g n

/-- One lane of sixteen registers. -/
def column16 (s : Fin 16 → Reg) (j n : Nat) : UInt8 := if h : n < 16 then ⟨s ⟨n, h⟩ j⟩ else 0

theorem stepLane_keep (I E T k : Nat) (g : Nat → UInt8) (n : Nat) (h : n < k + 2 ∨ k + 5 < n) : stepLane (onPixels (subblock I E T)) k g n = g n := by
  unfold stepLane
  split
  · next hn =>
    rw [subblock_only I E T _ ⟨n - k, _⟩ (by
      intro hm
      have : ∀ i : Fin 8, i ∈ subblockPlaces → i.val = 2 ∨ i.val = 3 ∨ i.val = 4 ∨ i.val = 5 := by decide
      have := this _ hm
      dsimp only at this
      omega)]
    show g (k + (n - k)) = g n
    rw [show k + (n - k) = n by omega]
  · rfl

theorem lfStep_lane (s : Fin 16 → Reg) (k : Nat) (hk : k + 7 < 16) (ninth : Option Reg) {I E T : Nat} (hI : I ≤ 63) (hE : E ≤ 254) (hT : T < 256) (j : Nat)
    (h9 : ∀ r, ninth = some r → (r j).toNat = far (column16 s j (k + 2)).toNat (column16 s j (k + 3)).toNat) :
    (∀ n, n < 16 → column16 (lfStep s k hk ninth (times16 I) (times16 E) (times16 T)).1 j n = stepLane (onPixels (subblock I E T)) k (column16 s j) n) ∧
      ((lfStep s k hk ninth (times16 I) (times16 E) (times16 T)).2 j).toNat = far (column16 s j (k + 6)).toNat (column16 s j (k + 7)).toNat := by
  obtain ⟨line, hline⟩ : ∃ line : Fin 8 → Reg, line = fun n : Fin 8 => s ⟨k + n.val, by omega⟩ := ⟨_, rfl⟩
  have hcol : ∀ n : Fin 8, column16 s j (k + n.val) = pixels line j n := fun n => by
    unfold column16 pixels; rw [dif_pos (by omega), hline]
  have hlane : ∀ n : Fin 8, lane line j n = (column16 s j (k + n.val)).toNat := fun n => by rw [hcol]; rfl
  obtain ⟨m1, m2, m3⟩ := lfMasks_right line ninth hI hE hT j (fun r hr => by rw [hlane 2, hlane 3]; exact h9 r hr)
  rw [hlane 6, hlane 7] at m3
  have hs : lfStep s k hk ninth (times16 I) (times16 E) (times16 T) =
      (fun n => if n.val = k + 2 then lfFilter (line 2) (line 3) (line 4) (line 5) (lfMasks line ninth (times16 I) (times16 E) (times16 T)).1 (lfMasks line ninth (times16 I) (times16 E) (times16 T)).2.1 0
        else if n.val = k + 3 then lfFilter (line 2) (line 3) (line 4) (line 5) (lfMasks line ninth (times16 I) (times16 E) (times16 T)).1 (lfMasks line ninth (times16 I) (times16 E) (times16 T)).2.1 1
        else if n.val = k + 4 then lfFilter (line 2) (line 3) (line 4) (line 5) (lfMasks line ninth (times16 I) (times16 E) (times16 T)).1 (lfMasks line ninth (times16 I) (times16 E) (times16 T)).2.1 2
        else if n.val = k + 5 then lfFilter (line 2) (line 3) (line 4) (line 5) (lfMasks line ninth (times16 I) (times16 E) (times16 T)).1 (lfMasks line ninth (times16 I) (times16 E) (times16 T)).2.1 3
        else s n, (lfMasks line ninth (times16 I) (times16 E) (times16 T)).2.2) := by subst hline; rfl
  constructor
  · intro n hn
    have e := lfFilter_lane line _ _ _ _ m1 m2
    have key : ∀ i : Fin 8, onPixels (subblock I E T) (fun i : Fin 8 => column16 s j (k + i)) i =
        subblockFilter (decide (filterYes I E (lane line j))) (decide (hev T (lane line j))) (pixels line j) i := fun i => by
      have : (fun i : Fin 8 => column16 s j (k + i)) = pixels line j := funext hcol
      rw [this, ← subblockFilter_eq, filterMask_eq, hevMask_eq, pixels_toNat]
    rw [hs]
    unfold stepLane
    rw [column16, dif_pos hn]
    dsimp only
    by_cases h2 : n = k + 2
    · subst h2
      rw [if_pos rfl, dif_pos (by omega), key, e 0]
      simp
    by_cases h3 : n = k + 3
    · subst h3
      rw [if_neg h2, if_pos rfl, dif_pos (by omega), key, e 1]
      simp
    by_cases h4 : n = k + 4
    · subst h4
      rw [if_neg h2, if_neg h3, if_pos rfl, dif_pos (by omega), key, e 2]
      simp
    by_cases h5 : n = k + 5
    · subst h5
      rw [if_neg h2, if_neg h3, if_neg h4, if_pos rfl, dif_pos (by omega), key, e 3]
      simp
    rw [if_neg h2, if_neg h3, if_neg h4, if_neg h5]
    rw [show s ⟨n, hn⟩ j = (column16 s j n).toBitVec by rw [column16, dif_pos hn]]
    exact (stepLane_keep I E T k (column16 s j) n (by omega)).symm
  · rw [hs]
    exact m3

theorem lfSteps_lane (s : Fin 16 → Reg) {I E T : Nat} (hI : I ≤ 63) (hE : E ≤ 254) (hT : T < 256) (j n : Nat) (hn : n < 16) :
    column16 (lfSteps s (times16 I) (times16 E) (times16 T)) j n =
      stepLane (onPixels (subblock I E T)) 8 (stepLane (onPixels (subblock I E T)) 4 (stepLane (onPixels (subblock I E T)) 0 (column16 s j))) n := by
  unfold lfSteps
  dsimp only
  have cong : ∀ {F : (Fin 8 → UInt8) → Fin 8 → UInt8} {k : Nat} {g g' : Nat → UInt8} {n : Nat}, k + 7 < 16 → n < 16 → (∀ n, n < 16 → g n = g' n) →
      stepLane F k g n = stepLane F k g' n := fun hk hn hg => by
    unfold stepLane
    split
    · congr 1; funext i; exact hg _ (by omega)
    · exact hg _ hn
  obtain ⟨a1, a2⟩ := lfStep_lane s 0 (by decide) none hI hE hT j (fun r hr => by simp at hr)
  obtain ⟨b1, b2⟩ := lfStep_lane (lfStep s 0 (by decide) none (times16 I) (times16 E) (times16 T)).1 4 (by decide)
    (some (lfStep s 0 (by decide) none (times16 I) (times16 E) (times16 T)).2) hI hE hT j (fun r hr => by
      injection hr with hr
      subst hr
      rw [a2, a1 _ (by decide), a1 _ (by decide), stepLane_keep _ _ _ _ _ _ (by omega), stepLane_keep _ _ _ _ _ _ (by omega)])
  generalize lfStep s 0 (by decide) none (times16 I) (times16 E) (times16 T) = a at *
  obtain ⟨c1, -⟩ := lfStep_lane (lfStep a.1 4 (by decide) (some a.2) (times16 I) (times16 E) (times16 T)).1 8 (by decide)
    (some (lfStep a.1 4 (by decide) (some a.2) (times16 I) (times16 E) (times16 T)).2) hI hE hT j (fun r hr => by
      injection hr with hr
      subst hr
      rw [b2, b1 _ (by decide), b1 _ (by decide), stepLane_keep _ _ _ _ _ _ (by omega), stepLane_keep _ _ _ _ _ _ (by omega)])
  generalize lfStep a.1 4 (by decide) (some a.2) (times16 I) (times16 E) (times16 T) = b at *
  rw [c1 n hn]
  refine cong (by decide) hn fun n hn => ?_
  rw [b1 n hn]
  exact cong (by decide) hn fun n hn => a1 n hn

end Alfalfa.Sse
