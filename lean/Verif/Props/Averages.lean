import Verif.Model.Averages
import Verif.Proof.Double
import Mathlib.Tactic.Linarith
import Mathlib.Tactic.NormNum
import Mathlib.Tactic.Positivity

/-! C93: the averages that the sender and the receiver keep are averages. -/

namespace Alfalfa

/-! ### What a user expects -/

/-- What is assumed about `double`: rounding keeps the order, keeps zero, and changes a positive number by at most one part in 2^53, or by next to nothing if it is next to nothing. -/
structure Rounds (fl : ℚ → ℚ) : Prop where
  zero : fl 0 = 0
  mono : ∀ x y, x ≤ y → fl x ≤ fl y
  above : ∀ x, 0 ≤ x → fl x ≤ x + x / 2 ^ 53 + 1 / 2 ^ 200
  below : ∀ x, 0 ≤ x → x - x / 2 ^ 53 - 1 / 2 ^ 200 ≤ fl x

/-- Exact numbers are a case of it. -/
theorem Rounds.exact : Rounds id where
  zero := rfl
  mono := fun _ _ h => h
  above := fun x h => by
    have : 0 ≤ x / 2 ^ 53 := by positivity
    have : (0 : ℚ) ≤ 1 / 2 ^ 200 := by positivity
    simp only [id]; linarith
  below := fun x h => by
    have : 0 ≤ x / 2 ^ 53 := by positivity
    have : (0 : ℚ) ≤ 1 / 2 ^ 200 := by positivity
    simp only [id]; linarith

theorem tiny1075 : (1 : ℚ) / 2 ^ 1075 ≤ 1 / 2 ^ 200 :=
  one_div_le_one_div_of_le (pow_pos (by norm_num) _) (pow_le_pow_right₀ (by norm_num) (by norm_num))

/-- The rounding of IEEE 754 is a case of it. -/
theorem Rounds.double : Rounds roundDouble where
  zero := round_zero
  mono := fun _ _ h => round_mono h
  above := fun x h => by
    rcases lt_or_eq_of_le h with h0 | rfl
    · have h1 := (round_near h).1
      have h2 := spacing_small h0
      have h3 := tiny1075
      generalize (1 : ℚ) / 2 ^ 1075 = t at h2 h3
      linarith
    · rw [round_zero]; positivity
  below := fun x h => by
    rcases lt_or_eq_of_le h with h0 | rfl
    · have h1 := (round_near h).2
      have h2 := spacing_small h0
      have h3 := tiny1075
      generalize (1 : ℚ) / 2 ^ 1075 = t at h2 h3
      linarith
    · rw [round_zero]; norm_num

/-- The time between two packets, less the time that the sender waited between them (a signed 32-bit number). -/
def packetGap (p q : Nat × Nat) : Int := (q.1 : Int) - p.1 - if q.2 < 2 ^ 31 then (q.2 : Int) else (q.2 : Int) - 2 ^ 32

/-! ### Bounds -/

theorem tiny : (1 : ℚ) / 2 ^ 200 ≤ 1 / 2 ^ 60 := by
  apply one_div_le_one_div_of_le (by positivity)
  exact pow_le_pow_right₀ (by norm_num) (by norm_num)

theorem Rounds.nonneg {fl : ℚ → ℚ} (h : Rounds fl) {x : ℚ} (hx : 0 ≤ x) : 0 ≤ fl x := h.zero ▸ h.mono 0 x hx

/-- Rounding a number below 2^33. -/
theorem Rounds.near {fl : ℚ → ℚ} (h : Rounds fl) {x : ℚ} (hx : 0 ≤ x) (hb : x ≤ 2 ^ 33) : fl x ≤ x + 1 / 2 ^ 19 := by
  have h1 := h.above x hx
  have h2 : x / 2 ^ 53 ≤ 1 / 2 ^ 20 := by
    rw [div_le_div_iff₀ (by positivity) (by positivity)]
    norm_num at hb ⊢
    linarith
  have h3 := tiny
  norm_num at h1 h2 h3 ⊢
  linarith

/-- The two constants. -/
theorem Rounds.weights {fl : ℚ → ℚ} (h : Rounds fl) : 0 ≤ fl (1 / 10) ∧ fl (1 / 10) ≤ 1 / 10 + 1 / 2 ^ 50 ∧ 1 / 10 - 1 / 2 ^ 50 ≤ fl (1 / 10) ∧ 0 ≤ fl (1 - fl (1 / 10)) ∧
    fl (1 - fl (1 / 10)) ≤ 9 / 10 + 1 / 2 ^ 50 := by
  have a1 := h.above (1 / 10) (by norm_num)
  have a2 := h.below (1 / 10) (by norm_num)
  have h3 := tiny
  have b1 : fl (1 / 10) ≤ 1 / 10 + 1 / 2 ^ 52 := by norm_num at a1 h3 ⊢; linarith
  have b2 : 1 / 10 - 1 / 2 ^ 52 ≤ fl (1 / 10) := by norm_num at a2 h3 ⊢; linarith
  have c0 : 0 ≤ 1 - fl (1 / 10) := by norm_num at b1 ⊢; linarith
  have c1 := h.above (1 - fl (1 / 10)) c0
  refine ⟨h.nonneg (by norm_num), ?_, ?_, h.nonneg c0, ?_⟩
  · norm_num at b1 ⊢; linarith
  · norm_num at b2 ⊢; linarith
  · norm_num at b2 c1 h3 ⊢; linarith

/-- A new value and an average that do not exceed a bound by more than a half. -/
theorem ewma_bound {fl : ℚ → ℚ} (h : Rounds fl) {new value G : ℚ} (hn : 0 ≤ new) (hv : 0 ≤ value) (_ : 0 ≤ G) (hG : G ≤ 2 ^ 32) (h1 : new ≤ G) (h2 : value ≤ G + 1 / 2) :
    0 ≤ ewma fl new value ∧ ewma fl new value ≤ G + 1 / 2 := by
  obtain ⟨w1, w2, _, w3, w4⟩ := h.weights
  unfold ewma
  have n0 := h.nonneg hn
  have n1 : fl new ≤ G + 1 / 2 ^ 19 := by
    have := h.near hn (by norm_num at hG ⊢; linarith)
    linarith
  have x0 : 0 ≤ fl (1 / 10) * fl new := mul_nonneg w1 n0
  have x1 : fl (1 / 10) * fl new ≤ (1 / 10 + 1 / 2 ^ 50) * (G + 1 / 2 ^ 19) := mul_le_mul w2 n1 n0 (by positivity)
  have x2 : (1 / 10 + 1 / 2 ^ 50) * (G + 1 / 2 ^ 19) ≤ G / 10 + 1 / 2 ^ 16 := by norm_num at hG ⊢; linarith
  have y0 : 0 ≤ fl (1 - fl (1 / 10)) * value := mul_nonneg w3 hv
  have y1 : fl (1 - fl (1 / 10)) * value ≤ (9 / 10 + 1 / 2 ^ 50) * (G + 1 / 2) := mul_le_mul w4 h2 hv (by positivity)
  have y2 : (9 / 10 + 1 / 2 ^ 50) * (G + 1 / 2) ≤ 9 / 10 * (G + 1 / 2) + 1 / 2 ^ 17 := by norm_num at hG ⊢; linarith
  have xx := h.near x0 (by norm_num at hG x1 x2 ⊢; linarith)
  have yy := h.near y0 (by norm_num at hG y1 y2 ⊢; linarith)
  have s0 : 0 ≤ fl (fl (1 / 10) * fl new) + fl (fl (1 - fl (1 / 10)) * value) := add_nonneg (h.nonneg x0) (h.nonneg y0)
  have ss := h.near s0 (by norm_num at hG xx yy x1 x2 y1 y2 ⊢; linarith)
  refine ⟨h.nonneg s0, ?_⟩
  norm_num at ss xx yy x1 x2 y1 y2 ⊢
  linarith

/-- An average that does not exceed a bound by more than a half is reported within the bound. -/
theorem intValue_bound {a : Average} {v : ℚ} {G : Nat} (ha : a.value = some v) (h0 : 0 ≤ v) (hG : G < 2 ^ 32) (h1 : v ≤ G + 1 / 2) : ∃ n, a.intValue = some n ∧ n ≤ G := by
  have hG' : (G : ℚ) ≤ 2 ^ 32 - 1 := by
    have : (G : ℚ) + 1 ≤ 2 ^ 32 := by exact_mod_cast hG
    linarith
  refine ⟨⌊v⌋.toNat, ?_, ?_⟩
  · unfold Average.intValue
    rw [ha]
    simp only
    rw [if_pos ⟨h0, by linarith⟩]
  · have : ⌊v⌋ < (G : Int) + 1 := by
      apply Int.floor_lt.2
      push_cast
      linarith
    omega

theorem packets_bound {fl : ℚ → ℚ} (h : Rounds fl) {G : Nat} (hG : G < 2 ^ 32) : ∀ (ps : List (Nat × Nat)) (p : Nat × Nat) (a : Average) (v : ℚ), a.value = some v → a.last = p.1 →
    0 ≤ v → v ≤ G + 1 / 2 → (p :: ps).IsChain (fun p q => p.1 ≤ q.1 ∧ packetGap p q ≤ G) →
    ∃ a' v', a.packets fl ps = some a' ∧ a'.value = some v' ∧ 0 ≤ v' ∧ v' ≤ G + 1 / 2 := by
  intro ps
  induction ps with
  | nil => intro p a v ha _ h0 h1 _; exact ⟨a, v, rfl, ha, h0, h1⟩
  | cons q ps ih =>
    intro p a v ha hl h0 h1 hc
    rw [List.isChain_cons_cons] at hc
    have hstep : a.addPacket fl q.1 (graceOf q.2) = some { value := some (ewma fl ((max 0 (packetGap p q) : Int) : ℚ) v), last := q.1 } := by
      unfold Average.addPacket
      rw [if_neg (by omega), ha, hl]
      rfl
    have hgap : ((max 0 (packetGap p q) : Int) : ℚ) ≤ G := by
      have : max 0 (packetGap p q) ≤ (G : Int) := by have := hc.1.2; omega
      exact_mod_cast this
    have hgap0 : (0 : ℚ) ≤ ((max 0 (packetGap p q) : Int) : ℚ) := by
      have : 0 ≤ max 0 (packetGap p q) := by omega
      exact_mod_cast this
    have hG2 : (G : ℚ) ≤ 2 ^ 32 := by exact_mod_cast Nat.le_of_lt hG
    obtain ⟨e0, e1⟩ := ewma_bound h hgap0 h0 (by positivity) hG2 hgap h1
    obtain ⟨a', v', r1, r2⟩ := ih q { value := some (ewma fl ((max 0 (packetGap p q) : Int) : ℚ) v), last := q.1 } _ rfl rfl e0 e1 hc.2
    exact ⟨a', v', by simp only [Average.packets, hstep, Option.bind_some, r1], r2⟩

/-- **C93.**  Packets whose times do not go backwards, and between which there is never more time than `G`, less what the sender waited, in any number, with any rounding: no assertion fails, the
average is a number that can be sent, and it is at most `G`. -/
theorem C93_delay_partial (fl : ℚ → ℚ) (h : Rounds fl) (G : Nat) (hG : G < 2 ^ 32) (p : Nat × Nat) (ps : List (Nat × Nat))
    (hc : (p :: ps).IsChain fun p q => p.1 ≤ q.1 ∧ packetGap p q ≤ G) :
    ∃ a n, ({} : Average).packets fl (p :: ps) = some a ∧ a.intValue = some n ∧ n ≤ G := by
  have hfirst : ({} : Average).addPacket fl p.1 (graceOf p.2) = some { value := some 0, last := p.1 } := by
    unfold Average.addPacket
    rw [if_neg (by simp)]
  obtain ⟨a, v, h1, h2, h3, h4⟩ := packets_bound h hG ps p { value := some 0, last := p.1 } 0 rfl rfl (le_refl _) (by positivity) hc
  obtain ⟨n, h5, h6⟩ := intValue_bound h2 h3 hG h4
  exact ⟨a, n, by simp only [Average.packets, hfirst, Option.bind_some, h1], h5, h6⟩

/-- **C93.**  The same with the rounding of IEEE 754, about which nothing is assumed: it is defined in `Spec/Double.lean`. -/
theorem C93_delay_double_partial (G : Nat) (hG : G < 2 ^ 32) (p : Nat × Nat) (ps : List (Nat × Nat)) (hc : (p :: ps).IsChain fun p q => p.1 ≤ q.1 ∧ packetGap p q ≤ G) :
    ∃ a n, ({} : Average).packets roundDouble (p :: ps) = some a ∧ a.intValue = some n ∧ n ≤ G := C93_delay_partial roundDouble Rounds.double G hG p ps hc

/-- The constant 0.1 is not a `double`: it becomes this number. -/
example : roundDouble (1 / 10) = 3602879701896397 / 2 ^ 55 := by
  have hl : Int.log 2 (1 / 10 : ℚ) = -4 := by
    apply le_antisymm
    · have := (Int.lt_zpow_iff_log_lt (b := 2) (by norm_num) (r := (1 / 10 : ℚ)) (x := -3) (by norm_num)).1 (by norm_num)
      omega
    · exact (Int.zpow_le_iff_le_log (b := 2) (by norm_num) (by norm_num)).1 (by norm_num)
  have hf : ⌊(1 / 10 : ℚ) / 2 ^ (-56 : Int)⌋ = 7205759403792793 := by
    rw [Int.floor_eq_iff]
    norm_num
  have hs : spacing (1 / 10) = -56 := by unfold spacing; rw [hl]; decide
  unfold roundDouble nearestEven
  rw [if_pos (by norm_num), hs, hf, if_neg (by norm_num), if_pos (by norm_num)]
  norm_num

/-- Three packets, 10 and 30 milliseconds apart, the second after a wait of 4. -/
example : ([(1000000, 0), (1010000, 4000), (1040000, 0)] : List (Nat × Nat)).IsChain (fun p q => p.1 ≤ q.1 ∧ packetGap p q ≤ (30000 : Nat)) := by
  simp [List.isChain_cons_cons, packetGap]

/-- With exact numbers, the average of these is 0.1 * 30000 + 0.9 * 600. -/
example : (({} : Average).packets id [(1000000, 0), (1010000, 4000), (1040000, 0)]).map (·.value) = some (some 3540) := by
  norm_num [Average.packets, Average.addPacket, ewma, graceOf]

/-- **C93.**  The first packet is acknowledged with the average 0, which is what a sender in the mode `conventional` divides by. -/
theorem C93_first_is_zero (fl : ℚ → ℚ) (p : Nat × Nat) : (({} : Average).packets fl [p]).bind Average.intValue = some 0 := by
  have hfirst : ({} : Average).addPacket fl p.1 (graceOf p.2) = some { value := some 0, last := p.1 } := by
    unfold Average.addPacket
    rw [if_neg (by simp)]
  simp [Average.packets, hfirst, Average.intValue]

/-- **The code violates the full statement.**  If the clock is set back between two packets, an assertion ends the receiver. -/
theorem C93_clock_set_back (fl : ℚ → ℚ) (p q : Nat × Nat) (h : q.1 < p.1) : ({} : Average).packets fl [p, q] = none := by
  simp [Average.packets, Average.addPacket, h]

example : (5 : Nat) < 6 := by decide

/-- **The code violates the full statement.**  After a silence of 2^37 microseconds, which is a day and a half, the average does not fit into the type as which it is sent. -/
theorem C93_long_silence (fl : ℚ → ℚ) (h : Rounds fl) (t u : Nat) (hu : u = t + 2 ^ 37) : (({} : Average).packets fl [(t, 0), (u, 0)]).bind Average.intValue = none := by
  have hfirst : ({} : Average).addPacket fl t (graceOf 0) = some { value := some 0, last := t } := by
    unfold Average.addPacket
    rw [if_neg (by simp)]
  have hsecond : ({ value := some 0, last := t } : Average).addPacket fl u (graceOf 0) = some { value := some (ewma fl (2 ^ 37) 0), last := u } := by
    unfold Average.addPacket
    have hg : max 0 ((u : Int) - t - graceOf 0) = 2 ^ 37 := by
      have : graceOf 0 = 0 := by decide
      rw [this]; omega
    have hlt : ¬ u < t := by omega
    rw [if_neg hlt]
    simp only [hg]
    norm_num
  simp only [Average.packets, hfirst, hsecond, Option.bind_some, Average.intValue]
  rw [if_neg]
  rintro ⟨_, hlt⟩
  obtain ⟨w1, _, w2, w3, _⟩ := h.weights
  unfold ewma at hlt
  have h3 := tiny
  have n1 : (2 : ℚ) ^ 36 ≤ fl (2 ^ 37) := by
    have := h.below (2 ^ 37) (by positivity)
    norm_num at this h3 ⊢
    linarith
  have x1 : (1 / 10 - 1 / 2 ^ 50) * 2 ^ 36 ≤ fl (1 / 10) * fl (2 ^ 37) := mul_le_mul w2 n1 (by positivity) w1
  have x2 : (2 : ℚ) ^ 32 + 2 ^ 30 ≤ fl (1 / 10) * fl (2 ^ 37) := by norm_num at x1 ⊢; linarith
  have x3 : (2 : ℚ) ^ 32 + 2 ^ 29 ≤ fl (fl (1 / 10) * fl (2 ^ 37)) := by
    have := h.mono _ _ x2
    have h4 := h.below (2 ^ 32 + 2 ^ 30) (by positivity)
    norm_num at this h4 h3 ⊢
    linarith
  have y0 : 0 ≤ fl (fl (1 - fl (1 / 10)) * 0) := by rw [mul_zero, h.zero]
  have s1 : (2 : ℚ) ^ 32 + 2 ^ 29 ≤ fl (fl (1 / 10) * fl (2 ^ 37)) + fl (fl (1 - fl (1 / 10)) * 0) := by linarith
  have := h.mono _ _ s1
  have h4 := h.below (2 ^ 32 + 2 ^ 29) (by positivity)
  norm_num at this h4 h3 hlt
  linarith

example : (1000000 + 137438953472 : Nat) = 1000000 + 2 ^ 37 := by norm_num

/-- **C93.**  Pictures that are encoded at times that do not go backwards: no assertion fails, and the average time for a picture, which does not count the longer ones, is at most a second. -/
theorem C93_encoding_time (fl : ℚ → ℚ) (h : Rounds fl) (t : Nat) (ts : List Nat) (hc : (t :: ts).IsChain (· ≤ ·)) :
    ∃ a n, ({} : Average).encodings fl (t :: ts) = some a ∧ a.intValue = some n ∧ n ≤ 1000000 := by
  have key : ∀ (ts : List Nat) (t : Nat) (a : Average) (v : ℚ), a.value = some v → a.last = t → 0 ≤ v → v ≤ (1000000 : Nat) + 1 / 2 → (t :: ts).IsChain (· ≤ ·) →
      ∃ a' v', a.encodings fl ts = some a' ∧ a'.value = some v' ∧ 0 ≤ v' ∧ v' ≤ (1000000 : Nat) + 1 / 2 := by
    intro ts
    induction ts with
    | nil => intro t a v ha _ h0 h1 _; exact ⟨a, v, rfl, ha, h0, h1⟩
    | cons u ts ih =>
      intro t a v ha hl h0 h1 hc
      rw [List.isChain_cons_cons] at hc
      obtain ⟨w, hw, w0, w1⟩ : ∃ w, a.addEncoding fl u = some { value := some w, last := u } ∧ 0 ≤ w ∧ w ≤ (1000000 : Nat) + 1 / 2 := by
        unfold Average.addEncoding
        rw [if_neg (by omega), ha]
        by_cases hu : u - a.last > 1000000
        · exact ⟨0, by simp only [if_pos hu], le_refl _, by positivity⟩
        · obtain ⟨e0, e1⟩ := ewma_bound h (new := ((u - a.last : Nat) : ℚ)) (value := v) (G := (1000000 : Nat)) (by positivity) h0 (by positivity) (by norm_num)
            (by exact_mod_cast Nat.le_of_not_lt hu) h1
          exact ⟨_, by simp only [if_neg hu], e0, e1⟩
      obtain ⟨a', v', r1, r2⟩ := ih u { value := some w, last := u } w rfl rfl w0 w1 hc.2
      exact ⟨a', v', by simp only [Average.encodings, hw, Option.bind_some, r1], r2⟩
  have hfirst : ({} : Average).addEncoding fl t = some { value := some 0, last := t } := by
    unfold Average.addEncoding
    rw [if_neg (by simp)]
  obtain ⟨a, v, h1, h2, h3, h4⟩ := key ts t { value := some 0, last := t } 0 rfl rfl (le_refl _) (by positivity) hc
  obtain ⟨n, h5, h6⟩ := intValue_bound h2 h3 (by norm_num) h4
  exact ⟨a, n, by simp only [Average.encodings, hfirst, Option.bind_some, h1], h5, h6⟩

/-- **C93.**  The same with the rounding of IEEE 754. -/
theorem C93_encoding_time_double (t : Nat) (ts : List Nat) (hc : (t :: ts).IsChain (· ≤ ·)) :
    ∃ a n, ({} : Average).encodings roundDouble (t :: ts) = some a ∧ a.intValue = some n ∧ n ≤ 1000000 := C93_encoding_time roundDouble Rounds.double t ts hc

example : ([1000000, 1040000, 3000000, 3050000] : List Nat).IsChain (· ≤ ·) := by simp [List.isChain_cons_cons]
example : (({} : Average).encodings id [1000000, 1040000, 3000000, 3050000]).map (·.value) = some (some 5000) := by
  norm_num [Average.encodings, Average.addEncoding, ewma]

end Alfalfa
