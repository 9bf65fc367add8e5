import Verif.Model.Choices
import Mathlib.Order.Lattice
import Mathlib.Data.Int.Order.Basic

/-! C44 probabilities, C45 and C46 quantizer searches, C65 loop-filter level. -/

namespace Alfalfa

/-! ### C44 -/

/-- **C44** (range): whatever the two counts, as long as their sum is an `unsigned int`, a probability comes out; it is at most 255 and
zero exactly when the `false` branch was never taken. -/
theorem C44_probability {f t : Nat} (h : f + t < 2 ^ 32) : ∃ p, countedProb f t = some p ∧ p ≤ 255 ∧ (p = 0 ↔ f = 0) := by
  unfold countedProb calcProb
  rw [Nat.mod_eq_of_lt h]
  by_cases hf : f = 0
  · exact ⟨0, by rw [if_pos hf], by omega, by omega⟩
  · refine ⟨max 1 (min 255 (256 * f % 2 ^ 32 / (f + t))), by rw [if_neg hf, if_neg (by omega)], by omega, by omega⟩

/-- **C44** (value): below 2^24 it is the share of the `false` branch in 256ths, kept within 1..255. -/
theorem C44_value {f t : Nat} (hf : f < 2 ^ 24) (h : f + t < 2 ^ 32) (h0 : f ≠ 0) :
    countedProb f t = some (max 1 (min 255 (256 * f / (f + t)))) := by
  unfold countedProb calcProb
  rw [Nat.mod_eq_of_lt h, if_neg h0, if_neg (by omega), Nat.mod_eq_of_lt (by omega)]

/-- From 2^24 on it is not: the branch that was always taken gets the least probability. -/
theorem C44_large_counts : countedProb (2 ^ 24) 0 = some 1 := by decide +kernel

/-- Counters whose sum does not fit make the program divide by zero. -/
theorem C44_counter_overflow : countedProb (2 ^ 31) (2 ^ 31) = none := by decide +kernel

example : countedProb 3 5 = some 96 := by decide +kernel

theorem optimizeTables_at {u v : TokenProbUpdate} {t : CoeffProbs} {n : BranchCounts} (h : optimizeTables u t n = some v) (i j k l) :
    optimizeEntry (u i j k l) (t i j k l) (n i j k l) = some (v i j k l) := by
  unfold optimizeTables at h
  split at h
  · cases h; exact (Option.some_get _).symm
  · exact nomatch h

/-- **C44** (totality): no assertion fails and nothing is divided by zero. -/
theorem C44_total (u : TokenProbUpdate) (t : CoeffProbs) {n : BranchCounts} (h : ∀ i j k l, (n i j k l).1 + (n i j k l).2 < 2 ^ 32) :
    ∃ v, optimizeTables u t n = some v := by
  have : ∀ i j k l, (optimizeEntry (u i j k l) (t i j k l) (n i j k l)).isSome = true := by
    intro i j k l
    obtain ⟨p, e, hp, -⟩ := C44_probability (h i j k l)
    unfold optimizeEntry
    rw [e, Option.bind_eq_bind, Option.bind_some, if_neg (by omega)]
    split <;> rfl
  exact ⟨_, dif_pos this⟩

/-- **C44** (the update does what it is for): after the decoder has applied the header, an entry for which an update was called for holds
the estimated probability, and every entry holds it if the header had no updates before. -/
theorem C44_table {u v : TokenProbUpdate} {t : ProbabilityTables} {n : BranchCounts} (h : optimizeTables u t.coeffProbs n = some v) (i j k l) :
    ∃ p, countedProb (n i j k l).1 (n i j k l).2 = some p ∧
      (p ≠ 0 → p ≠ (t.coeffProbs i j k l).toNat → ((t.coeffProbUpdate v).coeffProbs i j k l).toNat = p) ∧
      (u i j k l = none → ((t.coeffProbUpdate v).coeffProbs i j k l).toNat = if p = 0 then (t.coeffProbs i j k l).toNat else p) := by
  have he := optimizeTables_at h i j k l
  unfold optimizeEntry at he
  cases hc : countedProb (n i j k l).1 (n i j k l).2 with
  | none => rw [hc] at he; exact nomatch he
  | some p =>
    rw [hc, Option.bind_eq_bind, Option.bind_some] at he
    refine ⟨p, rfl, ?_⟩
    by_cases h1 : p > 255
    · rw [if_pos h1] at he; exact nomatch he
    rw [if_neg h1] at he
    by_cases h2 : p > 0 ∧ p ≠ (t.coeffProbs i j k l).toNat
    · rw [if_pos h2] at he
      have hv : v i j k l = some p := (Option.some.inj he).symm
      have e : ((t.coeffProbUpdate v).coeffProbs i j k l).toNat = p := by
        show (match v i j k l with | some p => UInt8.ofNat p | none => t.coeffProbs i j k l).toNat = p
        rw [hv]
        show p % 256 = p
        omega
      exact ⟨fun _ _ => e, fun _ => by rw [e, if_neg (by omega)]⟩
    · rw [if_neg h2] at he
      have hv : v i j k l = u i j k l := (Option.some.inj he).symm
      refine ⟨fun a b => absurd ⟨by omega, b⟩ h2, fun hu => ?_⟩
      show (match v i j k l with | some p => UInt8.ofNat p | none => t.coeffProbs i j k l).toNat = _
      rw [hv, hu]
      show (t.coeffProbs i j k l).toNat = _
      by_cases hp : p = 0
      · rw [if_pos hp]
      · rw [if_neg hp]
        exact Decidable.byContradiction fun hn => h2 ⟨by omega, fun e => hn e.symm⟩

/-- An update left in the header by an earlier picture is sent again when the estimate agrees with the table, and replaces it. -/
theorem C44_stale_update_wins : ∃ (u v : TokenProbUpdate) (t : ProbabilityTables) (n : BranchCounts),
    optimizeTables u t.coeffProbs n = some v ∧ countedProb (n 0 0 0 0).1 (n 0 0 0 0).2 = some (t.coeffProbs 0 0 0 0).toNat ∧
      (t.coeffProbUpdate v).coeffProbs 0 0 0 0 ≠ t.coeffProbs 0 0 0 0 := by
  let t : ProbabilityTables := { ({} : ProbabilityTables) with coeffProbs := fun _ _ _ _ => 128 }
  have h : ∀ i j k l, optimizeEntry (some 77) (t.coeffProbs i j k l) ((1, 1) : Nat × Nat) = some (some 77) := by
    intro i j k l
    show optimizeEntry (some 77) 128 (1, 1) = some (some 77)
    decide +kernel
  obtain ⟨v, hv⟩ := C44_total (fun _ _ _ _ => some 77) t.coeffProbs (n := fun _ _ _ _ => (1, 1)) (fun _ _ _ _ => by omega)
  have hv0 : v 0 0 0 0 = some 77 := Option.some.inj ((optimizeTables_at hv 0 0 0 0).symm.trans (h 0 0 0 0))
  refine ⟨_, v, t, _, hv, ?_, ?_⟩
  · show countedProb 1 1 = some (128 : UInt8).toNat
    decide +kernel
  · show (match v 0 0 0 0 with | some p => UInt8.ofNat p | none => 128) ≠ 128
    rw [hv0]
    decide

/-- **C44** (skip flags): the probability is that share of macroblocks with coefficients, and zero only if there is none. -/
theorem C44_skip {r : List Residue} (h0 : r ≠ []) (h : r.length < 2 ^ 24) : ∃ p, optimizeSkip r = some p ∧ p ≤ 255 ∧
    (p = 0 ↔ ∀ x ∈ r, x.nonzero = false) ∧
    (p ≠ 0 → p = max 1 (min 255 (256 * (r.filter (·.nonzero)).length / r.length))) := by
  have hl : (r.filter (·.nonzero)).length ≤ r.length := List.length_filter_le _ _
  have h1 : 0 < r.length := List.length_pos_iff.mpr h0
  have hz : (r.filter (·.nonzero)).length = 0 ↔ ∀ x ∈ r, x.nonzero = false := by
    rw [List.length_eq_zero_iff, List.filter_eq_nil_iff]
    exact ⟨fun h x hx => by have := h x hx; revert this; cases x.nonzero <;> simp, fun h x hx => by rw [h x hx]; decide⟩
  unfold optimizeSkip calcProb
  rw [Nat.mod_eq_of_lt (show r.length < 2 ^ 32 by omega), Nat.mod_eq_of_lt (show (r.filter (·.nonzero)).length < 2 ^ 32 by omega), ← hz]
  by_cases hc : (r.filter (·.nonzero)).length = 0
  · exact ⟨0, by rw [if_pos hc], by omega, by omega, by omega⟩
  · refine ⟨_, by rw [if_neg hc, if_neg (by omega)], by omega, by omega, fun _ => ?_⟩
    rw [Nat.mod_eq_of_lt (show 256 * (r.filter (·.nonzero)).length < 2 ^ 32 by omega)]

/-- **C44** (references): the three probabilities stay in 0..255. -/
theorem C44_references {old : Nat × Nat × Nat} (ho : old.1 < 256 ∧ old.2.1 < 256 ∧ old.2.2 < 256) {l : List (Fin 4)} (h : l.length < 2 ^ 32) :
    ∃ p, optimizeReferences old l = some p ∧ p.1 < 256 ∧ p.2.1 < 256 ∧ p.2.2 < 256 := by
  have c0 := List.count_le_length (a := (0 : Fin 4)) (l := l)
  have hc : l.count 1 + l.count 2 + l.count 3 + l.count 0 = l.length := by
    clear h c0
    induction l with
    | nil => rfl
    | cons a l ih =>
      rw [List.count_cons, List.count_cons, List.count_cons, List.count_cons, List.length_cons]
      have : a = 0 ∨ a = 1 ∨ a = 2 ∨ a = 3 := by revert a; decide
      rcases this with rfl | rfl | rfl | rfl <;> simp <;> omega
  obtain ⟨a, ea, -, -⟩ := C44_probability (f := l.count 0) (t := l.length - l.count 0) (by omega)
  obtain ⟨b, eb, -, -⟩ := C44_probability (f := l.count 1) (t := l.count 2 + l.count 3) (by omega)
  obtain ⟨c, ec, -, -⟩ := C44_probability (f := l.count 2) (t := l.count 3) (by omega)
  refine ⟨_, by unfold optimizeReferences; simp only [ea, eb, ec, Option.bind_eq_bind, Option.bind_some]; rfl, ?_, ?_, ?_⟩
  · show (if _ then _ else _) < 256; split <;> [exact Nat.mod_lt _ (by decide); omega]
  · show (if _ then _ else _) < 256; split <;> [exact Nat.mod_lt _ (by decide); omega]
  · show (if _ then _ else _) < 256; split <;> [exact Nat.mod_lt _ (by decide); omega]

example : optimizeReferences (1, 2, 3) [1, 1, 0, 1] = some (64, 255, 3) := by decide +kernel

/-! ### C45 -/

/-- What `C45` says of a search in the window `lo .. hi`: the result `r` is one of the indices tried, all of which are in the window, and
its estimated size is within the target unless that of none of them is. -/
structure Tested (estimate : Nat → Nat) (target : Nat) (lo hi : Int) (r : Nat) (tried : List Nat) : Prop where
  window : ∀ q ∈ tried, lo ≤ (q : Int) ∧ (q : Int) ≤ hi
  result : r ∈ tried
  fits : estimate r ≤ target ∨ ∀ q ∈ tried, target < estimate q

theorem targetLoop_eq (estimate : Nat → Nat) (target : Nat) (lo hi : Int) (best : Nat) :
    targetLoop estimate target lo hi best =
      if lo ≤ hi ∧ 0 ≤ lo then
        if estimate ((lo + hi) / 2).toNat ≤ target ∨ (lo = hi ∧ best = 255) then
          ((targetLoop estimate target lo ((((lo + hi) / 2).toNat : Int) - 1) ((lo + hi) / 2).toNat).1,
            ((lo + hi) / 2).toNat :: (targetLoop estimate target lo ((((lo + hi) / 2).toNat : Int) - 1) ((lo + hi) / 2).toNat).2)
        else
          ((targetLoop estimate target ((((lo + hi) / 2).toNat : Int) + 1) hi best).1,
            ((lo + hi) / 2).toNat :: (targetLoop estimate target ((((lo + hi) / 2).toNat : Int) + 1) hi best).2)
      else (best, []) := by
  rw [targetLoop]
  rfl

/-- The search from a state in which `best` has been found already. -/
theorem targetLoop_found (estimate : Nat → Nat) (target : Nat) (lo hi : Int) (h0 : 0 ≤ lo) (h127 : hi ≤ 127) (best : Nat) (hb : best ≠ 255)
    (hfit : estimate best ≤ target) :
    (∀ q ∈ (targetLoop estimate target lo hi best).2, lo ≤ (q : Int) ∧ (q : Int) ≤ hi) ∧
    ((targetLoop estimate target lo hi best).1 = best ∨ (targetLoop estimate target lo hi best).1 ∈ (targetLoop estimate target lo hi best).2) ∧
    estimate (targetLoop estimate target lo hi best).1 ≤ target := by
  rw [targetLoop_eq]
  by_cases h : lo ≤ hi ∧ 0 ≤ lo
  · rw [if_pos h]
    have hm : ((((lo + hi) / 2).toNat : Int)) = (lo + hi) / 2 := Int.toNat_of_nonneg (by omega)
    split
    · next hc =>
      have hc : estimate ((lo + hi) / 2).toNat ≤ target := hc.resolve_right fun h => hb h.2
      obtain ⟨a, b, c⟩ := targetLoop_found estimate target lo ((((lo + hi) / 2).toNat : Int) - 1) h0 (by omega) ((lo + hi) / 2).toNat (by omega) hc
      refine ⟨fun q hq => ?_, Or.inr ?_, c⟩
      · rcases List.mem_cons.mp hq with rfl | hq
        · omega
        · have := a q hq; omega
      · rcases b with b | b
        · rw [b]; exact List.mem_cons_self
        · exact List.mem_cons_of_mem _ b
    · obtain ⟨a, b, c⟩ := targetLoop_found estimate target ((((lo + hi) / 2).toNat : Int) + 1) hi (by omega) h127 best hb hfit
      refine ⟨fun q hq => ?_, b.imp_right (List.mem_cons_of_mem _), c⟩
      rcases List.mem_cons.mp hq with rfl | hq
      · omega
      · have := a q hq; omega
  · rw [if_neg h]
    exact ⟨fun q hq => (nomatch hq), Or.inl rfl, hfit⟩
termination_by (hi - lo + 1).toNat
decreasing_by all_goals omega

theorem targetLoop_tested (estimate : Nat → Nat) (target : Nat) (lo hi : Int) (h0 : 0 ≤ lo) (hw : lo ≤ hi) (h127 : hi ≤ 127) :
    Tested estimate target lo hi (targetLoop estimate target lo hi 255).1 (targetLoop estimate target lo hi 255).2 := by
  rw [targetLoop_eq, if_pos ⟨hw, h0⟩]
  have hm : ((((lo + hi) / 2).toNat : Int)) = (lo + hi) / 2 := Int.toNat_of_nonneg (by omega)
  by_cases hfit : estimate ((lo + hi) / 2).toNat ≤ target
  · rw [if_pos (Or.inl hfit)]
    obtain ⟨a, b, c⟩ := targetLoop_found estimate target lo ((((lo + hi) / 2).toNat : Int) - 1) h0 (by omega) ((lo + hi) / 2).toNat (by omega) hfit
    refine ⟨fun q hq => ?_, ?_, Or.inl c⟩
    · rcases List.mem_cons.mp hq with rfl | hq
      · omega
      · have := a q hq; omega
    · rcases b with b | b
      · rw [b]; exact List.mem_cons_self
      · exact List.mem_cons_of_mem _ b
  · by_cases heq : lo = hi
    · rw [if_pos (Or.inr ⟨heq, rfl⟩)]
      have hend : targetLoop estimate target lo ((((lo + hi) / 2).toNat : Int) - 1) ((lo + hi) / 2).toNat = (((lo + hi) / 2).toNat, []) := by
        rw [targetLoop_eq, if_neg (by omega)]
      rw [hend]
      refine ⟨fun q hq => ?_, List.mem_cons_self, Or.inr fun q hq => ?_⟩
      · rcases List.mem_cons.mp hq with rfl | hq
        · omega
        · exact nomatch hq
      · rcases List.mem_cons.mp hq with rfl | hq
        · omega
        · exact nomatch hq
    · rw [if_neg (fun h => h.elim hfit fun h => heq h.1)]
      obtain ⟨a, b, c⟩ := targetLoop_tested estimate target ((((lo + hi) / 2).toNat : Int) + 1) hi (by omega) (by omega) h127
      refine ⟨fun q hq => ?_, List.mem_cons_of_mem _ b, c.imp_right fun c q hq => ?_⟩
      · rcases List.mem_cons.mp hq with rfl | hq
        · omega
        · have := a q hq; omega
      · rcases List.mem_cons.mp hq with rfl | hq
        · omega
        · exact c q hq
termination_by (hi - lo + 1).toNat
decreasing_by all_goals omega

/-- The window for each possible index of the frame before. -/
theorem searchWindow_ok {last : Option Nat} (h : ∀ l, last = some l → l ≤ 143) :
    4 ≤ (searchWindow last).1 ∧ (searchWindow last).1 ≤ (searchWindow last).2 ∧ (searchWindow last).2 ≤ 127 := by
  cases last with
  | none => decide
  | some l =>
    have := h l rfl
    show 4 ≤ (if (l : Int) - 16 ≥ 4 then (l : Int) - 16 else 4) ∧ (if (l : Int) - 16 ≥ 4 then (l : Int) - 16 else 4) ≤ min 127 ((l : Int) + 16) ∧
      min 127 ((l : Int) + 16) ≤ 127
    split <;> omega

/-- **C45**: for every function that estimates sizes, every target and every quantizer index of the frame before, the index returned is one
of those tried, all of which are in the search window and thus legal, and its estimate is within the target unless that of none of the
indices tried is. -/
theorem C45_tested (estimate : Nat → Nat) (target : Nat) {last : Option Nat} (h : ∀ l, last = some l → l ≤ 127) :
    Tested estimate target (searchWindow last).1 (searchWindow last).2 (targetQuantizer estimate target last).1 (targetQuantizer estimate target last).2 ∧
      4 ≤ (targetQuantizer estimate target last).1 ∧ (targetQuantizer estimate target last).1 ≤ 127 := by
  obtain ⟨h1, h2, h3⟩ := searchWindow_ok fun l hl => Nat.le_trans (h l hl) (by decide)
  have ht := targetLoop_tested estimate target _ _ (Int.le_trans (by decide) h1) h2 h3
  refine ⟨ht, ?_⟩
  have := ht.window _ ht.result
  show 4 ≤ (targetLoop estimate target _ _ 255).1 ∧ (targetLoop estimate target _ _ 255).1 ≤ 127
  omega

/-- **C45** (the window): without a frame before all legal indices from 4 on, otherwise those at most 16 away from its index. -/
theorem C45_window (last : Option Nat) (h : ∀ l, last = some l → l ≤ 127) (q : Nat) :
    ((searchWindow last).1 ≤ (q : Int) ∧ (q : Int) ≤ (searchWindow last).2) ↔
      4 ≤ q ∧ q ≤ 127 ∧ ∀ l, last = some l → l ≤ q + 16 ∧ q ≤ l + 16 := by
  cases last with
  | none =>
    show (4 : Int) ≤ q ∧ (q : Int) ≤ 127 ↔ _
    exact ⟨fun h => ⟨by omega, by omega, fun _ h => (nomatch h)⟩, fun h => by omega⟩
  | some l =>
    have := h l rfl
    have : (∀ l', some l = some l' → l' ≤ q + 16 ∧ q ≤ l' + 16) ↔ l ≤ q + 16 ∧ q ≤ l + 16 :=
      ⟨fun h => h l rfl, fun h l' e => by cases e; exact h⟩
    rw [this]
    show ((if (l : Int) - 16 ≥ 4 then (l : Int) - 16 else 4) ≤ (q : Int) ∧ (q : Int) ≤ min 127 ((l : Int) + 16)) ↔ _
    split <;> omega

theorem targetLoop_least (estimate : Nat → Nat) (target : Nat) (lo hi : Int) (h0 : 0 ≤ lo) (h127 : hi ≤ 127) (best : Nat)
    (hmono : ∀ a b : Nat, lo ≤ (a : Int) → a ≤ b → (b : Int) ≤ hi → estimate b ≤ estimate a) (hb : best ≠ 255) (hbh : (best : Int) = hi + 1)
    (hfit : estimate best ≤ target) :
    ∀ q : Nat, lo ≤ (q : Int) → q < (targetLoop estimate target lo hi best).1 → target < estimate q := by
  rw [targetLoop_eq]
  by_cases h : lo ≤ hi ∧ 0 ≤ lo
  · rw [if_pos h]
    have hm : ((((lo + hi) / 2).toNat : Int)) = (lo + hi) / 2 := Int.toNat_of_nonneg (by omega)
    split
    · next hc =>
      have hc : estimate ((lo + hi) / 2).toNat ≤ target := hc.resolve_right fun h => hb h.2
      exact targetLoop_least estimate target lo ((((lo + hi) / 2).toNat : Int) - 1) h0 (by omega) ((lo + hi) / 2).toNat
        (fun a b h1 h2 h3 => hmono a b h1 h2 (by omega)) (by omega) (by omega) hc
    · next hc =>
      have ih := targetLoop_least estimate target ((((lo + hi) / 2).toNat : Int) + 1) hi (by omega) h127 best
        (fun a b h1 h2 h3 => hmono a b (by omega) h2 h3) hb hbh hfit
      intro q hq hlt
      by_cases hqm : q ≤ ((lo + hi) / 2).toNat
      · have := hmono q ((lo + hi) / 2).toNat hq hqm (by omega)
        have : ¬ estimate ((lo + hi) / 2).toNat ≤ target := fun h => hc (Or.inl h)
        omega
      · exact ih q (by omega) hlt
  · rw [if_neg h]
    intro q hq hlt
    have : q < best := hlt
    omega
termination_by (hi - lo + 1).toNat
decreasing_by all_goals omega

theorem targetLoop_first (estimate : Nat → Nat) (target : Nat) (lo hi : Int) (h0 : 0 ≤ lo) (hw : lo ≤ hi) (h127 : hi ≤ 127)
    (hmono : ∀ a b : Nat, lo ≤ (a : Int) → a ≤ b → (b : Int) ≤ hi → estimate b ≤ estimate a) :
    (∀ q : Nat, lo ≤ (q : Int) → q < (targetLoop estimate target lo hi 255).1 → target < estimate q) ∧
      (target < estimate (targetLoop estimate target lo hi 255).1 → ((targetLoop estimate target lo hi 255).1 : Int) = hi) := by
  rw [targetLoop_eq, if_pos ⟨hw, h0⟩]
  have hm : ((((lo + hi) / 2).toNat : Int)) = (lo + hi) / 2 := Int.toNat_of_nonneg (by omega)
  by_cases hfit : estimate ((lo + hi) / 2).toNat ≤ target
  · rw [if_pos (Or.inl hfit)]
    refine ⟨targetLoop_least estimate target lo ((((lo + hi) / 2).toNat : Int) - 1) h0 (by omega) ((lo + hi) / 2).toNat
        (fun a b h1 h2 h3 => hmono a b h1 h2 (by omega)) (by omega) (by omega) hfit, fun hn => absurd hn (Nat.not_lt.mpr ?_)⟩
    exact (targetLoop_found estimate target lo ((((lo + hi) / 2).toNat : Int) - 1) h0 (by omega) ((lo + hi) / 2).toNat (by omega) hfit).2.2
  · by_cases heq : lo = hi
    · rw [if_pos (Or.inr ⟨heq, rfl⟩)]
      have hend : targetLoop estimate target lo ((((lo + hi) / 2).toNat : Int) - 1) ((lo + hi) / 2).toNat = (((lo + hi) / 2).toNat, []) := by
        rw [targetLoop_eq, if_neg (by omega)]
      rw [hend]
      refine ⟨fun q h1 h2 => ?_, fun _ => by dsimp only; omega⟩
      have : q < ((lo + hi) / 2).toNat := h2
      omega
    · rw [if_neg (fun h => h.elim hfit fun h => heq h.1)]
      obtain ⟨a, b⟩ := targetLoop_first estimate target ((((lo + hi) / 2).toNat : Int) + 1) hi (by omega) (by omega) h127
        (fun a b h1 h2 h3 => hmono a b (by omega) h2 h3)
      refine ⟨fun q hq hlt => ?_, b⟩
      by_cases hqm : q ≤ ((lo + hi) / 2).toNat
      · have := hmono q ((lo + hi) / 2).toNat hq hqm (by omega)
        omega
      · exact a q (by omega) hlt
termination_by (hi - lo + 1).toNat
decreasing_by all_goals omega

/-- **C45** (monotone estimates): if a coarser quantizer is never estimated to take more room, the result is the finest quantizer in the
window that fits, or the coarsest in the window if none fits. -/
theorem C45_best_quality {estimate : Nat → Nat} (hmono : ∀ a b, a ≤ b → estimate b ≤ estimate a) (target : Nat) {last : Option Nat}
    (h : ∀ l, last = some l → l ≤ 127) :
    (∀ q : Nat, (searchWindow last).1 ≤ (q : Int) → q < (targetQuantizer estimate target last).1 → target < estimate q) ∧
      (target < estimate (targetQuantizer estimate target last).1 → ((targetQuantizer estimate target last).1 : Int) = (searchWindow last).2) := by
  obtain ⟨h1, h2, h3⟩ := searchWindow_ok fun l hl => Nat.le_trans (h l hl) (by decide)
  exact targetLoop_first estimate target _ _ (Int.le_trans (by decide) h1) h2 h3 fun a b _ h _ => hmono a b h

/-- An index of 144 or more for the frame before (`encode_with_quantizer` takes any byte) leaves an empty window, and 255 is returned. -/
theorem C45_empty_window (estimate : Nat → Nat) (target : Nat) {l : Nat} (h : 144 ≤ l) : targetQuantizer estimate target (some l) = (255, []) := by
  show targetLoop estimate target (if (l : Int) - 16 ≥ 4 then (l : Int) - 16 else 4) (min 127 ((l : Int) + 16)) 255 = (255, [])
  have e : (if (l : Int) - 16 ≥ 4 then (l : Int) - 16 else 4) = (l : Int) - 16 := if_pos (by omega)
  rw [e, targetLoop_eq, if_neg (by omega)]

/-- An estimate that falls with the index: 600 / q, and a target of 20 after a frame with index 20. -/
example : (targetQuantizer (fun q => 600 / q) 20 (some 20)).1 = 29 := by decide +kernel

/-! ### C46 -/

theorem qualityLoop_eq {S : Type} [LinearOrder S] (ssim : Nat → S) (minimum : S) (lo hi : Int) (found : Bool) (best : Nat) :
    qualityLoop ssim minimum lo hi found best =
      if lo ≤ hi ∧ 0 ≤ lo then
        if lo = hi then (if minimum ≤ ssim ((lo + hi) / 2).toNat ∨ found = false then ((lo + hi) / 2).toNat else best)
        else if ssim ((lo + hi) / 2).toNat < minimum then qualityLoop ssim minimum lo ((((lo + hi) / 2).toNat : Int) - 1) found best
        else qualityLoop ssim minimum ((((lo + hi) / 2).toNat : Int) + 1) hi true ((lo + hi) / 2).toNat
      else best := by
  rw [qualityLoop]
  split
  · next h =>
    dsimp only
    by_cases heq : lo = hi
    · simp only [heq, if_true, decide_true, Bool.true_and, Bool.or_eq_true, decide_eq_true_eq, Bool.not_eq_true']
    · rw [if_neg heq, if_neg heq]
      by_cases hlt : ssim ((lo + hi) / 2).toNat < minimum
      · rw [if_pos hlt, if_pos hlt]
        have : ¬ minimum ≤ ssim ((lo + hi) / 2).toNat := not_le.mpr hlt
        simp only [heq, this, decide_false, Bool.false_and, Bool.or_false, Bool.false_eq_true, if_false]
      · rw [if_neg hlt, if_neg hlt]
        have : minimum ≤ ssim ((lo + hi) / 2).toNat := not_lt.mp hlt
        simp only [this, decide_true, Bool.true_or, Bool.or_true, if_true]
  · rfl

/-- The search with a quality function that is measured: if quality does not rise with the index, it finds the coarsest quantizer that reaches
the minimum, or index `lo` if none does. -/
theorem qualityLoop_best {S : Type} [LinearOrder S] (ssim : Nat → S) (minimum : S) (lo hi : Int) (h0 : 0 ≤ lo) (found : Bool) (best : Nat)
    (hmono : ∀ a b : Nat, lo ≤ (a : Int) → a ≤ b → (b : Int) ≤ hi → ssim b ≤ ssim a)
    (hf : found = true → minimum ≤ ssim best ∧ (best : Int) < lo) (hnf : found = false → (best : Int) = lo) :
    (∀ q : Nat, lo ≤ (q : Int) → (q : Int) ≤ hi → qualityLoop ssim minimum lo hi found best < q → ssim q < minimum) ∧
      (qualityLoop ssim minimum lo hi found best = best ∨
        lo ≤ (qualityLoop ssim minimum lo hi found best : Int) ∧ (qualityLoop ssim minimum lo hi found best : Int) ≤ hi) ∧
      (minimum ≤ ssim (qualityLoop ssim minimum lo hi found best) ∨
        found = false ∧ (qualityLoop ssim minimum lo hi found best : Int) = lo) := by
  rw [qualityLoop_eq]
  by_cases h : lo ≤ hi ∧ 0 ≤ lo
  · rw [if_pos h]
    have hm : ((((lo + hi) / 2).toNat : Int)) = (lo + hi) / 2 := Int.toNat_of_nonneg (by omega)
    by_cases heq : lo = hi
    · rw [if_pos heq]
      split
      · next hc =>
        refine ⟨fun q h1 h2 h3 => absurd h3 (by omega), Or.inr (by omega), hc.imp_right fun hc => ⟨hc, by omega⟩⟩
      · next hc =>
        have hft : found = true := by
          cases hfd : found with
          | true => rfl
          | false => exact absurd (Or.inr hfd) hc
        have hc : ¬ minimum ≤ ssim ((lo + hi) / 2).toNat := fun h => hc (Or.inl h)
        refine ⟨fun q h1 h2 h3 => ?_, Or.inl rfl, Or.inl (hf hft).1⟩
        have : q = ((lo + hi) / 2).toNat := by omega
        rw [this]
        exact not_le.mp hc
    · rw [if_neg heq]
      split
      · next hlt =>
        obtain ⟨a, b, c⟩ := qualityLoop_best ssim minimum lo ((((lo + hi) / 2).toNat : Int) - 1) h0 found best
          (fun a b h1 h2 h3 => hmono a b h1 h2 (by omega)) hf hnf
        refine ⟨fun q h1 h2 h3 => ?_, b.imp_right fun b => ⟨b.1, by omega⟩, c⟩
        by_cases hq : (q : Int) ≤ (((lo + hi) / 2).toNat : Int) - 1
        · exact a q h1 hq h3
        · exact lt_of_le_of_lt (hmono ((lo + hi) / 2).toNat q (by omega) (by omega) h2) hlt
      · next hlt =>
        have hge : minimum ≤ ssim ((lo + hi) / 2).toNat := not_lt.mp hlt
        obtain ⟨a, b, c⟩ := qualityLoop_best ssim minimum ((((lo + hi) / 2).toNat : Int) + 1) hi (by omega) true ((lo + hi) / 2).toNat
          (fun a b h1 h2 h3 => hmono a b (by omega) h2 h3) (fun _ => ⟨hge, by omega⟩) (fun h => nomatch h)
        refine ⟨fun q h1 h2 h3 => ?_, ?_, c.imp_right fun c => nomatch c.1⟩
        · by_cases hq : (((lo + hi) / 2).toNat : Int) + 1 ≤ q
          · exact a q hq h2 h3
          · exfalso
            rcases b with b | b <;> omega
        · rcases b with b | b <;> omega
  · rw [if_neg h]
    refine ⟨fun q h1 h2 _ => by omega, Or.inl rfl, ?_⟩
    cases hfd : found with
    | true => exact Or.inl (hf hfd).1
    | false => exact Or.inr ⟨rfl, hnf hfd⟩
termination_by (hi - lo + 1).toNat
decreasing_by all_goals omega

/-- **C46**, the search by itself: were the quality measured, and did it not rise with the index, the result would be the coarsest legal index
that reaches the minimum, or 0 if none does. -/
theorem C46_search {S : Type} [LinearOrder S] {quality : Nat → S} (hmono : ∀ a b, a ≤ b → b ≤ 127 → quality b ≤ quality a) (minimum : S) :
    qualityLoop quality minimum 0 127 false 0 ≤ 127 ∧ (∀ q ≤ 127, qualityLoop quality minimum 0 127 false 0 < q → quality q < minimum) ∧
      (minimum ≤ quality (qualityLoop quality minimum 0 127 false 0) ∨ qualityLoop quality minimum 0 127 false 0 = 0) := by
  obtain ⟨a, b, c⟩ := qualityLoop_best quality minimum 0 127 (by decide) false 0 (fun a b _ h h' => hmono a b h (by omega)) (fun h => nomatch h)
    (fun _ => rfl)
  refine ⟨by rcases b with b | b <;> omega, fun q hq hlt => a q (by omega) (by omega) hlt, c.imp_right fun c => by omega⟩

theorem unmeasured {S : Type} (zero : S) (quality : Nat → S) (q : Nat) : encodeRasterQuality zero quality false q = zero := rfl

/-- The program does not measure it: every index counts as having quality zero. -/
theorem C46_ignores_quality {S : Type} [LinearOrder S] (zero : S) (quality : Nat → S) (minimum : S) :
    minimumQualityQuantizer zero quality minimum = if minimum ≤ zero then 127 else 0 := by
  obtain ⟨h1, h2, h3⟩ := C46_search (quality := encodeRasterQuality zero quality false) (fun _ _ _ _ => le_refl _) minimum
  show qualityLoop (encodeRasterQuality zero quality false) minimum 0 127 false 0 = _
  by_cases h : minimum ≤ zero
  · rw [if_pos h]
    by_contra hne
    exact absurd h (not_le.mpr (h2 127 (le_refl _) (by omega)))
  · rw [if_neg h]
    exact h3.resolve_left h

/-- So the full claim of C46 is false: here index 64 reaches the minimum, and index 0 is used. -/
theorem C46_not_coarsest : ∃ (quality : Nat → Int) (minimum : Int), (∀ a b, a ≤ b → quality b ≤ quality a) ∧
    minimum ≤ quality 64 ∧ minimumQualityQuantizer 0 quality minimum = 0 := by
  refine ⟨fun q => 1000 - q, 900, fun a b h => by dsimp only; omega, by decide, ?_⟩
  rw [C46_ignores_quality]
  rfl

/-- **C46** (partial): the index used is legal and reaches the minimum whenever index 0 does and the quality, which is not negative, does not
rise with the index.  Missing: that it is the coarsest index that does, which is false (`C46_not_coarsest`). -/
theorem C46_reaches_minimum_partial {S : Type} [LinearOrder S] {zero : S} {quality : Nat → S} (h0 : ∀ q, zero ≤ quality q)
    (minimum : S) (h : minimum ≤ quality 0) :
    minimumQualityQuantizer zero quality minimum ≤ 127 ∧ minimum ≤ quality (minimumQualityQuantizer zero quality minimum) := by
  rw [C46_ignores_quality]
  split
  · next hz => exact ⟨le_refl _, le_trans hz (h0 _)⟩
  · exact ⟨by omega, h⟩

example : minimumQualityQuantizer (0 : Int) (fun q => 1000 - q) 900 = 0 := by decide +kernel
example : qualityLoop (fun q => 1000 - (q : Int)) 900 0 127 false 0 = 100 := by decide +kernel

/-! ### C65 -/

theorem levelLoop_climb {S : Type} [LinearOrder S] (quality : Nat → S) (n level : Nat) (best : S) (b : Nat) :
    (levelLoop quality n level best b = b ∧ (n = 0 ∨ quality level ≤ best)) ∨
      (level ≤ levelLoop quality n level best b ∧ levelLoop quality n level best b < level + n ∧
        (∀ l, level ≤ l → l < levelLoop quality n level best b → quality l < quality (levelLoop quality n level best b)) ∧
        best < quality (levelLoop quality n level best b) ∧
        (levelLoop quality n level best b + 1 = level + n ∨
          quality (levelLoop quality n level best b + 1) ≤ quality (levelLoop quality n level best b))) := by
  induction n generalizing level best b with
  | zero => exact Or.inl ⟨rfl, Or.inl rfl⟩
  | succ n ih =>
    have e : levelLoop quality (n + 1) level best b =
        if best < quality level then levelLoop quality n (level + 1) (quality level) level else b := rfl
    rw [e]
    by_cases h : best < quality level
    · rw [if_pos h]
      right
      rcases ih (level + 1) (quality level) level with ⟨e, h1⟩ | ⟨h1, h2, h3, h4, h5⟩
      · rw [e]
        refine ⟨le_refl _, by omega, fun l a b => absurd b (by omega), h, h1.imp (fun h => by omega) id⟩
      · refine ⟨by omega, by omega, fun l a b => ?_, lt_trans h h4, h5.imp_left fun h => by omega⟩
        by_cases e : l = level
        · rw [e]; exact h4
        · exact h3 l (by omega) b
    · rw [if_neg h]
      exact Or.inl ⟨rfl, Or.inr (not_lt.mp h)⟩

/-- **C65**: what is chosen is legal, at most one level away from the last choice, better than all the levels of the window below it, and at
least as good as the next one. -/
theorem C65_level {S : Type} [LinearOrder S] {minusOne : S} {quality : Nat → S} (hq : ∀ l, minusOne < quality l) {last : Option Nat}
    (hl : ∀ l, last = some l → l ≤ 63) :
    bestLevel minusOne quality last ≤ 63 ∧ (∀ l, last = some l → bestLevel minusOne quality last ≤ l + 1 ∧ l ≤ bestLevel minusOne quality last + 1) ∧
      (∀ q, (∀ l, last = some l → l ≤ q + 1) → q < bestLevel minusOne quality last → quality q < quality (bestLevel minusOne quality last)) ∧
      (bestLevel minusOne quality last + 1 ≤ 63 → (∀ l, last = some l → bestLevel minusOne quality last + 1 ≤ l + 1) →
        quality (bestLevel minusOne quality last + 1) ≤ quality (bestLevel minusOne quality last)) := by
  cases last with
  | none =>
    have := levelLoop_climb quality 64 0 minusOne 0
    have e : bestLevel minusOne quality none = levelLoop quality 64 0 minusOne 0 := rfl
    rw [e]
    rcases this with ⟨-, h | h⟩ | ⟨-, h2, h3, -, h5⟩
    · exact nomatch h
    · exact absurd (hq 0) (not_lt.mpr h)
    · exact ⟨by omega, fun _ h => (nomatch h), fun q _ h => h3 q (by omega) h, fun a _ => h5.resolve_left (by omega)⟩
  | some l =>
    have hl := hl l rfl
    have e : bestLevel minusOne quality (some l) = levelLoop quality (min 63 (l + 1) + 1 - (l - 1)) (l - 1) minusOne 0 := by
      unfold bestLevel levelWindow
      dsimp only
      have : (if l > 0 then l - 1 else 0) = l - 1 := by split <;> omega
      rw [this]
    have := levelLoop_climb quality (min 63 (l + 1) + 1 - (l - 1)) (l - 1) minusOne 0
    rw [e]
    rcases this with ⟨-, h | h⟩ | ⟨h1, h2, h3, -, h5⟩
    · omega
    · exact absurd (hq (l - 1)) (not_lt.mpr h)
    · refine ⟨by omega, fun l' h => by cases h; omega, fun q h h' => h3 q (by have := h l rfl; omega) h', fun a b => h5.resolve_left (by have := b l rfl; omega)⟩

/-- A quality that peaks at level 7, from the level 9 used before and from no level. -/
example : bestLevel (-1 : Int) (fun l => 100 - (l - 7) * (l - 7)) (some 9) = 8 ∧ bestLevel (-1 : Int) (fun l => 4000 - ((l : Int) - 7) * (l - 7)) none = 7 := by
  decide +kernel

end Alfalfa
