import Verif.Proof.RenderFilter
import Verif.Props.LoopFilter
import Verif.Spec.Fidelity

/-! How far the loop filter moves a pixel. -/

namespace Alfalfa

open LoopFilterSpec RenderSpec FidelitySpec

/-! ### Lines -/

/-- The most that the filter of an edge between macroblocks moves the pixel at distance `d` (0, 1, 2) from the edge. -/
def mbMove (b d : Nat) : Nat :=
  if d = 0 then (27 * b + 64) / 128 else if d = 1 then (18 * b + 64) / 128 else if d = 2 then (9 * b + 64) / 128 else 0

/-- The same for an edge inside. -/
def sbMove (b d : Nat) : Nat := if d = 0 then (b + 4) / 8 else if d = 1 then ((b + 4) / 8 + 1) / 2 else 0

/-- The distance of the pixels of a line from the edge. -/
def offEdge (i : Nat) : Nat := if i < 4 then 3 - i else i - 4

theorem moved_le {a : Int} {m : Nat} (x : Nat) (hx : x ≤ 255) (h : -(m : Int) ≤ a ∧ a ≤ m) :
    s2u (u2s x + a) ≤ x + m ∧ x ≤ s2u (u2s x + a) + m := by
  unfold s2u u2s c; omega

theorem moved_le' {a : Int} {m : Nat} (x : Nat) (hx : x ≤ 255) (h : -(m : Int) ≤ a ∧ a ≤ m) :
    s2u (u2s x - a) ≤ x + m ∧ x ≤ s2u (u2s x - a) + m := by
  unfold s2u u2s c; omega

theorem base_range (outer : Bool) {I E : Nat} {v : Fin 8 → Nat} (hy : filterYes I E v) {b : Nat} (hb : min 128 (2 * E + 1) ≤ b) :
    -(b : Int) ≤ base outer v ∧ base outer v ≤ b ∧ -128 ≤ base outer v ∧ base outer v ≤ 127 := by
  have h := hy.2
  unfold far at h
  unfold base c u2s
  cases outer <;> simp only [if_true, if_false, Bool.false_eq_true] <;> omega

theorem commonQ_range {outer : Bool} {v : Fin 8 → Nat} {b : Nat} (h : -(b : Int) ≤ base outer v ∧ base outer v ≤ b) :
    -(((b + 4) / 8 : Nat) : Int) ≤ commonQ outer v ∧ commonQ outer v ≤ ((b + 4) / 8 : Nat) := by
  unfold commonQ c; omega

theorem commonP_range {outer : Bool} {v : Fin 8 → Nat} {b : Nat} (h : -(b : Int) ≤ base outer v ∧ base outer v ≤ b) :
    -(((b + 4) / 8 : Nat) : Int) ≤ commonP outer v ∧ commonP outer v ≤ ((b + 4) / 8 : Nat) := by
  unfold commonP c; omega

theorem weighted_range {w : Int} {b k : Nat} (h : -(b : Int) ≤ w ∧ w ≤ b) (hk : k ≤ 27) (hb : b ≤ 128) :
    -(((k * b + 64) / 128 : Nat) : Int) ≤ c (((k : Int) * w + 63) / 128) ∧ c (((k : Int) * w + 63) / 128) ≤ ((k * b + 64) / 128 : Nat) := by
  have h1 : (k : Int) * w ≤ ((k * b : Nat) : Int) := by push_cast; exact mul_le_mul_of_nonneg_left h.2 (by omega)
  have h2 : -((k * b : Nat) : Int) ≤ (k : Int) * w := by
    push_cast; rw [← mul_neg]; exact mul_le_mul_of_nonneg_left h.1 (by omega)
  have h3 : k * b ≤ 27 * 128 := Nat.mul_le_mul hk hb
  generalize (k : Int) * w = x at *
  generalize k * b = y at *
  unfold c; omega

theorem macroblock_moves {I E T b : Nat} (hb : min 128 (2 * E + 1) ≤ b) (hb' : b ≤ 128) {v : Fin 8 → Nat} (hv : ∀ i, v i ≤ 255) (i : Fin 8) :
    macroblock I E T v i ≤ v i + mbMove b (offEdge i) ∧ v i ≤ macroblock I E T v i + mbMove b (offEdge i) := by
  unfold macroblock
  split
  · next hy =>
    have h0 := base_range true hy hb
    have hq := commonQ_range ⟨h0.1, h0.2.1⟩
    have hp := commonP_range ⟨h0.1, h0.2.1⟩
    have w27 := weighted_range (k := 27) ⟨h0.1, h0.2.1⟩ (by decide) hb'
    have w18 := weighted_range (k := 18) ⟨h0.1, h0.2.1⟩ (by decide) hb'
    have w9 := weighted_range (k := 9) ⟨h0.1, h0.2.1⟩ (by decide) hb'
    split
    · dsimp only
      split
      · exact moved_le _ (hv 3) (by show -(((27 * b + 64) / 128 : Nat) : Int) ≤ _ ∧ _ ≤ (((27 * b + 64) / 128 : Nat) : Int); omega)
      · exact moved_le' _ (hv 4) (by show -(((27 * b + 64) / 128 : Nat) : Int) ≤ _ ∧ _ ≤ (((27 * b + 64) / 128 : Nat) : Int); omega)
      · exact ⟨Nat.le_add_right _ _, Nat.le_add_right _ _⟩
    · dsimp only
      split
      · exact moved_le _ (hv 1) w9
      · exact moved_le _ (hv 2) w18
      · exact moved_le _ (hv 3) w27
      · exact moved_le' _ (hv 4) w27
      · exact moved_le' _ (hv 5) w18
      · exact moved_le' _ (hv 6) w9
      · exact ⟨Nat.le_add_right _ _, Nat.le_add_right _ _⟩
  · exact ⟨Nat.le_add_right _ _, Nat.le_add_right _ _⟩

theorem subblock_moves {I E T b : Nat} (hb : min 128 (2 * E + 1) ≤ b) {v : Fin 8 → Nat} (hv : ∀ i, v i ≤ 255) (i : Fin 8) :
    subblock I E T v i ≤ v i + sbMove b (offEdge i) ∧ v i ≤ subblock I E T v i + sbMove b (offEdge i) := by
  unfold subblock
  split
  · next hy =>
    have h0 := base_range true hy hb
    have h1 := base_range false hy hb
    split
    · dsimp only
      split
      · exact moved_le _ (hv 3) (commonP_range ⟨h0.1, h0.2.1⟩)
      · exact moved_le' _ (hv 4) (commonQ_range ⟨h0.1, h0.2.1⟩)
      · exact ⟨Nat.le_add_right _ _, Nat.le_add_right _ _⟩
    · have hq := commonQ_range ⟨h1.1, h1.2.1⟩
      have ha : -((((b + 4) / 8 + 1) / 2 : Nat) : Int) ≤ (commonQ false v + 1) / 2 ∧ (commonQ false v + 1) / 2 ≤ (((b + 4) / 8 + 1) / 2 : Nat) := by omega
      dsimp only
      split
      · exact moved_le _ (hv 2) ha
      · exact moved_le _ (hv 3) (commonP_range ⟨h1.1, h1.2.1⟩)
      · exact moved_le' _ (hv 4) hq
      · exact moved_le' _ (hv 5) ha
      · exact ⟨Nat.le_add_right _ _, Nat.le_add_right _ _⟩
  · exact ⟨Nat.le_add_right _ _, Nat.le_add_right _ _⟩

/-! ### Pictures -/

/-- `img'` differs from `img` by at most `D`. -/
def Moves (img img' : Nat → Nat → UInt8) (D : Nat → Nat → Nat) : Prop := ∀ u v, apart (img' u v) (img u v) ≤ D u v

theorem apart_self (a : UInt8) : apart a a = 0 := by unfold apart; omega

theorem apart_trans (a b c : UInt8) : apart a c ≤ apart a b + apart b c := by unfold apart; omega

theorem Moves.refl (img : Nat → Nat → UInt8) (D : Nat → Nat → Nat) : Moves img img D := fun u v => by rw [apart_self]; exact Nat.zero_le _

theorem Moves.trans {a b c : Nat → Nat → UInt8} {D E : Nat → Nat → Nat} (h1 : Moves a b D) (h2 : Moves b c E) : Moves a c fun u v => D u v + E u v :=
  fun u v => by have := apart_trans (c u v) (b u v) (a u v); have := h1 u v; have := h2 u v; dsimp only; omega

theorem Moves.mono {a b : Nat → Nat → UInt8} {D E : Nat → Nat → Nat} (h : Moves a b D) (hD : ∀ u v, D u v ≤ E u v) : Moves a b E :=
  fun u v => (h u v).trans (hD u v)

/-- The filter `g` of lines moves pixels by at most `m`, by their distance from the edge. -/
def LineMoves (g : (Fin 8 → Nat) → Fin 8 → Nat) (m : Nat → Nat) : Prop :=
  ∀ v : Fin 8 → Nat, (∀ i, v i ≤ 255) → ∀ i : Fin 8, (g v i ≤ v i + m (offEdge i) ∧ v i ≤ g v i + m (offEdge i)) ∧ g v i ≤ 255

theorem onPixels_moves {g : (Fin 8 → Nat) → Fin 8 → Nat} {m : Nat → Nat} (hg : LineMoves g m) (v : Fin 8 → UInt8) (i : Fin 8) :
    apart (onPixels g v i) (v i) ≤ m (offEdge i) := by
  obtain ⟨h1, h2⟩ := hg (fun i => (v i).toNat) (fun i => by have := (v i).toNat_lt; omega) i
  unfold onPixels apart
  rw [UInt8.toNat_ofNat', Nat.mod_eq_of_lt (by omega)]
  omega

theorem acrossVertical_moves {g : (Fin 8 → Nat) → Fin 8 → Nat} {m : Nat → Nat} (hg : LineMoves g m) (n x y : Nat) (img : Nat → Nat → UInt8) :
    Moves img (acrossVertical g n x y img) fun u v => if (y ≤ v ∧ v < y + n) ∧ x - 4 ≤ u ∧ u < x - 4 + 8 then m (offEdge (u - (x - 4))) else 0 := by
  intro u v
  unfold acrossVertical
  split
  · next h =>
    dsimp only
    rw [if_pos h]
    have := onPixels_moves hg (fun i => img (x - 4 + i) v) ⟨u - (x - 4), by omega⟩
    have e : x - 4 + (u - (x - 4)) = u := by omega
    dsimp only at this
    rw [e] at this
    exact this
  · rw [apart_self]; exact Nat.zero_le _

theorem acrossHorizontal_moves {g : (Fin 8 → Nat) → Fin 8 → Nat} {m : Nat → Nat} (hg : LineMoves g m) (n x y : Nat) (img : Nat → Nat → UInt8) :
    Moves img (acrossHorizontal g n x y img) fun u v => if (x ≤ u ∧ u < x + n) ∧ y - 4 ≤ v ∧ v < y - 4 + 8 then m (offEdge (v - (y - 4))) else 0 := by
  intro u v
  unfold acrossHorizontal
  split
  · next h =>
    dsimp only
    rw [if_pos h]
    have := onPixels_moves hg (fun i => img u (y - 4 + i)) ⟨v - (y - 4), by omega⟩
    have e : y - 4 + (v - (y - 4)) = v := by omega
    dsimp only at this
    rw [e] at this
    exact this
  · rw [apart_self]; exact Nat.zero_le _

/-- Moves by one filter after another. -/
theorem foldl_moves {α : Type} {g : (Nat → Nat → UInt8) → α → Nat → Nat → UInt8} {D : α → Nat → Nat → Nat} : ∀ {l : List α},
    (∀ k ∈ l, ∀ img, Moves img (g img k) (D k)) → ∀ img, Moves img (l.foldl g img) fun u v => (l.map fun k => D k u v).sum
  | [], _, img => Moves.refl img _
  | k :: l, h, img => by
    rw [List.foldl_cons]
    refine ((h k List.mem_cons_self img).trans (foldl_moves (fun k hk => h k (List.mem_cons_of_mem _ hk)) (g img k))).mono fun u v => ?_
    rw [List.map_cons, List.sum_cons]

theorem LineMoves.macroblock {I E b : Nat} (T : Nat) (hb : min 128 (2 * E + 1) ≤ b) (hb' : b ≤ 128) : LineMoves (macroblock I E T) (mbMove b) :=
  fun _ hv i => ⟨macroblock_moves hb hb' hv i, (C39_range I E T hv i).1⟩

theorem LineMoves.subblock {I E b : Nat} (T : Nat) (hb : min 128 (2 * E + 1) ≤ b) : LineMoves (subblock I E T) (sbMove b) :=
  fun _ hv i => ⟨subblock_moves hb hv i, (C39_range I E T hv i).2⟩

/-- What the edges of a macroblock do to the pixels in the same macroblock, at distance `r` of its left or upper edge. -/
def ownMove (n b r : Nat) : Nat :=
  (if r < 4 then mbMove b r else 0) + ((List.range n).map fun k => if (0 < k ∧ 4 ∣ k) ∧ k - 4 ≤ r ∧ r < k + 4 then sbMove b (offEdge (r + 4 - k)) else 0).sum

/-- What its left or upper edge does to the pixels of the macroblock on the other side. -/
def nextMove (n b r : Nat) : Nat := if n ≤ r + 4 then mbMove b (n - 1 - r) else 0

theorem sum_filter_map {l : List Nat} (p : Nat → Bool) (f : Nat → Nat) : ((l.filter p).map f).sum = (l.map fun k => if p k then f k else 0).sum := by
  induction l with
  | nil => rfl
  | cons k l ih =>
    rw [List.map_cons, List.sum_cons, List.filter_cons]
    split
    · rw [List.map_cons, List.sum_cons, ih]
    · rw [ih, Nat.zero_add]

/-- The moves of `LoopFilterSpec.block`. -/
def blockMove (n b column row u v : Nat) : Nat :=
  (if v / n = row then (if u / n = column then ownMove n b (u % n) else 0) + (if u / n + 1 = column then nextMove n b (u % n) else 0) else 0) +
  (if u / n = column then (if v / n = row then ownMove n b (v % n) else 0) + (if v / n + 1 = row then nextMove n b (v % n) else 0) else 0)

theorem both_edges : ∀ b : Fin 129, (9 * b.val + 64) / 128 + ((b.val + 4) / 8 + 1) / 2 ≤ (27 * b.val + 64) / 128 := by decide

theorem own_next {n : Nat} (hn : n = 8 ∨ n = 16) {b r : Nat} (hb : b ≤ 128) (hr : r < n) : ownMove n b r + nextMove n b r ≤ (27 * b + 64) / 128 := by
  have hbe := both_edges ⟨b, by omega⟩
  dsimp only at hbe
  rcases hn with rfl | rfl
  · unfold ownMove nextMove
    have e : List.range 8 = [0, 1, 2, 3, 4, 5, 6, 7] := by decide
    rw [e]
    interval_cases r <;> simp [mbMove, sbMove, offEdge] <;> generalize ((b + 4) / 8 + 1) / 2 = t at * <;> omega
  · unfold ownMove nextMove
    have e : List.range 16 = [0, 1, 2, 3, 4, 5, 6, 7, 8, 9, 10, 11, 12, 13, 14, 15] := by decide
    rw [e]
    interval_cases r <;> simp [mbMove, sbMove, offEdge] <;> generalize ((b + 4) / 8 + 1) / 2 = t at * <;> omega

theorem sum_zero {l : List Nat} {f : Nat → Nat} (h : ∀ k ∈ l, f k = 0) : (l.map f).sum = 0 := by
  induction l with
  | nil => rfl
  | cons k l ih => rw [List.map_cons, List.sum_cons, h k List.mem_cons_self, ih fun k hk => h k (List.mem_cons_of_mem _ hk)]

theorem side_le {n : Nat} (hn : n = 8 ∨ n = 16) (b column u : Nat) (inside : Bool) :
    (if 0 < column then (if n * column - 4 ≤ u ∧ u < n * column - 4 + 8 then mbMove b (offEdge (u - (n * column - 4))) else 0) else 0) +
    (if inside then (((List.range n).filter fun k => 0 < k ∧ 4 ∣ k).map fun k => if n * column + k - 4 ≤ u ∧ u < n * column + k - 4 + 8 then
      sbMove b (offEdge (u - (n * column + k - 4))) else 0).sum else 0) ≤
    (if u / n = column then ownMove n b (u % n) else 0) + (if u / n + 1 = column then nextMove n b (u % n) else 0) := by
  have hpos : 0 < n := by omega
  have hd := Nat.div_add_mod u n
  have hm := Nat.mod_lt u hpos
  have hsub : (((List.range n).filter fun k => 0 < k ∧ 4 ∣ k).map fun k => if n * column + k - 4 ≤ u ∧ u < n * column + k - 4 + 8 then
      sbMove b (offEdge (u - (n * column + k - 4))) else 0).sum =
      if u / n = column then ((List.range n).map fun k => if (0 < k ∧ 4 ∣ k) ∧ k - 4 ≤ u % n ∧ u % n < k + 4 then sbMove b (offEdge (u % n + 4 - k)) else 0).sum else 0 := by
    split
    · next hc =>
      rw [sum_filter_map]
      refine congrArg List.sum (List.map_congr_left fun k hk => ?_)
      rw [hc] at hd
      by_cases hp : 0 < k ∧ 4 ∣ k
      · rw [if_pos (decide_eq_true hp)]
        by_cases hq : k - 4 ≤ u % n ∧ u % n < k + 4
        · have g : n * column + k - 4 ≤ u ∧ u < n * column + k - 4 + 8 := by rcases hn with rfl | rfl <;> omega
          rw [if_pos g, if_pos ⟨hp, hq⟩]
          congr 2
          rcases hn with rfl | rfl <;> omega
        · have g : ¬ (n * column + k - 4 ≤ u ∧ u < n * column + k - 4 + 8) := by rcases hn with rfl | rfl <;> omega
          rw [if_neg g, if_neg (fun h => hq h.2)]
      · rw [if_neg (by simpa using hp), if_neg (fun h => hp h.1)]
    · next hc =>
      refine sum_zero fun k hk => if_neg ?_
      obtain ⟨h1, h2⟩ := List.mem_filter.1 hk
      have h1 := List.mem_range.1 h1
      have h2 := of_decide_eq_true h2
      rcases hn with rfl | rfl <;> omega
  rw [hsub]
  have hmb : (if 0 < column then (if n * column - 4 ≤ u ∧ u < n * column - 4 + 8 then mbMove b (offEdge (u - (n * column - 4))) else 0) else 0) ≤
      (if u / n = column then (if u % n < 4 then mbMove b (u % n) else 0) else 0) + (if u / n + 1 = column then nextMove n b (u % n) else 0) := by
    by_cases h0 : 0 < column
    · rw [if_pos h0]
      by_cases h1 : n * column - 4 ≤ u ∧ u < n * column - 4 + 8
      · rw [if_pos h1]
        by_cases h2 : u / n = column
        · rw [if_pos h2, if_pos (by rw [h2] at hd; rcases hn with rfl | rfl <;> omega)]
          have : offEdge (u - (n * column - 4)) = u % n := by
            unfold offEdge
            rw [h2] at hd
            rcases hn with rfl | rfl <;> split <;> omega
          rw [this]
          exact Nat.le_add_right _ _
        · have h3 : u / n + 1 = column := by rcases hn with rfl | rfl <;> omega
          rw [if_neg h2, if_pos h3]
          unfold nextMove
          rw [if_pos (by rcases hn with rfl | rfl <;> omega)]
          have : offEdge (u - (n * column - 4)) = n - 1 - u % n := by
            unfold offEdge
            rcases hn with rfl | rfl <;> split <;> omega
          rw [this]
          exact Nat.le_add_left _ _
      · rw [if_neg h1]; exact Nat.zero_le _
    · rw [if_neg h0]; exact Nat.zero_le _
  unfold ownMove
  by_cases hc : u / n = column
  · simp only [if_pos hc] at *
    cases inside
    · simp only [Bool.false_eq_true, if_false]; omega
    · simp only [if_true]; omega
  · simp only [if_neg hc] at *
    cases inside
    · simp only [Bool.false_eq_true, if_false]; omega
    · simp only [if_true]; omega

theorem interior_le_level (level sharpness : Nat) : interior level sharpness ≤ max 1 level := by
  unfold interior
  split
  · exact Nat.le_refl _
  · split <;> omega

/-- The filter of a macroblock at a level up to `L`. -/
theorem block_moves {n : Nat} (hn : n = 8 ∨ n = 16) (keyFrame : Bool) {level L : Nat} (hL : level ≤ L) (sharpness : Nat) (inside : Bool) (column row : Nat)
    (img : Nat → Nat → UInt8) : Moves img (LoopFilterSpec.block keyFrame level sharpness inside n column row img) (blockMove n (swing L) column row) := by
  have hI := interior_le_level level sharpness
  have hmb : LineMoves (macroblock (interior level sharpness) (2 * (level + 2) + interior level sharpness) (threshold keyFrame level)) (mbMove (swing L)) :=
    LineMoves.macroblock _ (by unfold swing; omega) (by unfold swing; omega)
  have hsb : LineMoves (subblock (interior level sharpness) (2 * level + interior level sharpness) (threshold keyFrame level)) (sbMove (swing L)) :=
    LineMoves.subblock _ (by unfold swing; omega)
  unfold LoopFilterSpec.block
  dsimp only
  generalize macroblock (interior level sharpness) (2 * (level + 2) + interior level sharpness) (threshold keyFrame level) = mb at *
  generalize subblock (interior level sharpness) (2 * level + interior level sharpness) (threshold keyFrame level) = sb at *
  generalize swing L = b at *
  have hv : ∀ img, Moves img (if inside then ((List.range n).filter fun k => 0 < k ∧ 4 ∣ k).foldl (fun img k => acrossVertical sb n (n * column + k) (n * row) img)
        (if 0 < column then acrossVertical mb n (n * column) (n * row) img else img) else (if 0 < column then acrossVertical mb n (n * column) (n * row) img else img))
      fun u v => if v / n = row then (if u / n = column then ownMove n b (u % n) else 0) + (if u / n + 1 = column then nextMove n b (u % n) else 0) else 0 := by
    intro img
    have a1 : Moves img (if 0 < column then acrossVertical mb n (n * column) (n * row) img else img) fun u v =>
        if 0 < column then (if (n * row ≤ v ∧ v < n * row + n) ∧ n * column - 4 ≤ u ∧ u < n * column - 4 + 8 then mbMove b (offEdge (u - (n * column - 4))) else 0) else 0 := by
      by_cases h : 0 < column
      · simp only [if_pos h]; exact acrossVertical_moves hmb n (n * column) (n * row) img
      · simp only [if_neg h]; exact Moves.refl _ _
    generalize (if 0 < column then acrossVertical mb n (n * column) (n * row) img else img) = img' at *
    have a2 : Moves img' (if inside then ((List.range n).filter fun k => 0 < k ∧ 4 ∣ k).foldl (fun img k => acrossVertical sb n (n * column + k) (n * row) img) img' else img')
        fun u v => if inside then (((List.range n).filter fun k => 0 < k ∧ 4 ∣ k).map fun k => if (n * row ≤ v ∧ v < n * row + n) ∧ n * column + k - 4 ≤ u ∧
          u < n * column + k - 4 + 8 then sbMove b (offEdge (u - (n * column + k - 4))) else 0).sum else 0 := by
      cases inside
      · simp only [Bool.false_eq_true, if_false]; exact Moves.refl _ _
      · simp only [if_true]
        exact foldl_moves (fun k _ img => acrossVertical_moves hsb n (n * column + k) (n * row) img) img'
    refine (a1.trans a2).mono fun u v => ?_
    have hrow : (n * row ≤ v ∧ v < n * row + n) ↔ v / n = row := by
      rcases hn with rfl | rfl <;> omega
    simp only [hrow]
    by_cases h : v / n = row
    · simp only [h, true_and, if_true]
      exact side_le hn b column u inside
    · simp only [h, false_and, if_false]
      rw [sum_zero (fun _ _ => rfl)]
      simp
  have hh : ∀ img, Moves img (if inside then ((List.range n).filter fun k => 0 < k ∧ 4 ∣ k).foldl (fun img k => acrossHorizontal sb n (n * column) (n * row + k) img)
        (if 0 < row then acrossHorizontal mb n (n * column) (n * row) img else img) else (if 0 < row then acrossHorizontal mb n (n * column) (n * row) img else img))
      fun u v => if u / n = column then (if v / n = row then ownMove n b (v % n) else 0) + (if v / n + 1 = row then nextMove n b (v % n) else 0) else 0 := by
    intro img
    have a1 : Moves img (if 0 < row then acrossHorizontal mb n (n * column) (n * row) img else img) fun u v =>
        if 0 < row then (if (n * column ≤ u ∧ u < n * column + n) ∧ n * row - 4 ≤ v ∧ v < n * row - 4 + 8 then mbMove b (offEdge (v - (n * row - 4))) else 0) else 0 := by
      by_cases h : 0 < row
      · simp only [if_pos h]; exact acrossHorizontal_moves hmb n (n * column) (n * row) img
      · simp only [if_neg h]; exact Moves.refl _ _
    generalize (if 0 < row then acrossHorizontal mb n (n * column) (n * row) img else img) = img' at *
    have a2 : Moves img' (if inside then ((List.range n).filter fun k => 0 < k ∧ 4 ∣ k).foldl (fun img k => acrossHorizontal sb n (n * column) (n * row + k) img) img' else img')
        fun u v => if inside then (((List.range n).filter fun k => 0 < k ∧ 4 ∣ k).map fun k => if (n * column ≤ u ∧ u < n * column + n) ∧ n * row + k - 4 ≤ v ∧
          v < n * row + k - 4 + 8 then sbMove b (offEdge (v - (n * row + k - 4))) else 0).sum else 0 := by
      cases inside
      · simp only [Bool.false_eq_true, if_false]; exact Moves.refl _ _
      · simp only [if_true]
        exact foldl_moves (fun k _ img => acrossHorizontal_moves hsb n (n * column) (n * row + k) img) img'
    refine (a1.trans a2).mono fun u v => ?_
    have hcol : (n * column ≤ u ∧ u < n * column + n) ↔ u / n = column := by
      rcases hn with rfl | rfl <;> omega
    simp only [hcol]
    by_cases h : u / n = column
    · simp only [h, true_and, if_true]
      exact side_le hn b row v inside
    · simp only [h, false_and, if_false]
      rw [sum_zero (fun _ _ => rfl)]
      simp
  exact ((hv img).trans (hh _)).mono fun u v => Nat.le_refl _

/-! ### Frames -/

theorem indicator_sum (N a X : Nat) : ((List.range N).map fun j => if j = a then X else 0).sum ≤ if a < N then X else 0 := by
  induction N with
  | zero => exact Nat.zero_le _
  | succ N ih =>
    rw [List.range_succ, List.map_append, List.sum_append, List.map_singleton, List.sum_singleton]
    split at ih <;> split <;> split <;> omega

theorem sum_add (l : List Nat) (f g : Nat → Nat) : (l.map fun k => f k + g k).sum = (l.map f).sum + (l.map g).sum := by
  induction l with
  | nil => rfl
  | cons k l ih => rw [List.map_cons, List.sum_cons, ih, List.map_cons, List.sum_cons, List.map_cons, List.sum_cons]; omega

theorem sum_le {l : List Nat} {f g : Nat → Nat} (h : ∀ k ∈ l, f k ≤ g k) : (l.map f).sum ≤ (l.map g).sum := by
  induction l with
  | nil => exact Nat.le_refl _
  | cons k l ih =>
    rw [List.map_cons, List.sum_cons, List.map_cons, List.sum_cons]
    exact Nat.add_le_add (h k List.mem_cons_self) (ih fun k hk => h k (List.mem_cons_of_mem _ hk))

theorem blocks_sum {n : Nat} (hn : n = 8 ∨ n = 16) {b : Nat} (hb : b ≤ 128) {w N : Nat} (u v : Nat) :
    ((List.range N).map fun j => blockMove n b (j % w) (j / w) u v).sum ≤ 2 * ((27 * b + 64) / 128) := by
  have hpos : 0 < n := by omega
  refine Nat.le_trans (sum_le (g := fun j => (if j = v / n * w + u / n then ownMove n b (u % n) + ownMove n b (v % n) else 0) +
    ((if j = v / n * w + u / n + 1 then nextMove n b (u % n) else 0) + (if j = (v / n + 1) * w + u / n then nextMove n b (v % n) else 0))) fun j _ => ?_) ?_
  · have hj : j = j / w * w + j % w := by have := Nat.div_add_mod j w; rw [Nat.mul_comm] at this; omega
    unfold blockMove
    have t1 : v / n = j / w → u / n = j % w → j = v / n * w + u / n := fun h1 h2 => by rw [h1, h2]; exact hj
    have t2 : v / n = j / w → u / n + 1 = j % w → j = v / n * w + u / n + 1 := fun h1 h2 => by rw [h1, Nat.add_assoc, h2]; exact hj
    have t3 : v / n + 1 = j / w → u / n = j % w → j = (v / n + 1) * w + u / n := fun h1 h2 => by rw [h1, h2]; exact hj
    by_cases h1 : v / n = j / w <;> by_cases h2 : u / n = j % w
    · have := t1 h1 h2
      rw [if_pos h1, if_pos h2, if_pos h2, if_pos h1, if_neg (by omega), if_neg (by omega), if_pos this]
      omega
    · rw [if_pos h1, if_neg h2, if_neg h2]
      by_cases h3 : u / n + 1 = j % w
      · rw [if_pos h3, if_pos (t2 h1 h3)]; omega
      · rw [if_neg h3]; omega
    · rw [if_neg h1, if_pos h2, if_neg h1]
      by_cases h3 : v / n + 1 = j / w
      · rw [if_pos h3, if_pos (t3 h3 h2)]; omega
      · rw [if_neg h3]; omega
    · rw [if_neg h1, if_neg h2]; omega
  · rw [sum_add, sum_add]
    have i1 := indicator_sum N (v / n * w + u / n) (ownMove n b (u % n) + ownMove n b (v % n))
    have i2 := indicator_sum N (v / n * w + u / n + 1) (nextMove n b (u % n))
    have i3 := indicator_sum N ((v / n + 1) * w + u / n) (nextMove n b (v % n))
    have o1 := own_next hn hb (Nat.mod_lt u hpos)
    have o2 := own_next hn hb (Nat.mod_lt v hpos)
    split at i1 <;> split at i2 <;> split at i3 <;> omega

theorem filtered_moves {n : Nat} (hn : n = 8 ∨ n = 16) (keyFrame : Bool) (sharpness : Nat) {level : MBModes → Nat → Nat} {H : Type} {f : ParsedFrame H}
    {L : Nat} (hL : ∀ (k : Nat) m id, f.frame.modes[k]? = some m → f.segmentIds[k]? = some id → level m id ≤ L) (img : Nat → Nat → UInt8) :
    Moves img (filtered keyFrame sharpness level f n img) fun _ _ => reach L := by
  by_cases h0 : L = 0
  · have : filtered keyFrame sharpness level f n img = img := by
      unfold filtered
      generalize List.range _ = l
      induction l with
      | nil => rfl
      | cons k l ih =>
        rw [List.foldl_cons]
        have : filteredAt keyFrame sharpness level f n img k = img := by
          unfold filteredAt
          split
          · next m r id e1 _ e3 => rw [if_pos (by have := hL k m id e1 e3; omega)]
          · rfl
        rw [this, ih]
    rw [this]
    exact Moves.refl _ _
  · unfold filtered
    refine (foldl_moves (D := fun k => blockMove n (swing L) (k % ((f.frame.width + 15) / 16)) (k / ((f.frame.width + 15) / 16))) (fun k _ img => ?_) img).mono
      fun u v => ?_
    · unfold filteredAt
      split
      · next m r id e1 _ e3 =>
        split
        · exact Moves.refl _ _
        · exact block_moves hn keyFrame (hL k m id e1 e3) sharpness _ _ _ img
      · exact Moves.refl _ _
    · unfold reach
      rw [if_neg h0]
      exact blocks_sum hn (by unfold swing; omega) u v

end Alfalfa
