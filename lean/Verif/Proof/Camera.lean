import Verif.Model.Camera
import Verif.Proof.Y4m

/-! Lemmas about the camera. -/

namespace Alfalfa

/-- The first `i` bytes have been replaced. -/
structure Mixed (f : Nat → Option UInt8) (i : Nat) (old cells : List UInt8) : Prop where
  length : cells.length = old.length
  get : ∀ k, cells[k]? = if k < i then f k else old[k]?

theorem Mixed.zero (f : Nat → Option UInt8) (old : List UInt8) : Mixed f 0 old old := ⟨rfl, fun k => by rw [if_neg (by omega)]⟩

theorem Mixed.next {f : Nat → Option UInt8} {i : Nat} {old cells : List UInt8} (h : Mixed f i old cells) {b : UInt8} (hb : f i = some b) (hi : i < old.length) :
    Mixed f (i + 1) old (cells.set i b) := by
  refine ⟨by rw [List.length_set, h.length], fun k => ?_⟩
  rw [List.getElem?_set]
  by_cases hk : i = k
  · subst hk
    rw [if_pos rfl, if_pos (by rw [h.length]; exact hi), if_pos (by omega), hb]
  · rw [if_neg hk, h.get]
    by_cases h1 : k < i
    · rw [if_pos h1, if_pos (by omega)]
    · rw [if_neg h1, if_neg (by omega)]

theorem pour_spec {src : Nat → Option UInt8} {old : List UInt8} : ∀ {n : Nat}, (∀ i < n, (src i).isSome) → n ≤ old.length →
    ∃ cells, pour src n old = some cells ∧ Mixed src n old cells
  | 0, _, _ => ⟨old, rfl, .zero _ _⟩
  | n + 1, hs, hn => by
    obtain ⟨cells, h1, h2⟩ := pour_spec (old := old) (n := n) (fun i hi => hs i (by omega)) (by omega)
    obtain ⟨b, hb⟩ := Option.isSome_iff_exists.1 (hs n (by omega))
    refine ⟨cells.set n b, ?_, h2.next hb (by omega)⟩
    unfold pour
    rw [h1]
    dsimp only [bind, Option.bind]
    rw [hb]
    dsimp only
    rw [if_pos (by rw [h2.length]; omega)]

/-- The byte of colour for the `k`-th place of a plane without gaps. -/
def yuyvAt (memory : List UInt8) (width shift k : Nat) : Option UInt8 := memory[k / (width / 2) * 2 * width * 2 + k % (width / 2) * 4 + shift]?

theorem yuyvColumns_spec {memory oldU oldV : List UInt8} {width row : Nat} (hl : oldV.length = oldU.length)
    (hm : row * width * 2 + width * 2 ≤ memory.length) (even : row % 2 = 0) (hroom : (row / 2 + 1) * (width / 2) ≤ oldU.length) :
    ∀ {n column : Nat} {u v : List UInt8}, column + n = width / 2 → Mixed (yuyvAt memory width 1) (row / 2 * (width / 2) + column) oldU u →
      Mixed (yuyvAt memory width 3) (row / 2 * (width / 2) + column) oldV v →
      ∃ u' v', yuyvColumns memory (row * width * 2) n column (row / 2 * (width / 2) + column, u, v) = some ((row / 2 + 1) * (width / 2), u', v') ∧
        Mixed (yuyvAt memory width 1) ((row / 2 + 1) * (width / 2)) oldU u' ∧ Mixed (yuyvAt memory width 3) ((row / 2 + 1) * (width / 2)) oldV v'
  | 0, column, u, v, hc, hu, hv => by
    have : row / 2 * (width / 2) + column = (row / 2 + 1) * (width / 2) := by rw [Nat.add_mul, Nat.one_mul]; omega
    rw [this] at hu hv ⊢
    exact ⟨u, v, rfl, hu, hv⟩
  | n + 1, column, u, v, hc, hu, hv => by
    have hlt : row / 2 * (width / 2) + column < (row / 2 + 1) * (width / 2) := by rw [Nat.add_mul, Nat.one_mul]; omega
    have hdiv : (row / 2 * (width / 2) + column) / (width / 2) = row / 2 := by
      rw [Nat.mul_comm, Nat.mul_add_div (show 0 < width / 2 by omega), Nat.div_eq_of_lt (show column < width / 2 by omega), Nat.add_zero]
    have hmod : (row / 2 * (width / 2) + column) % (width / 2) = column := by
      rw [Nat.mul_comm, Nat.mul_add_mod, Nat.mod_eq_of_lt (show column < width / 2 by omega)]
    have at' (s : Nat) (hs : s ≤ 3) : ∃ b, memory[row * width * 2 + column * 4 + s]? = some b ∧
        yuyvAt memory width s (row / 2 * (width / 2) + column) = some b := by
      have h : row * width * 2 + column * 4 + s < memory.length := by omega
      refine ⟨memory[row * width * 2 + column * 4 + s], List.getElem?_eq_getElem h, ?_⟩
      unfold yuyvAt
      rw [hdiv, hmod, show row / 2 * 2 = row by omega]
      exact List.getElem?_eq_getElem h
    obtain ⟨cb, c1, c2⟩ := at' 1 (by omega)
    obtain ⟨cr, c3, c4⟩ := at' 3 (by omega)
    unfold yuyvColumns
    dsimp only [bind, Option.bind]
    rw [c1]
    dsimp only
    rw [c3]
    dsimp only
    rw [if_pos ⟨by rw [hu.length]; omega, by rw [hv.length, hl]; omega⟩]
    exact yuyvColumns_spec hl hm even hroom (column := column + 1) (by omega) (hu.next c2 (by omega)) (hv.next c4 (by omega))

theorem yuyvRows_spec {memory oldU oldV : List UInt8} {width : Nat} (hl : oldV.length = oldU.length) : ∀ {n row : Nat} {u v : List UInt8},
    (row + n) * width * 2 ≤ memory.length → (row + n + 1) / 2 * (width / 2) ≤ oldU.length →
    Mixed (yuyvAt memory width 1) ((row + 1) / 2 * (width / 2)) oldU u → Mixed (yuyvAt memory width 3) ((row + 1) / 2 * (width / 2)) oldV v →
    ∃ u' v', yuyvRows memory width n row ((row + 1) / 2 * (width / 2), u, v) = some ((row + n + 1) / 2 * (width / 2), u', v') ∧
      Mixed (yuyvAt memory width 1) ((row + n + 1) / 2 * (width / 2)) oldU u' ∧ Mixed (yuyvAt memory width 3) ((row + n + 1) / 2 * (width / 2)) oldV v'
  | 0, row, u, v, _, _, hu, hv => ⟨u, v, rfl, hu, hv⟩
  | n + 1, row, u, v, hm, hroom, hu, hv => by
    rw [show row + (n + 1) = row + 1 + n by omega] at hm hroom ⊢
    unfold yuyvRows
    by_cases hr : row % 2 = 1
    · rw [if_pos hr]
      have e : (row + 1 + 1) / 2 = (row + 1) / 2 := by omega
      rw [← e] at hu hv ⊢
      exact yuyvRows_spec hl hm hroom hu hv
    · rw [if_neg hr]
      have e : (row + 1) / 2 = row / 2 := by omega
      have e' : row / 2 + 1 = (row + 1 + 1) / 2 := by omega
      have hm' : row * width * 2 + width * 2 ≤ memory.length := by
        have : (row + 1) * width ≤ (row + 1 + n) * width := Nat.mul_le_mul_right _ (by omega)
        rw [Nat.add_mul row, Nat.one_mul] at this
        omega
      have hroom' : (row / 2 + 1) * (width / 2) ≤ oldU.length :=
        (Nat.mul_le_mul_right _ (show row / 2 + 1 ≤ (row + 1 + n + 1) / 2 by omega)).trans hroom
      rw [e] at hu hv ⊢
      obtain ⟨u', v', h1, h2, h3⟩ := yuyvColumns_spec hl hm' (by omega) hroom' (column := 0) (n := width / 2) (Nat.zero_add _) hu hv
      rw [Nat.add_zero] at h1
      rw [h1, e'] at *
      exact yuyvRows_spec hl hm hroom h2 h3

theorem jpegColumns_spec {w h : Nat} {src : Plane} {row : Nat} (hrow : row < h) : ∀ {n column : Nat} {p : Plane}, p.Sized w h → column + n ≤ w →
    (∀ c, c < column + n → ∃ b, src.at? c (row * 2) = some b) →
    ∃ q, jpegColumns src row n column p = some q ∧ q.Sized w h ∧
      ∀ u v, u < w → v < h → some (q.px u v) = if v = row ∧ column ≤ u ∧ u < column + n then src.at? u (row * 2) else some (p.px u v)
  | 0, column, p, hp, _, _ => ⟨p, rfl, hp, fun u v _ _ => by rw [if_neg (by omega)]⟩
  | n + 1, column, p, hp, hc, hs => by
    obtain ⟨b, hb⟩ := hs column (by omega)
    obtain ⟨q, q1, q2, q3, q4, q5⟩ := Plane.put_spec hp.full (x := column) (y := row) b (by rw [hp.width]; omega) (by rw [hp.height]; exact hrow)
    have hq : q.Sized w h := ⟨q2, q3.trans hp.width, q4.trans hp.height⟩
    obtain ⟨r, r1, r2, r3⟩ := jpegColumns_spec hrow (n := n) (column := column + 1) hq (by omega) (fun c hc => hs c (by omega))
    refine ⟨r, ?_, r2, fun u v hu hv => ?_⟩
    · unfold jpegColumns
      rw [hb]
      dsimp only [bind, Option.bind]
      rw [q1]
      exact r1
    · rw [r3 u v hu hv]
      by_cases h1 : v = row ∧ column ≤ u ∧ u < column + (n + 1)
      · obtain ⟨rfl, h2, h3⟩ := h1
        by_cases h4 : column = u
        · subst h4
          rw [if_neg (by omega), if_pos ⟨rfl, by omega, by omega⟩, hb, q5 _ _ (by rw [hp.width]; exact hu) (by rw [hp.height]; exact hv), if_pos ⟨rfl, rfl⟩]
        · rw [if_pos ⟨rfl, by omega, by omega⟩, if_pos ⟨rfl, h2, h3⟩]
      · rw [if_neg (by omega), if_neg h1, q5 _ _ (by rw [hp.width]; exact hu) (by rw [hp.height]; exact hv), if_neg (by omega)]

theorem jpegRows_spec {w h : Nat} {src : Plane} {columns : Nat} (hc : columns ≤ w) : ∀ {n row : Nat} {p : Plane}, p.Sized w h → row + n ≤ h →
    (∀ c r, c < columns → r < row + n → ∃ b, src.at? c (r * 2) = some b) →
    ∃ q, jpegRows src columns n row p = some q ∧ q.Sized w h ∧
      ∀ u v, u < w → v < h → some (q.px u v) = if row ≤ v ∧ v < row + n ∧ u < columns then src.at? u (v * 2) else some (p.px u v)
  | 0, row, p, hp, _, _ => ⟨p, rfl, hp, fun u v _ _ => by rw [if_neg (by omega)]⟩
  | n + 1, row, p, hp, hr, hs => by
    obtain ⟨q, q1, q2, q3⟩ := jpegColumns_spec (src := src) (row := row) (h := h) (by omega) (n := columns) (column := 0) hp (by omega)
      (fun c hc => hs c row (by omega) (by omega))
    obtain ⟨r, r1, r2, r3⟩ := jpegRows_spec hc (n := n) (row := row + 1) q2 (by omega) (fun c r h1 h2 => hs c r h1 (by omega))
    refine ⟨r, ?_, r2, fun u v hu hv => ?_⟩
    · unfold jpegRows
      rw [q1]
      exact r1
    · rw [r3 u v hu hv, q3 u v hu hv]
      by_cases h1 : row + 1 ≤ v ∧ v < row + 1 + n ∧ u < columns
      · rw [if_pos h1, if_pos (by omega)]
      · rw [if_neg h1]
        by_cases h2 : v = row ∧ 0 ≤ u ∧ u < 0 + columns
        · rw [if_pos h2, if_pos (by omega), h2.1]
        · rw [if_neg h2, if_neg (by omega)]

end Alfalfa
