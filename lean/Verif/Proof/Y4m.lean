import Verif.Model.Y4m
import Verif.Proof.Pixels
import Verif.Proof.Render

/-! Lemmas about raw video. -/

namespace Alfalfa

/-! ### Copying bytes into a plane -/

theorem getD_splice {s : Nat} {cells data : List UInt8} (h : s + data.length ≤ cells.length) (k : Nat) :
    (cells.take s ++ (data ++ cells.drop (s + data.length))).getD k 0 = if s ≤ k ∧ k < s + data.length then data.getD (k - s) 0 else cells.getD k 0 := by
  simp only [List.getD_eq_getElem?_getD]
  have hs : (cells.take s).length = s := by rw [List.length_take]; omega
  by_cases h1 : k < s
  · rw [List.getElem?_append_left (by omega), if_neg (by omega), List.getElem?_take, if_pos h1]
  · rw [List.getElem?_append_right (by omega), hs]
    by_cases h2 : k < s + data.length
    · rw [List.getElem?_append_left (by omega), if_pos ⟨by omega, h2⟩]
    · rw [List.getElem?_append_right (by omega), if_neg (by omega), List.getElem?_drop]
      congr 2
      omega

theorem copyRow_spec {w h : Nat} {p : Plane} (hp : p.Sized w h) {row : Nat} {data : List UInt8} (hrow : row < h) (hdata : data.length ≤ w) :
    ∃ q, p.copyRow row data = some q ∧ q.Sized w h ∧
      ∀ u v, u < w → v < h → q.px u v = if v = row ∧ u < data.length then data.getD u 0 else p.px u v := by
  obtain ⟨hf, rfl, rfl⟩ := hp
  have hslot : p.slot 0 row = row * p.width := by rw [Grid.slot_eq hf.small hf.width hrow, Nat.add_zero]
  have hle : row * p.width + p.width ≤ p.cells.length := by
    rw [hf.cells]
    have : (row + 1) * p.width ≤ p.height * p.width := Nat.mul_le_mul_right _ hrow
    rw [Nat.add_mul, Nat.one_mul, Nat.mul_comm p.height] at this
    exact this
  refine ⟨_, if_pos ⟨hf.width, hrow, by rw [hslot]; omega⟩, ⟨⟨hf.width, hf.height, hf.small, ?_⟩, rfl, rfl⟩, fun u v hu hv => ?_⟩
  · have := hf.cells
    simp only [List.length_append, List.length_take, List.length_drop, hslot]
    omega
  · unfold Plane.px
    simp only
    rw [if_pos hu, if_pos hu, hslot, getD_splice (by omega)]
    have key : (row * p.width ≤ v * p.width + u ∧ v * p.width + u < row * p.width + data.length) ↔ v = row ∧ u < data.length := by
      constructor
      · rintro ⟨h1, h2⟩
        have e : v = row := by
          rcases Nat.lt_trichotomy v row with h3 | h3 | h3
          · have : (v + 1) * p.width ≤ row * p.width := Nat.mul_le_mul_right _ h3
            rw [Nat.add_mul, Nat.one_mul] at this
            omega
          · exact h3
          · have : (row + 1) * p.width ≤ v * p.width := Nat.mul_le_mul_right _ h3
            rw [Nat.add_mul, Nat.one_mul] at this
            omega
        subst e
        exact ⟨rfl, by omega⟩
      · rintro ⟨rfl, h⟩
        omega
    by_cases hk : v = row ∧ u < data.length
    · rw [if_pos (key.2 hk), if_pos hk, hk.1]
      congr 1
      omega
    · rw [if_neg fun h => hk (key.1 h), if_neg hk]

/-- Reading rows: too few bytes, or the rows are in the plane. -/
theorem readRows_spec {w h length : Nat} (hl : length ≤ w) : ∀ (count row : Nat) (p : Plane) (i : Y4MInput), p.Sized w h → row + count ≤ h → i.ended = false →
    if i.rest.length < count * length then readRows length count row p i = .error .ended
    else ∃ q, readRows length count row p i = .ok (q, { i with rest := i.rest.drop (count * length) }) ∧ q.Sized w h ∧
      ∀ u v, u < w → v < h → q.px u v = if row ≤ v ∧ v < row + count ∧ u < length then i.rest.getD ((v - row) * length + u) 0 else p.px u v := by
  intro count
  induction count with
  | zero =>
    intro row p i hp _ _
    rw [if_neg (by omega)]
    refine ⟨p, by simp [readRows], hp, fun u v _ _ => ?_⟩
    rw [if_neg (by omega)]
  | succ count ih =>
    intro row p i hp hr hi
    have e : (count + 1) * length = length + count * length := by rw [Nat.add_mul, Nat.one_mul, Nat.add_comm]
    -- one row
    have one : i.rest.length < length ∧ i.readExactly length = .error .ended ∨
        length ≤ i.rest.length ∧ i.readExactly length = .ok (i.rest.take length, { i with rest := i.rest.drop length }) := by
      unfold Y4MInput.readExactly
      by_cases h0 : length = 0
      · subst h0
        exact .inr ⟨by omega, by simp⟩
      · rw [if_neg h0, hi]
        by_cases h1 : i.rest.length < length
        · exact .inl ⟨h1, by simp [h1]⟩
        · exact .inr ⟨by omega, by simp [h1]⟩
    unfold readRows
    rcases one with ⟨h1, h2⟩ | ⟨h1, h2⟩
    · rw [if_pos (by rw [e]; omega), h2]
      rfl
    · rw [h2]
      obtain ⟨p1, c1, c2, c3⟩ := copyRow_spec hp (row := row) (data := i.rest.take length) (by omega) (by rw [List.length_take]; omega)
      have step := ih (row + 1) p1 { i with rest := i.rest.drop length } c2 (by omega) hi
      have hd : ((i.rest.drop length).length < count * length) ↔ i.rest.length < (count + 1) * length := by rw [List.length_drop, e]; omega
      simp only [bind, Except.bind, c1, inBounds] at step ⊢
      by_cases hs : i.rest.length < (count + 1) * length
      · rw [if_pos hs]
        rw [if_pos (hd.2 hs)] at step
        exact step
      · rw [if_neg hs]
        rw [if_neg fun h => hs (hd.1 h)] at step
        obtain ⟨q, s1, s2, s3⟩ := step
        refine ⟨q, ?_, s2, fun u v hu hv => ?_⟩
        · rw [s1, List.drop_drop, e]
        · rw [s3 u v hu hv, c3 u v hu hv]
          have ht : (i.rest.take length).length = length := by rw [List.length_take]; omega
          rw [ht]
          by_cases hul : u < length
          · by_cases hv1 : v = row
            · subst hv1
              rw [if_neg (by omega), if_pos ⟨rfl, hul⟩, if_pos ⟨Nat.le_refl _, by omega, hul⟩, Nat.sub_self, Nat.zero_mul, Nat.zero_add]
              simp only [List.getD_eq_getElem?_getD, List.getElem?_take, if_pos hul]
            · by_cases hv2 : row + 1 ≤ v ∧ v < row + 1 + count
              · rw [if_pos ⟨hv2.1, hv2.2, hul⟩, if_pos ⟨by omega, by omega, hul⟩]
                simp only [List.getD_eq_getElem?_getD, List.getElem?_drop]
                congr 2
                obtain ⟨d, rfl⟩ : ∃ d, v = row + 1 + d := ⟨v - (row + 1), by omega⟩
                rw [show row + 1 + d - (row + 1) = d by omega, show row + 1 + d - row = d + 1 by omega, Nat.add_mul, Nat.one_mul]
                omega
              · rw [if_neg (by omega), if_neg (by omega), if_neg (by omega)]
          · rw [if_neg (by omega), if_neg (by omega), if_neg (by omega)]

/-! ### Edge extension -/

theorem spreadRow_spec {w h : Nat} {row : Nat} (hrow : row < h) (source : Nat → Nat × Nat) : ∀ (columns : List Nat) (p : Plane), p.Sized w h →
    (∀ c ∈ columns, c < w ∧ (source c).1 < w ∧ (source c).2 < h) → (∀ c ∈ columns, (source c).2 = row → (source c).1 ∉ columns) →
    ∃ q, columns.foldlM (fun (p : Plane) column => do p.put column row (← p.at? (source column).1 (source column).2)) p = some q ∧ q.Sized w h ∧
      ∀ u v, u < w → v < h → q.px u v = if v = row ∧ u ∈ columns then p.px (source u).1 (source u).2 else p.px u v := by
  intro columns
  induction columns with
  | nil => intro p hp _ _; exact ⟨p, rfl, hp, fun u v _ _ => by simp⟩
  | cons c rest ih =>
    intro p hp hin hout
    obtain ⟨h1, h2, h3⟩ := hin c List.mem_cons_self
    have hp' := hp
    obtain ⟨hf, hw, hh⟩ := hp
    subst hw hh
    obtain ⟨p1, e1, e2, e3, e4, e5⟩ := Plane.put_spec hf (p.px (source c).1 (source c).2) h1 hrow
    have s1 : p1.Sized p.width p.height := ⟨e2, e3, e4⟩
    obtain ⟨q, q1, q2, q3⟩ := ih p1 s1 (fun x hx => hin x (List.mem_cons_of_mem _ hx))
      (fun x hx he hm => hout x (List.mem_cons_of_mem _ hx) he (List.mem_cons_of_mem _ hm))
    refine ⟨q, ?_, q2, fun u v hu hv => ?_⟩
    · rw [List.foldlM_cons, Plane.px_eq hf h2 h3]
      simp only [Option.bind_eq_bind, Option.bind_some]
      rw [e1]
      exact q1
    · rw [q3 u v hu hv]
      by_cases hu' : v = row ∧ u ∈ rest
      · rw [if_pos hu', if_pos ⟨hu'.1, List.mem_cons_of_mem _ hu'.2⟩]
        have := hin u (List.mem_cons_of_mem _ hu'.2)
        rw [e5 _ _ this.2.1 this.2.2, if_neg]
        rintro ⟨a, b⟩
        exact hout u (List.mem_cons_of_mem _ hu'.2) b (by rw [a]; exact List.mem_cons_self)
      · rw [if_neg hu', e5 u v hu hv]
        by_cases hc : u = c ∧ v = row
        · obtain ⟨rfl, rfl⟩ := hc
          rw [if_pos ⟨rfl, rfl⟩, if_pos ⟨rfl, List.mem_cons_self⟩]
        · rw [if_neg hc, if_neg]
          rintro ⟨a, b⟩
          rcases List.mem_cons.1 b with b | b
          · exact hc ⟨b, a⟩
          · exact hu' ⟨a, b⟩

theorem spread_spec {w h : Nat} (source : Nat → Nat → Nat × Nat) (columns : List Nat) : ∀ (rows : List Nat) (p : Plane), p.Sized w h →
    (∀ c ∈ columns, ∀ r ∈ rows, c < w ∧ r < h ∧ (source c r).1 < w ∧ (source c r).2 < h) → (∀ r ∈ rows, r < h) →
    (∀ c ∈ columns, ∀ r ∈ rows, ¬ ((source c r).1 ∈ columns ∧ (source c r).2 ∈ rows)) →
    ∃ q, p.spread rows columns source = some q ∧ q.Sized w h ∧
      ∀ u v, u < w → v < h → q.px u v = if v ∈ rows ∧ u ∈ columns then p.px (source u v).1 (source u v).2 else p.px u v := by
  intro rows
  induction rows with
  | nil => intro p hp _ _ _; exact ⟨p, rfl, hp, fun u v _ _ => by simp⟩
  | cons r rest ih =>
    intro p hp hin hr hout
    obtain ⟨p1, a1, a2, a3⟩ := spreadRow_spec (hr r List.mem_cons_self) (fun c => source c r) columns p hp
      (fun c hc => ⟨(hin c hc r List.mem_cons_self).1, (hin c hc r List.mem_cons_self).2.2⟩)
      (fun c hc he hm => hout c hc r List.mem_cons_self ⟨hm, by rw [he]; exact List.mem_cons_self⟩)
    obtain ⟨q, q1, q2, q3⟩ := ih p1 a2 (fun c hc x hx => hin c hc x (List.mem_cons_of_mem _ hx)) (fun x hx => hr x (List.mem_cons_of_mem _ hx))
      (fun c hc x hx he => hout c hc x (List.mem_cons_of_mem _ hx) ⟨he.1, List.mem_cons_of_mem _ he.2⟩)
    refine ⟨q, ?_, q2, fun u v hu hv => ?_⟩
    · unfold Plane.spread at q1 ⊢
      rw [List.foldlM_cons, a1]
      exact q1
    · rw [q3 u v hu hv]
      by_cases h1 : v ∈ rest ∧ u ∈ columns
      · rw [if_pos h1, if_pos ⟨List.mem_cons_of_mem _ h1.1, h1.2⟩]
        have := hin u h1.2 v (List.mem_cons_of_mem _ h1.1)
        rw [a3 _ _ this.2.2.1 this.2.2.2, if_neg]
        rintro ⟨a, b⟩
        exact hout u h1.2 v (List.mem_cons_of_mem _ h1.1) ⟨b, by rw [a]; exact List.mem_cons_self⟩
      · rw [if_neg h1, a3 u v hu hv]
        by_cases h2 : v = r ∧ u ∈ columns
        · rw [if_pos h2, if_pos ⟨by rw [h2.1]; exact List.mem_cons_self, h2.2⟩, h2.1]
        · rw [if_neg h2, if_neg]
          rintro ⟨a, b⟩
          rcases List.mem_cons.1 a with a | a
          · exact h2 ⟨a, b⟩
          · exact h1 ⟨a, b⟩

/-- Every pixel outside of the display rectangle becomes the nearest one inside. -/
theorem edgeExtend_spec {w h dw dh : Nat} {p : Plane} (hp : p.Sized w h) (hw : 0 < dw ∧ dw ≤ w) (hh : 0 < dh ∧ dh ≤ h) :
    ∃ q, p.edgeExtend dw dh = .ok q ∧ q.Sized w h ∧ ∀ u v, u < w → v < h → q.px u v = p.px (min u (dw - 1)) (min v (dh - 1)) := by
  unfold Plane.edgeExtend
  rw [if_neg (by rw [hp.width, hp.height]; omega), hp.width]
  obtain ⟨p1, a1, a2, a3⟩ := spread_spec (fun _ row => (dw - 1, row)) (List.range' dw (w - dw)) (List.range dh) p hp
    (by simp only [List.mem_range'_1, List.mem_range]; intros; omega) (by simp only [List.mem_range]; intros; omega)
    (by simp only [List.mem_range'_1, List.mem_range]; intros; omega)
  obtain ⟨p2, b1, b2, b3⟩ := spread_spec (fun column _ => (column, dh - 1)) (List.range dw) (List.range' dh (h - dh)) p1 a2
    (by simp only [List.mem_range'_1, List.mem_range]; intros; omega) (by simp only [List.mem_range'_1]; intros; omega)
    (by simp only [List.mem_range'_1, List.mem_range]; intros; omega)
  obtain ⟨p3, c1, c2, c3⟩ := spread_spec (fun _ _ => (dw - 1, dh - 1)) (List.range' dw (w - dw)) (List.range' dh (h - dh)) p2 b2
    (by simp only [List.mem_range'_1]; intros; omega) (by simp only [List.mem_range'_1]; intros; omega)
    (by simp only [List.mem_range'_1]; intros; omega)
  refine ⟨p3, ?_, c2, fun u v hu hv => ?_⟩
  · rw [a1]
    simp only [Option.bind_eq_bind, Option.bind_some]
    rw [a2.height, b1]
    simp only [Option.bind_some]
    rw [b2.height, b2.width, c1]
    rfl
  · rw [c3 u v hu hv]
    simp only [List.mem_range'_1, List.mem_range] at a3 b3 c3 ⊢
    by_cases h1 : v < dh
    · rw [if_neg (by omega), b3 u v hu hv, if_neg (by omega), a3 u v hu hv]
      by_cases h2 : u < dw
      · rw [if_neg (by omega), Nat.min_eq_left (by omega), Nat.min_eq_left (by omega)]
      · rw [if_pos (by omega), Nat.min_eq_right (by omega), Nat.min_eq_left (by omega)]
    · by_cases h2 : u < dw
      · rw [if_neg (by omega), b3 u v hu hv, if_pos (by omega), a3 _ _ (by omega) (by omega), if_neg (by omega), Nat.min_eq_left (by omega), Nat.min_eq_right (by omega)]
      · rw [if_pos (by omega), b3 _ _ (by omega) (by omega), if_neg (by omega), a3 _ _ (by omega) (by omega), if_neg (by omega), Nat.min_eq_right (by omega),
          Nat.min_eq_right (by omega)]

/-! ### The displayed pixels -/

theorem flatMap_rows {m : Nat} (f : Nat → List UInt8) : ∀ n : Nat, (∀ r < n, (f r).length = m) →
    ((List.range n).flatMap f).length = n * m ∧ ∀ r < n, ∀ c < m, ((List.range n).flatMap f).getD (r * m + c) 0 = (f r).getD c 0 := by
  intro n
  induction n with
  | zero => intro _; exact ⟨by simp, fun r hr => absurd hr (by omega)⟩
  | succ n ih =>
    intro hf
    obtain ⟨h1, h2⟩ := ih fun r hr => hf r (by omega)
    rw [List.range_succ, List.flatMap_append, List.flatMap_singleton]
    refine ⟨by rw [List.length_append, h1, hf n (by omega), Nat.add_mul, Nat.one_mul], fun r hr c hc => ?_⟩
    by_cases hrn : r < n
    · have hlt : r * m + c < n * m := by
        have : (r + 1) * m ≤ n * m := Nat.mul_le_mul_right _ hrn
        rw [Nat.add_mul, Nat.one_mul] at this
        omega
      rw [← h2 r hrn c hc]
      simp only [List.getD_eq_getElem?_getD]
      rw [List.getElem?_append_left (by omega)]
    · obtain rfl : r = n := by omega
      simp only [List.getD_eq_getElem?_getD]
      rw [List.getElem?_append_right (by omega), h1, Nat.add_sub_cancel_left]

theorem displayed_spec {w h dw dh : Nat} {p : Plane} (hp : p.Sized w h) (hw : dw ≤ w) (hh : dh ≤ h) :
    (p.displayed dw dh).length = dh * dw ∧ ∀ u v, u < dw → v < dh → (p.displayed dw dh).getD (v * dw + u) 0 = p.px u v := by
  obtain ⟨hf, rfl, rfl⟩ := hp
  have hslot : ∀ row < dh, p.slot 0 row = row * p.width := fun row hr => by rw [Grid.slot_eq hf.small hf.width (by omega), Nat.add_zero]
  have hle : ∀ row < dh, row * p.width + p.width ≤ p.cells.length := by
    intro row hr
    rw [hf.cells]
    have : (row + 1) * p.width ≤ p.height * p.width := Nat.mul_le_mul_right _ (by omega)
    rw [Nat.add_mul, Nat.one_mul, Nat.mul_comm p.height] at this
    exact this
  obtain ⟨h1, h2⟩ := flatMap_rows (m := dw) (fun row => (p.cells.drop (p.slot 0 row)).take dw) dh fun row hr => by
    have := hle row hr
    rw [hslot row hr, List.length_take, List.length_drop]
    omega
  refine ⟨h1, fun u v hu hv => ?_⟩
  unfold Plane.displayed
  rw [h2 v hv u hu, hslot v hv]
  unfold Plane.px
  rw [if_pos (by omega)]
  simp only [List.getD_eq_getElem?_getD, List.getElem?_take, if_pos hu, List.getElem?_drop]

end Alfalfa
