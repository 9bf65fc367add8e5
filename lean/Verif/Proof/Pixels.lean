import Verif.Model.Pixels
import Verif.Spec.Pixels
import Verif.Props.Grid

/-! Lemmas about pixel access. -/

namespace Alfalfa

theorem Plane.px_eq {p : Plane} (hp : p.Full) {x y : Nat} (hx : x < p.width) (hy : y < p.height) : p.at? x y = some (p.px x y) := by
  rw [Grid.at?_eq hp hx hy, Plane.px, if_pos hx, List.getD_eq_getElem?_getD, List.getElem?_eq_getElem]; rfl

theorem Plane.ext_px {p q : Plane} (hp : p.Full) (hq : q.Full) (hw : p.width = q.width) (hh : p.height = q.height)
    (h : ∀ x y, x < p.width → y < p.height → p.px x y = q.px x y) : p = q := by
  refine Grid.ext hw hh (List.ext_getElem (by rw [hp.cells, hq.cells, hw, hh]) fun k h1 h2 => ?_)
  obtain ⟨c, r, hc, hr, hk⟩ := (C48_addressing hp).2.2.2 k h1
  rw [Grid.slot_eq hp.small hc hr] at hk
  have e1 := Grid.at?_eq hp hc hr
  have e2 := Grid.at?_eq hq (hw ▸ hc) (hh ▸ hr)
  rw [Plane.px_eq hp hc hr] at e1
  rw [Plane.px_eq hq (hw ▸ hc) (hh ▸ hr), ← h c r hc hr] at e2
  injection e1 with e1; injection e2 with e2
  subst hk
  rw [← e1, e2]; congr 2; rw [hw]

theorem allSome_iff {T : Type} {n : Nat} {f : Fin n → Option T} {g : Fin n → T} : allSome f = some g ↔ ∀ i, f i = some (g i) := by
  unfold allSome
  constructor
  · intro h i
    split at h
    · next hs => injection h with h; rw [← h]; simp
    · cases h
  · intro h
    have hs : ∀ i, (f i).isSome = true := fun i => by rw [h i]; rfl
    rw [dif_pos hs]
    congr 1; funext i
    simp [h i]

theorem allSome_some {T : Type} {n : Nat} {f : Fin n → Option T} {g : Fin n → T} (h : ∀ i, f i = some (g i)) : allSome f = some g :=
  allSome_iff.2 h

theorem Grid.address_eq {T : Type} {g : Grid T} (hg : g.Full) {x y : Nat} (hx : x < g.width) (hy : y < g.height) :
    g.address x y = some ((y * g.width + x : Nat) : Int) := by
  rw [Grid.address, Grid.maybeAt, if_pos ⟨hx, hy⟩, Grid.slot_eq hg.small hx hy]; rfl

/-- What a pointer reads that is in the row `y`, at column `x`. -/
theorem Plane.load_eq {p : Plane} (hp : p.Full) {x y : Nat} {i : Int} (hx : x < p.width) (hy : y < p.height)
    (hi : i = ((y * p.width + x : Nat) : Int)) : p.load i = some (p.px x y) := by
  rw [Grid.load, if_pos (by omega), hi, ← Plane.px_eq hp hx hy, Grid.at?_eq hp hx hy, ← List.getElem?_eq_getElem]
  rfl

theorem Plane.store_eq {p : Plane} (hp : p.Full) {x y : Nat} {i : Int} (v : UInt8) (hx : x < p.width) (hy : y < p.height)
    (hi : i = ((y * p.width + x : Nat) : Int)) : p.store i v = p.put x y v := by
  have e : i.toNat = y * p.width + x := by omega
  have hl : y * p.width + x < p.cells.length := by rw [hp.cells]; exact slot_lt hx hy
  rw [Grid.store, if_pos ⟨by omega, by rw [e]; exact hl⟩, Grid.put, Grid.slot_eq hp.small hx hy, if_pos ⟨hx, hy, hl⟩, e]

theorem Plane.put_spec {p : Plane} (hp : p.Full) {x y : Nat} (v : UInt8) (hx : x < p.width) (hy : y < p.height) :
    ∃ q : Plane, p.put x y v = some q ∧ q.Full ∧ q.width = p.width ∧ q.height = p.height ∧
      ∀ u w, u < p.width → w < p.height → q.px u w = if u = x ∧ w = y then v else p.px u w := by
  have h := C48_write hp x y v
  obtain ⟨q, hq⟩ := Option.isSome_iff_exists.1 (h.1.2 ⟨hx, hy⟩)
  obtain ⟨hf, hw, hh, hv, ho⟩ := h.2 q hq
  refine ⟨q, hq, hf, hw, hh, fun u w hu hw' => ?_⟩
  have e1 := Plane.px_eq hf (hw ▸ hu) (hh ▸ hw')
  split
  · next he => obtain ⟨rfl, rfl⟩ := he; rw [e1] at hv; injection hv
  · next he =>
    have := ho u w (by rintro h; injection h with h1 h2; exact he ⟨h1, h2⟩)
    rw [e1, Plane.px_eq hp hu hw'] at this
    injection this

/-- Writing one row of a square. -/
theorem Plane.putRow_spec {n : Nat} (f : Fin n → UInt8) {x y w h : Nat} (hx : x + n ≤ w) (hy : y < h) :
    ∀ (l : List (Fin n)) (p : Plane), p.Full → p.width = w → p.height = h → l.Nodup →
      ∃ q : Plane, l.foldlM (fun p (c : Fin n) => p.put (x + c) y (f c)) p = some q ∧ q.Full ∧ q.width = w ∧ q.height = h ∧
        ∀ u v, u < w → v < h → q.px u v = if hh : v = y ∧ x ≤ u ∧ u < x + n then
          (if (⟨u - x, by omega⟩ : Fin n) ∈ l then f ⟨u - x, by omega⟩ else p.px u v) else p.px u v
  | [], p, hp, hw, hh, _ => ⟨p, rfl, hp, hw, hh, fun u v _ _ => by simp⟩
  | c :: l, p, hp, hw, hh, hn => by
    have hc := c.2
    obtain ⟨q, hq, hqf, hqw, hqh, hqp⟩ := Plane.put_spec hp (x := x + c) (y := y) (f c) (by omega) (by omega)
    obtain ⟨s, hs, hsf, hsw, hsh, hsp⟩ := Plane.putRow_spec f hx hy l q hqf (by omega) (by omega) (List.nodup_cons.1 hn).2
    refine ⟨s, by rw [List.foldlM_cons, hq]; exact hs, hsf, hsw, hsh, fun u v hu hv => ?_⟩
    rw [hsp u v hu hv]
    by_cases hin : v = y ∧ x ≤ u ∧ u < x + n
    · rw [dif_pos hin, dif_pos hin]
      by_cases hm : (⟨u - x, by omega⟩ : Fin n) ∈ l
      · rw [if_pos hm, if_pos (List.mem_cons_of_mem _ hm)]
      · rw [if_neg hm, hqp u v (by omega) (by omega)]
        by_cases hcu : u = x + c
        · have e : (⟨u - x, by omega⟩ : Fin n) = c := Fin.ext (by show u - x = c.val; omega)
          rw [if_pos ⟨hcu, hin.1⟩, if_pos (by rw [e]; exact List.mem_cons_self), e]
        · have e : (⟨u - x, by omega⟩ : Fin n) ≠ c := fun h => hcu (by have := congrArg Fin.val h; dsimp only at this; omega)
          rw [if_neg (fun h => hcu h.1), if_neg (fun h => by rcases List.mem_cons.1 h with h | h; exact e h; exact hm h)]
    · rw [dif_neg hin, dif_neg hin, hqp u v (by omega) (by omega), if_neg (fun h => hin ⟨h.2, by omega, by omega⟩)]

theorem Plane.putRows_spec {n : Nat} (f : Square n) {x y w h : Nat} (hx : x + n ≤ w) (hy : y + n ≤ h) :
    ∀ (l : List (Fin n)) (p : Plane), p.Full → p.width = w → p.height = h → l.Nodup →
      ∃ q : Plane, l.foldlM (fun p (r : Fin n) => (List.finRange n).foldlM (fun p (c : Fin n) => p.put (x + c) (y + r) (f c r)) p) p = some q ∧
        q.Full ∧ q.width = w ∧ q.height = h ∧
        ∀ u v, u < w → v < h → q.px u v = if hh : (y ≤ v ∧ v < y + n) ∧ x ≤ u ∧ u < x + n then
          (if (⟨v - y, by omega⟩ : Fin n) ∈ l then f ⟨u - x, by omega⟩ ⟨v - y, by omega⟩ else p.px u v) else p.px u v
  | [], p, hp, hw, hh, _ => ⟨p, rfl, hp, hw, hh, fun u v _ _ => by simp⟩
  | r :: l, p, hp, hw, hh, hn => by
    have hr := r.2
    obtain ⟨q, hq, hqf, hqw, hqh, hqp⟩ := Plane.putRow_spec (fun c => f c r) (y := y + r) hx (by omega) (List.finRange n) p hp hw hh
      (List.nodup_finRange n)
    obtain ⟨s, hs, hsf, hsw, hsh, hsp⟩ := Plane.putRows_spec f hx hy l q hqf (by omega) (by omega) (List.nodup_cons.1 hn).2
    refine ⟨s, by rw [List.foldlM_cons, hq]; exact hs, hsf, hsw, hsh, fun u v hu hv => ?_⟩
    rw [hsp u v hu hv]
    by_cases hin : (y ≤ v ∧ v < y + n) ∧ x ≤ u ∧ u < x + n
    · rw [dif_pos hin, dif_pos hin]
      by_cases hm : (⟨v - y, by omega⟩ : Fin n) ∈ l
      · rw [if_pos hm, if_pos (List.mem_cons_of_mem _ hm)]
      · rw [if_neg hm, hqp u v (by omega) (by omega)]
        by_cases hcu : v = y + r
        · have e : (⟨v - y, by omega⟩ : Fin n) = r := Fin.ext (by show v - y = r.val; omega)
          rw [dif_pos ⟨hcu, hin.2⟩, if_pos (List.mem_finRange _), if_pos (by rw [e]; exact List.mem_cons_self), e]
        · have e : (⟨v - y, by omega⟩ : Fin n) ≠ r := fun h => hcu (by have := congrArg Fin.val h; dsimp only at this; omega)
          rw [dif_neg (fun h => hcu h.1), if_neg (fun h => by rcases List.mem_cons.1 h with h | h; exact e h; exact hm h)]
    · rw [dif_neg hin, dif_neg hin, hqp u v (by omega) (by omega), dif_neg (fun h => hin ⟨by omega, h.2⟩)]

/-- Writing a square succeeds exactly when it fits, and then changes its pixels and no other. -/
theorem Plane.putSquare_spec {n : Nat} {p : Plane} (hp : p.Full) {x y : Nat} (f : Square n) (hx : x + n ≤ p.width) (hy : y + n ≤ p.height) :
    ∃ q : Plane, p.putSquare x y f = some q ∧ p.Painted q x y f := by
  obtain ⟨q, hq, hqf, hqw, hqh, hqp⟩ := Plane.putRows_spec f hx hy (List.finRange n) p hp rfl rfl (List.nodup_finRange n)
  refine ⟨q, ?_, hqf, hqw, hqh, fun c r => ?_, fun u v hu hv ho => ?_⟩
  · unfold Plane.putSquare Grid.subRange
    rw [if_pos ⟨hx, hy⟩]; exact hq
  · have hc := c.2
    have hr := r.2
    rw [hqp (x + c) (y + r) (by omega) (by omega), dif_pos (by omega), if_pos (List.mem_finRange _)]
    congr 1 <;> (apply Fin.ext; dsimp only; omega)
  · rw [hqp u v hu hv, dif_neg (by omega)]

/-- A painted square is determined by what is painted. -/
theorem Plane.Painted.unique {n : Nat} {p q q' : Plane} {x y : Nat} {f : Square n} (h : p.Painted q x y f) (h' : p.Painted q' x y f) :
    q = q' := by
  refine Plane.ext_px h.full h'.full (h.width.trans h'.width.symm) (h.height.trans h'.height.symm) fun u v hu hv => ?_
  rw [h.width] at hu
  rw [h.height] at hv
  by_cases ho : u < x ∨ x + n ≤ u ∨ v < y ∨ y + n ≤ v
  · rw [h.outside u v hu hv ho, h'.outside u v hu hv ho]
  · obtain ⟨c, hc⟩ : ∃ c : Fin n, u = x + c := ⟨⟨u - x, by omega⟩, by dsimp only; omega⟩
    obtain ⟨r, hr⟩ : ∃ r : Fin n, v = y + r := ⟨⟨v - y, by omega⟩, by dsimp only; omega⟩
    rw [hc, hr, h.inside, h'.inside]

theorem Plane.getSquare_spec {n : Nat} {p : Plane} (hp : p.Full) {x y : Nat} (hx : x + n ≤ p.width) (hy : y + n ≤ p.height) :
    p.getSquare n x y = some fun (c r : Fin n) => p.px (x + c) (y + r) := by
  unfold Plane.getSquare Grid.subRange
  rw [if_pos ⟨hx, hy⟩]
  exact allSome_some fun c => allSome_some fun r => Plane.px_eq hp (by omega) (by omega)

end Alfalfa
