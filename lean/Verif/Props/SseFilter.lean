import Verif.Proof.SseFilterVertical

/-! C85: the loop filter in vector code is the one in portable code. -/

namespace Alfalfa

open LoopFilterSpec Sse

theorem Raster.Shows.unique {r s t : Raster} {g : Nat → (Nat → Nat → UInt8) → Nat → Nat → UInt8} (h : r.Shows s g) (h' : r.Shows t g) : s = t := by
  have one : ∀ {p q q' : Plane} {img : Nat → Nat → UInt8}, p.Shows q img → p.Shows q' img → q = q' := fun a b =>
    Plane.ext_px a.full b.full (a.width.trans b.width.symm) (a.height.trans b.height.symm) fun _ _ _ _ => by rw [a.px, b.px]
  obtain ⟨sw, sh, sy, su, sv⟩ := s
  obtain ⟨tw, th, ty, tu, tv⟩ := t
  have e1 : sw = tw := h.displayWidth.trans h'.displayWidth.symm
  have e2 : sh = th := h.displayHeight.trans h'.displayHeight.symm
  have e3 : sy = ty := one h.y h'.y
  have e4 : su = tu := one h.u h'.u
  have e5 : sv = tv := one h.v h'.v
  rw [e1, e2, e3, e4, e5]

/-- Both ways of one step show the same. -/
theorem sseOnPlanes_eq {column row : Nat} {r : Raster} (h : r.Has column row) {g : Nat → Nat → Nat → Plane → Option Plane} {s : Nat → (Nat → Nat → UInt8) → Nat → Nat → UInt8}
    (hg : ∀ n (p : Plane), n = 16 ∨ n = 8 → p.Full → n * column + n ≤ p.width → n * row + n ≤ p.height →
      ∃ q : Plane, g n column row p = some q ∧ p.Shows q (s n p.px))
    {y : Int → Int → Plane → Option Plane} {uv : Int → Int → Int → Plane → Plane → Option (Plane × Plane)}
    (hy : ∃ q, y ((16 * row * r.y.width + 16 * column : Nat) : Int) r.y.width r.y = some q ∧ r.y.Shows q (s 16 r.y.px))
    (huv : ∃ q q', uv ((8 * row * r.u.width + 8 * column : Nat) : Int) ((8 * row * r.v.width + 8 * column : Nat) : Int) r.u.width r.u r.v = some (q, q') ∧
      r.u.Shows q (s 8 r.u.px) ∧ r.v.Shows q' (s 8 r.v.px)) :
    sseOnPlanes y uv column row r = onPlanes g column row r ∧ ∃ t, onPlanes g column row r = some t ∧ r.Shows t s := by
  obtain ⟨t, ht, hs⟩ := onPlanes_shows (s := s) hg h
  refine ⟨?_, t, ht, hs⟩
  obtain ⟨q, hq, hqs⟩ := hy
  obtain ⟨a, b, hab, has, hbs⟩ := huv
  have ay : blockAddress r.y 16 (16 * column) (16 * row) 0 0 = some ((16 * row * r.y.width + 16 * column : Nat) : Int) := by
    unfold blockAddress; rw [if_pos (by omega)]; exact Grid.address_eq h.y.1 (by have := h.y.2; omega) (by have := h.y.2; omega)
  have au : blockAddress r.u 8 (8 * column) (8 * row) 0 0 = some ((8 * row * r.u.width + 8 * column : Nat) : Int) := by
    unfold blockAddress; rw [if_pos (by omega)]; exact Grid.address_eq h.u.1 (by have := h.u.2; omega) (by have := h.u.2; omega)
  have av : blockAddress r.v 8 (8 * column) (8 * row) 0 0 = some ((8 * row * r.v.width + 8 * column : Nat) : Int) := by
    unfold blockAddress; rw [if_pos (by omega)]; exact Grid.address_eq h.v.1 (by have := h.v.2; omega) (by have := h.v.2; omega)
  have e : sseOnPlanes y uv column row r = some { r with y := q, u := a, v := b } := by
    unfold sseOnPlanes
    rw [ay, au, av]
    simp only [Option.bind_eq_bind, Option.bind_some, hq, hab, Option.pure_def]
  rw [e, ht]
  exact congrArg some (Raster.Shows.unique (r := r) (g := s) ⟨rfl, rfl, hqs, has, hbs⟩ hs)

/-- A step of the filter. -/
theorem stepIf_eq {c : Bool} {g g' : Raster → Option Raster} {r : Raster} {column row : Nat} (hr : r.Has column row) (hw : r.v.width = r.u.width)
    {s : Nat → (Nat → Nat → UInt8) → Nat → Nat → UInt8} (h : c = true → g' r = g r ∧ ∃ t, g r = some t ∧ r.Shows t s) :
    stepIf c g' r = stepIf c g r ∧ ∃ t, stepIf c g r = some t ∧ t.Has column row ∧ t.v.width = t.u.width := by
  cases c
  · exact ⟨rfl, r, rfl, hr, hw⟩
  · obtain ⟨e, t, ht, hs⟩ := h rfl
    exact ⟨e, t, ht, hs.has hr, by rw [hs.v.width, hs.u.width, hw]⟩

theorem sseApply_eq {f : LoopFilter} (hf : f.Fits) (xmm5 : Reg) (skip : Bool) {column row : Nat} {r : Raster} (hr : r.Has column row) (hw : r.v.width = r.u.width) :
    f.sseApply xmm5 skip column row r = f.apply skip column row r := by
  have m16 : (List.range 16).filter (fun k => 0 < k ∧ 4 ∣ k) = [4, 8, 12] := by decide
  have m8 : (List.range 8).filter (fun k => 0 < k ∧ 4 ∣ k) = [4] := by decide
  obtain ⟨e1, r1, h1, hr1, hw1⟩ := stepIf_eq (c := decide (column > 0)) (g := onPlanes (filterMbVertical f) column row)
    (g' := sseOnPlanes (sseMbVertical f) (sseMbVerticalUv f) column row) hr hw
    (s := fun n => acrossVertical (macroblock f.interior f.macroblockLimit f.hevThreshold) n (n * column) (n * row)) fun hc => by
      have hc := of_decide_eq_true hc
      have ⟨⟨y1, y2, y3⟩, ⟨u1, u2, u3⟩, ⟨v1, v2, v3⟩⟩ := hr
      refine sseOnPlanes_eq hr (fun n p hn hp hx hy => filterMbVertical_shows hp hn hx hy hc) ?_ ?_
      · have := sseMbVertical_shows hf y1 (t := 16 * column - 4) (y := 16 * row) (src := ((16 * row * r.y.width + 16 * column : Nat) : Int))
          (by rw [show 16 * column - 4 + 4 = 16 * column by omega]) (by omega) (by omega)
        rwa [show 16 * column - 4 + 4 = 16 * column by omega] at this
      · have := sseMbVerticalUv_shows hf u1 v1 hw (t := 8 * column - 4) (y := 8 * row) (t' := 8 * column - 4) (y' := 8 * row)
          (src := ((8 * row * r.u.width + 8 * column : Nat) : Int)) (src' := ((8 * row * r.v.width + 8 * column : Nat) : Int))
          (by rw [show 8 * column - 4 + 4 = 8 * column by omega]) (by rw [hw, show 8 * column - 4 + 4 = 8 * column by omega]) (by omega) (by omega) (by omega) (by omega)
        rwa [show 8 * column - 4 + 4 = 8 * column by omega] at this
  obtain ⟨e2, r2, h2, hr2, hw2⟩ := stepIf_eq (c := !skip) (g := onPlanes (filterSbVertical f) column row)
    (g' := sseOnPlanes (sseSbVertical f) (fun u v stride => sseSbVerticalUv f (u + 4) (v + 4) stride xmm5) column row) hr1 hw1
    (s := fun n img => ((List.range n).filter fun k => 0 < k ∧ 4 ∣ k).foldl
        (fun img k => acrossVertical (subblock f.interior f.subblockLimit f.hevThreshold) n (n * column + k) (n * row) img) img) fun hc => by
      have ⟨⟨y1, y2, y3⟩, ⟨u1, u2, u3⟩, ⟨v1, v2, v3⟩⟩ := hr1
      refine sseOnPlanes_eq hr1 (fun n p hn hp hx hy => filterSbVertical_shows hp hn hx hy) ?_ ?_
      · rw [m16]
        exact sseSbVertical_shows hf y1 rfl y2 y3
      · rw [m8]
        exact sseSbVerticalUv_shows xmm5 hf u1 v1 hw1 (by push_cast; ring) (by rw [hw1]; push_cast; ring) (by omega) (by omega) (by omega) (by omega)
  obtain ⟨e3, r3, h3, hr3, hw3⟩ := stepIf_eq (c := decide (row > 0)) (g := onPlanes (filterMbHorizontal f) column row)
    (g' := sseOnPlanes (sseMbHorizontal f) (sseMbHorizontalUv f) column row) hr2 hw2
    (s := fun n => acrossHorizontal (macroblock f.interior f.macroblockLimit f.hevThreshold) n (n * column) (n * row)) fun hc => by
      have hc := of_decide_eq_true hc
      have ⟨⟨y1, y2, y3⟩, ⟨u1, u2, u3⟩, ⟨v1, v2, v3⟩⟩ := hr2
      refine sseOnPlanes_eq hr2 (fun n p hn hp hx hy => filterMbHorizontal_shows hp hn hx hy hc) ?_ ?_
      · have := sseMbHorizontal_shows hf y1 (t := 16 * row - 4) (x := 16 * column) (src := ((16 * row * r2.y.width + 16 * column : Nat) : Int))
          (by rw [show 16 * row - 4 + 4 = 16 * row by omega]) (by omega) (by omega)
        rwa [show 16 * row - 4 + 4 = 16 * row by omega] at this
      · have := sseMbHorizontalUv_shows hf u1 v1 hw2 (t := 8 * row - 4) (x := 8 * column) (t' := 8 * row - 4) (x' := 8 * column)
          (src := ((8 * row * r2.u.width + 8 * column : Nat) : Int)) (src' := ((8 * row * r2.v.width + 8 * column : Nat) : Int))
          (by rw [show 8 * row - 4 + 4 = 8 * row by omega]) (by rw [hw2, show 8 * row - 4 + 4 = 8 * row by omega]) (by omega) (by omega) (by omega) (by omega)
        rwa [show 8 * row - 4 + 4 = 8 * row by omega] at this
  obtain ⟨e4, r4, h4, hr4, hw4⟩ := stepIf_eq (c := !skip) (g := onPlanes (filterSbHorizontal f) column row)
    (g' := sseOnPlanes (sseSbHorizontal f) (fun u v stride => sseSbHorizontalUv f (u + 4 * stride) (v + 4 * stride) stride xmm5) column row) hr3 hw3
    (s := fun n img => ((List.range n).filter fun k => 0 < k ∧ 4 ∣ k).foldl
        (fun img k => acrossHorizontal (subblock f.interior f.subblockLimit f.hevThreshold) n (n * column) (n * row + k) img) img) fun hc => by
      have ⟨⟨y1, y2, y3⟩, ⟨u1, u2, u3⟩, ⟨v1, v2, v3⟩⟩ := hr3
      refine sseOnPlanes_eq hr3 (fun n p hn hp hx hy => filterSbHorizontal_shows hp hn hx hy) ?_ ?_
      · rw [m16]
        exact sseSbHorizontal_shows hf y1 rfl y2 y3
      · rw [m8]
        exact sseSbHorizontalUv_shows xmm5 hf u1 v1 hw3 (by push_cast; ring) (by rw [hw3]; push_cast; ring) (by omega) (by omega) (by omega) (by omega)
  unfold LoopFilter.sseApply LoopFilter.apply
  rw [e1, h1]
  simp only [Option.bind_eq_bind, Option.bind_some]
  rw [e2, h2]
  simp only [Option.bind_some]
  rw [e3, h3]
  simp only [Option.bind_some]
  rw [e4]

/-- **C85** (loop filter): for any filter level, any sharpness that a frame can have, and any macroblock of any picture, the vector code and the portable code of the loop
filter change the picture in the same way. `xmm5` is a register that the code reads without setting it: its contents do not matter. -/
theorem C85_loopFilter (xmm5 : Reg) (params : FilterParameters) (hs : params.sharpness ≤ 7) (keyFrame skip : Bool) {column row : Nat} {r : Raster} (hr : r.Has column row)
    (hw : r.v.width = r.u.width) :
    (params.filter keyFrame).sseApply xmm5 skip column row r = (params.filter keyFrame).apply skip column row r := by
  refine sseApply_eq ?_ xmm5 skip hr hw
  rw [filter_eq params keyFrame hs]
  have h1 := limit63_le params.level
  have h2 := interior_le (sharpness := params.sharpness) h1
  refine ⟨h2.2, ?_, ?_, ?_⟩
  · dsimp only; omega
  · dsimp only; omega
  · dsimp only
    unfold threshold
    repeat' split
    all_goals omega

example : let r : Raster := ⟨32, 16, ⟨32, 16, (List.range 512).map fun i => if i % 32 < 16 then 100 else 112⟩, ⟨16, 8, List.replicate 128 90⟩, ⟨16, 8, List.replicate 128 90⟩⟩
    r.Has 1 0 ∧ ((FilterParameters.filter ⟨false, 40, 0⟩ true).sseApply (fun _ => 77) true 1 0 r).bind (fun q => q.y.at? 15 10) = some 105 := by
  intro r
  have hr : r.Has 1 0 := ⟨⟨⟨by decide, by decide, by decide, by decide +kernel⟩, by decide, by decide⟩, ⟨⟨by decide, by decide, by decide, by decide +kernel⟩, by decide, by decide⟩,
    ⟨⟨by decide, by decide, by decide, by decide +kernel⟩, by decide, by decide⟩⟩
  refine ⟨hr, ?_⟩
  rw [C85_loopFilter _ ⟨false, 40, 0⟩ (by decide) true true hr rfl]
  decide +kernel

end Alfalfa
