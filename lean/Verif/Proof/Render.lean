import Verif.Model.Render
import Verif.Spec.Render
import Verif.Props.Intra
import Verif.Props.Inter
import Verif.Props.Transform
import Verif.Proof.LoopFilter
import Verif.Props.Frame

/-! The reconstruction of macroblocks and frames satisfies the equations of Spec/Render. -/

namespace Alfalfa

open IntraSpec RenderSpec

/-! ### Loops over regions -/

/-- A loop of which the step `k` changes only the region `A k`: each step is made between two states that agree with the first and
the last one outside of the earlier and of the later regions. -/
theorem fold_steps {σ P β ι : Type} [LT ι] (obs : σ → P → β) (ok : σ → Prop) (A : ι → P → Prop) (R : ι → σ → σ → Prop)
    (step : σ → ι → Option σ) : ∀ (l : List ι), l.Pairwise (· < ·) →
    (∀ s k, k ∈ l → ok s → ∃ t, step s k = some t ∧ ok t ∧ R k s t ∧ ∀ x, ¬ A k x → obs t x = obs s x) → ∀ s, ok s →
    ∃ t, l.foldlM step s = some t ∧ ok t ∧ (∀ x, (∀ j ∈ l, ¬ A j x) → obs t x = obs s x) ∧
      ∀ k ∈ l, ∃ s1 s2, ok s1 ∧ ok s2 ∧ R k s1 s2 ∧ (∀ x, ¬ A k x → obs s2 x = obs s1 x) ∧
        (∀ x, (∀ j ∈ l, j < k → ¬ A j x) → obs s1 x = obs s x) ∧ (∀ x, (∀ j ∈ l, k < j → ¬ A j x) → obs t x = obs s2 x)
  | [], _, _, s, hs => ⟨s, rfl, hs, fun _ _ => rfl, fun _ hk => absurd hk List.not_mem_nil⟩
  | a :: l, hl, h, s, hs => by
    obtain ⟨s', e1, e2, e3, e4⟩ := h s a List.mem_cons_self hs
    obtain ⟨ha, hl'⟩ := List.pairwise_cons.1 hl
    obtain ⟨t, f1, f2, f3, f4⟩ := fold_steps obs ok A R step l hl' (fun s k hk => h s k (List.mem_cons_of_mem _ hk)) s' e2
    refine ⟨t, ?_, f2, fun x hx => ?_, fun k hk => ?_⟩
    · rw [List.foldlM_cons, e1]; exact f1
    · rw [f3 x fun j hj => hx j (List.mem_cons_of_mem _ hj), e4 x (hx a List.mem_cons_self)]
    · rcases List.mem_cons.1 hk with rfl | hk
      · exact ⟨s, s', hs, e2, e3, e4, fun _ _ => rfl, fun x hx => f3 x fun j hj => hx j (List.mem_cons_of_mem _ hj) (ha j hj)⟩
      · obtain ⟨s1, s2, g1, g2, g3, g4, g5, g6⟩ := f4 k hk
        refine ⟨s1, s2, g1, g2, g3, g4, fun x hx => ?_, fun x hx => g6 x fun j hj => hx j (List.mem_cons_of_mem _ hj)⟩
        rw [g5 x fun j hj => hx j (List.mem_cons_of_mem _ hj), e4 x (hx a List.mem_cons_self (ha k hk))]

theorem finRange_pairwise (n : Nat) : (List.finRange n).Pairwise (· < ·) := by
  have := List.pairwise_lt_range (n := n)
  rw [← List.map_coe_finRange_eq_range, List.pairwise_map] at this
  exact this

/-! ### Planes -/

/-- A complete plane of the given size. -/
structure Plane.Sized (w h : Nat) (p : Plane) : Prop where
  full : p.Full
  width : p.width = w
  height : p.height = h

/-- Two planes of one size that agree where `S` holds and inside of the picture agree there anyway. -/
theorem Plane.Sized.px_congr {w h : Nat} {p q : Plane} (hp : p.Sized w h) (hq : q.Sized w h) {u v : Nat}
    (e : u < w → v < h → q.px u v = p.px u v) : q.px u v = p.px u v := by
  by_cases hu : u < w
  · by_cases hv : v < h
    · exact e hu hv
    · rw [Plane.px_outside hq.full (by rw [hq.width, hq.height]; omega), Plane.px_outside hp.full (by rw [hp.width, hp.height]; omega)]
  · rw [Plane.px_outside hq.full (by rw [hq.width, hq.height]; omega), Plane.px_outside hp.full (by rw [hp.width, hp.height]; omega)]

theorem Plane.Painted.sized {n w h : Nat} {p q : Plane} {x y : Nat} {f : Square n} (hp : p.Sized w h) (e : p.Painted q x y f) :
    q.Sized w h := ⟨e.full, e.width.trans hp.width, e.height.trans hp.height⟩

/-- Painting the block `a`, `b` of `n` by `n` pixels changes no pixel of another block. -/
theorem Plane.Painted.elsewhere {n w h : Nat} {p q : Plane} {a b : Nat} {f : Square n} (hp : p.Sized w h)
    (e : p.Painted q (n * a) (n * b) f) {u v : Nat} (hne : ¬ (u / n = a ∧ v / n = b)) : q.px u v = p.px u v := by
  refine hp.px_congr (e.sized hp) fun hu hv => e.outside u v (hp.width ▸ hu) (hp.height ▸ hv) ?_
  by_contra hc
  apply hne
  constructor
  · exact Nat.div_eq_of_lt_le (by rw [Nat.mul_comm]; omega) (by rw [Nat.succ_mul, Nat.mul_comm]; omega)
  · exact Nat.div_eq_of_lt_le (by rw [Nat.mul_comm]; omega) (by rw [Nat.succ_mul, Nat.mul_comm]; omega)

/-! ### Edges -/

/-- The pixels from which the macroblock at `column`, `row` of a plane with macroblocks of `n` pixels may be predicted: those of
earlier macroblocks. -/
def Before (n column row u v : Nat) : Prop := v / n < row ∨ (v / n = row ∧ u / n < column)

theorem framed_congr {p q : Plane} {x y : Int} (h : 0 ≤ y → 0 ≤ x → p.px x.toNat y.toNat = q.px x.toNat y.toNat) : framed p x y = framed q x y := by
  unfold framed
  split
  · rfl
  · split
    · rfl
    · rw [h (by omega) (by omega)]

theorem edge_congr {n : Nat} (hn : n = 16 ∨ n = 8) {p q : Plane} {column row : Nat} (h : ∀ u v, Before n column row u v → p.px u v = q.px u v)
    {i : Int} (hi : -n ≤ i ∧ i ≤ n) : edge p n column row i = edge q n column row i := by
  unfold edge
  split
  · refine framed_congr fun hy hx => h _ _ ?_
    unfold Before; rcases hn with rfl | rfl <;> omega
  · refine framed_congr fun hy hx => h _ _ ?_
    unfold Before; rcases hn with rfl | rfl <;> omega

theorem whole_congr {n : Nat} (mode : Nat) (above left : Bool) {e e' : Int → Nat} (h : ∀ i : Int, -n ≤ i ∧ i ≤ n → e i = e' i)
    {c r : Nat} (hc : c < n) (hr : r < n) : whole n mode above left e c r = whole n mode above left e' c r := by
  have ha : ∑ i : Fin n, e (1 + i) = ∑ i : Fin n, e' (1 + i) := Finset.sum_congr rfl fun i _ => h _ (by omega)
  have hl : ∑ i : Fin n, e (-1 - i) = ∑ i : Fin n, e' (-1 - i) := Finset.sum_congr rfl fun i _ => h _ (by omega)
  unfold whole mean
  rw [ha, hl, h (1 + c) (by omega), h (-1 - r) (by omega), h 0 (by omega)]

/-- The same for the 4x4 luma block `k` of a macroblock. -/
def Before4 (column row k u v : Nat) : Prop :=
  Before 16 column row u v ∨
    (v / 16 = row ∧ u / 16 = column ∧ (v / 4 < 4 * row + k / 4 ∨ (v / 4 = 4 * row + k / 4 ∧ u / 4 < 4 * column + k % 4)))

theorem edge4_congr {p q : Plane} (hw : p.width = q.width) {column row : Nat} (hc : 16 * column + 16 ≤ p.width) (k : Fin 16)
    (h : ∀ u v, Before4 column row k u v → p.px u v = q.px u v) {i : Int} (hi : -4 ≤ i ∧ i ≤ 8) :
    IntraSpec.edge4 p (4 * column + k.val % 4) (4 * row + k.val / 4) i = IntraSpec.edge4 q (4 * column + k.val % 4) (4 * row + k.val / 4) i := by
  have hk := k.2
  unfold IntraSpec.edge4 edge
  rw [hw] at *
  split
  · split
    · refine framed_congr fun hy hx => h _ _ ?_
      unfold Before4 Before; omega
    · refine framed_congr fun hy hx => h _ _ ?_
      unfold Before4 Before; omega
  · refine framed_congr fun hy hx => h _ _ ?_
    unfold Before4 Before
    split <;> rename_i h3 <;> simp only [h3, if_true, if_false] at hy hx ⊢ <;> omega

theorem sub_congr (mode : Nat) {e e' : Int → Nat} (h : ∀ i : Int, -4 ≤ i ∧ i ≤ 8 → e i = e' i) (c r : Nat) : sub mode e c r = sub mode e' c r := by
  have : (fun i : Int => e (max (-4) (min i 8))) = fun i => e' (max (-4) (min i 8)) := funext fun i => h _ (by omega)
  unfold sub
  rw [this]

/-! ### Loops over 4x4 blocks -/

/-- The pixel is in the 4x4 block number `k` of the macroblock of `B` by `B` such blocks at `column`, `row`. -/
def InBlock (B column row k : Nat) (x : Nat × Nat) : Prop := x.1 / 4 = B * column + k % B ∧ x.2 / 4 = B * row + k / B

theorem InBlock.unique {B column row j k : Nat} {x : Nat × Nat} (hj : InBlock B column row j x) (hk : InBlock B column row k x) : j = k := by
  have h1 : j % B = k % B := by have := hj.1.symm.trans hk.1; omega
  have h2 : j / B = k / B := by have := hj.2.symm.trans hk.2; omega
  rw [← Nat.div_add_mod j B, ← Nat.div_add_mod k B, h1, h2]

theorem InBlock.inside {B column row k u v : Nat} (hB : 0 < B) (hk : k < B * B) (h : InBlock B column row k (u, v)) :
    u / (4 * B) = column ∧ v / (4 * B) = row := by
  obtain ⟨h1, h2⟩ := h
  have h3 := Nat.mod_lt k hB
  have h4 : k / B < B := Nat.div_lt_of_lt_mul hk
  dsimp only at h1 h2
  rw [← Nat.div_div_eq_div_mul, ← Nat.div_div_eq_div_mul, h1, h2, Nat.mul_add_div hB, Nat.mul_add_div hB, Nat.div_eq_of_lt h3, Nat.div_eq_of_lt h4]
  exact ⟨rfl, rfl⟩

theorem inBlock_self (B column row k : Nat) (c r : Fin 4) : InBlock B column row k (4 * (B * column + k % B) + c, 4 * (B * row + k / B) + r) := by
  refine ⟨?_, ?_⟩ <;> dsimp only <;> omega

theorem blocks_steps {N B column row w h : Nat} (hB : 0 < B) (hN : N = B * B) {step : Plane → Fin N → Option Plane} {V : Plane → Fin N → Square 4}
    (hstep : ∀ (p : Plane) k, p.Sized w h → ∃ q, step p k = some q ∧
      p.Painted q (4 * (B * column + k.val % B)) (4 * (B * row + k.val / B)) (V p k)) {p : Plane} (hp : p.Sized w h) :
    ∃ t : Plane, (List.finRange N).foldlM step p = some t ∧ t.Sized w h ∧
      (∀ u v, ¬ (u / (4 * B) = column ∧ v / (4 * B) = row) → t.px u v = p.px u v) ∧
      ∀ k : Fin N, ∃ s : Plane, s.Sized w h ∧
        (∀ c r : Fin 4, t.px (4 * (B * column + k.val % B) + c) (4 * (B * row + k.val / B) + r) = V s k c r) ∧
        (∀ x : Nat × Nat, (∀ j, j < k → ¬ InBlock B column row j x) → s.px x.1 x.2 = p.px x.1 x.2) ∧
        (∀ x : Nat × Nat, (∀ j, k ≤ j → ¬ InBlock B column row j x) → t.px x.1 x.2 = s.px x.1 x.2) := by
  obtain ⟨t, h1, h2, h3, h4⟩ := fold_steps (fun (p : Plane) (x : Nat × Nat) => p.px x.1 x.2) (Plane.Sized w h)
    (fun (k : Fin N) => InBlock B column row k)
    (fun k s t => ∀ c r : Fin 4, t.px (4 * (B * column + k.val % B) + c) (4 * (B * row + k.val / B) + r) = V s k c r) step
    (List.finRange N) (finRange_pairwise N) (fun s k _ hs => by
      obtain ⟨q, e1, e2⟩ := hstep s k hs
      exact ⟨q, e1, e2.sized hs, e2.inside, fun x hx => e2.elsewhere hs hx⟩) p hp
  refine ⟨t, h1, h2, fun u v huv => h3 (u, v) fun j _ hj => huv (hj.inside hB (hN ▸ j.2)), fun k => ?_⟩
  obtain ⟨s1, s2, g1, g2, g3, g4, g5, g6⟩ := h4 k (List.mem_finRange k)
  refine ⟨s1, g1, fun c r => ?_, fun x hx => g5 x fun j _ => hx j, fun x hx => ?_⟩
  · rw [← g3 c r]
    exact g6 (_, _) fun j _ hj hm => absurd (hm.unique (inBlock_self B column row k c r)) (by have := Fin.lt_def.mp hj; omega)
  · rw [g6 x fun j _ hj => hx j (Fin.le_of_lt hj), g4 x (hx k (Fin.le_refl k))]

/-- What is left of the plane and what is in the macroblock of `n` by `n` pixels after a step on it. -/
structure Plane.Replaced (n column row : Nat) (p q : Plane) (f : Fin n → Fin n → UInt8) : Prop where
  sized : q.Sized p.width p.height
  outside : ∀ u v, ¬ (u / n = column ∧ v / n = row) → q.px u v = p.px u v
  inside : ∀ x y : Fin n, q.px (n * column + x) (n * row + y) = f x y

theorem Plane.Painted.replaced {n column row : Nat} {p q : Plane} {f : Square n} (hp : p.Full) (e : p.Painted q (n * column) (n * row) f) :
    p.Replaced n column row q f :=
  have hs : p.Sized p.width p.height := ⟨hp, rfl, rfl⟩
  ⟨e.sized hs, fun _ _ => e.elsewhere hs, e.inside⟩

theorem Plane.Replaced.trans {n column row : Nat} {p q t : Plane} {f g : Fin n → Fin n → UInt8} (h1 : p.Replaced n column row q f)
    (h2 : q.Replaced n column row t g) : p.Replaced n column row t g :=
  ⟨by have := h2.sized; rwa [h1.sized.width, h1.sized.height] at this, fun u v huv => by rw [h2.outside u v huv, h1.outside u v huv], h2.inside⟩

theorem px_block16 (column row : Nat) (x y : Fin 16) : 16 * column + x.val = 4 * (4 * column + (block16 x y).val % 4) + (in4 x).val ∧
    16 * row + y.val = 4 * (4 * row + (block16 x y).val / 4) + (in4 y).val := by
  unfold block16 in4; dsimp only; omega

theorem px_block8 (column row : Nat) (x y : Fin 8) : 8 * column + x.val = 4 * (2 * column + (block8 x y).val % 2) + (in4 x).val ∧
    8 * row + y.val = 4 * (2 * row + (block8 x y).val / 2) + (in4 y).val := by
  unfold block8 in4; dsimp only; omega

theorem block_bounds16 {w h column row : Nat} (hx : 16 * column + 16 ≤ w) (hy : 16 * row + 16 ≤ h) (k : Fin 16) :
    4 * (4 * column + k.val % 4) + 4 ≤ w ∧ 4 * (4 * row + k.val / 4) + 4 ≤ h := by omega

theorem block_bounds8 {w h column row : Nat} (hx : 8 * column + 8 ≤ w) (hy : 8 * row + 8 ≤ h) (k : Fin 4) :
    4 * (2 * column + k.val % 2) + 4 ≤ w ∧ 4 * (2 * row + k.val / 2) + 4 ≤ h := by omega

variable {column row : Nat} {p : Plane}

/-- A loop over the Y blocks whose steps do not read what other steps write. -/
theorem forLuma_replaced (hp : p.Full) {step : Plane → Fin 16 → Option Plane} {F : Fin 16 → Fin 4 → Fin 4 → UInt8 → UInt8}
    (hstep : ∀ (s : Plane) k, s.Sized p.width p.height → ∃ q, step s k = some q ∧
      s.Painted q (4 * (4 * column + k.val % 4)) (4 * (4 * row + k.val / 4)) fun c r =>
        F k c r (s.px (4 * (4 * column + k.val % 4) + c) (4 * (4 * row + k.val / 4) + r))) :
    ∃ q, forLuma step p = some q ∧ p.Replaced 16 column row q fun x y =>
      F (block16 x y) (in4 x) (in4 y) (p.px (16 * column + x) (16 * row + y)) := by
  obtain ⟨t, h1, h2, h3, h4⟩ := blocks_steps (B := 4) (by decide) (by decide) hstep ⟨hp, rfl, rfl⟩
  refine ⟨t, h1, h2, h3, fun x y => ?_⟩
  obtain ⟨s, g1, g2, g3, g4⟩ := h4 (block16 x y)
  obtain ⟨e1, e2⟩ := px_block16 column row x y
  rw [e1, e2, g2]
  refine congrArg _ (g3 (_, _) fun j hj hm => absurd (hm.unique (inBlock_self 4 column row _ _ _)) ?_)
  have := Fin.lt_def.mp hj; omega

theorem forChroma_replaced (hp : p.Full) {step : Plane → Fin 4 → Option Plane} {F : Fin 4 → Fin 4 → Fin 4 → UInt8 → UInt8}
    (hstep : ∀ (s : Plane) k, s.Sized p.width p.height → ∃ q, step s k = some q ∧
      s.Painted q (4 * (2 * column + k.val % 2)) (4 * (2 * row + k.val / 2)) fun c r =>
        F k c r (s.px (4 * (2 * column + k.val % 2) + c) (4 * (2 * row + k.val / 2) + r))) :
    ∃ q, forChroma step p = some q ∧ p.Replaced 8 column row q fun x y =>
      F (block8 x y) (in4 x) (in4 y) (p.px (8 * column + x) (8 * row + y)) := by
  obtain ⟨t, h1, h2, h3, h4⟩ := blocks_steps (B := 2) (by decide) (by decide) hstep ⟨hp, rfl, rfl⟩
  refine ⟨t, h1, h2, h3, fun x y => ?_⟩
  obtain ⟨s, g1, g2, g3, g4⟩ := h4 (block8 x y)
  obtain ⟨e1, e2⟩ := px_block8 column row x y
  rw [e1, e2, g2]
  refine congrArg _ (g3 (_, _) fun j hj hm => absurd (hm.unique (inBlock_self 2 column row _ _ _)) ?_)
  have := Fin.lt_def.mp hj; omega

/-! ### Residue -/

/-- What the code adds to a pixel. -/
def added (r : Residue) (c : Fin 16 → Int) (x y : Fin 4) : Int := if r.nonzero then idct c x y else 0

theorem limited_toNat (b : UInt8) : UInt8.ofNat (limited (b.toNat + 0)) = b := by
  have := b.toNat_lt
  have : limited (b.toNat + 0) = b.toNat := by unfold limited; omega
  rw [this, UInt8.ofNat_toNat]

theorem Plane.Replaced.refl (hp : p.Full) (n : Nat) : p.Replaced n column row p fun x y => p.px (n * column + x) (n * row + y) :=
  ⟨⟨hp, rfl, rfl⟩, fun _ _ _ => rfl, fun _ _ => rfl⟩

theorem Plane.Replaced.congr {n : Nat} {q : Plane} {f g : Fin n → Fin n → UInt8} (h : p.Replaced n column row q f) (e : ∀ x y, f x y = g x y) :
    p.Replaced n column row q g := ⟨h.sized, h.outside, fun x y => (h.inside x y).trans (e x y)⟩

theorem addLuma_replaced (hp : p.Full) (hx : 16 * column + 16 ≤ p.width) (hy : 16 * row + 16 ≤ p.height) (r : Residue)
    (coeffs : Fin 16 → Fin 16 → Int) : ∃ q, ifNonzero r (forLuma (addLuma coeffs column row)) p = some q ∧
      p.Replaced 16 column row q fun x y => UInt8.ofNat (limited ((p.px (16 * column + x) (16 * row + y)).toNat +
        added r (coeffs (block16 x y)) (in4 x) (in4 y))) := by
  unfold ifNonzero added
  cases r.nonzero
  · exact ⟨p, rfl, (Plane.Replaced.refl hp 16).congr fun x y => (limited_toNat _).symm⟩
  · simp only [if_true]
    refine forLuma_replaced hp (F := fun k c r b => UInt8.ofNat (limited (b.toNat + idct (coeffs k) c r))) fun s k hs => ?_
    obtain ⟨b1, b2⟩ := block_bounds16 hx hy k
    exact idctAdd_eq (fun _ _ => rfl) hs.full (hs.width ▸ b1) (hs.height ▸ b2)

theorem addChroma_replaced (hp : p.Full) (hx : 8 * column + 8 ≤ p.width) (hy : 8 * row + 8 ≤ p.height) (q : Quantizer) (r : Residue)
    (blocks : Fin 4 → Block) : ∃ t, ifNonzero r (addChroma q blocks column row) p = some t ∧
      p.Replaced 8 column row t fun x y => UInt8.ofNat (limited ((p.px (8 * column + x) (8 * row + y)).toNat +
        added r (q.dequantizeUV (blocks (block8 x y)).coeffs) (in4 x) (in4 y))) := by
  unfold ifNonzero added
  cases r.nonzero
  · exact ⟨p, rfl, (Plane.Replaced.refl hp 8).congr fun x y => (limited_toNat _).symm⟩
  · simp only [if_true]
    refine forChroma_replaced hp (F := fun k c r b => UInt8.ofNat (limited (b.toNat + idct (q.dequantizeUV (blocks k).coeffs) c r))) fun s k hs => ?_
    obtain ⟨b1, b2⟩ := block_bounds8 hx hy k
    exact idctAdd_eq (fun _ _ => rfl) hs.full (hs.width ▸ b1) (hs.height ▸ b2)

/-! ### Macroblocks -/

theorem toNat_small {v : Nat} (h : v ≤ 255) : (UInt8.ofNat v).toNat = v := by
  rw [UInt8.toNat_ofNat']; exact Nat.mod_eq_of_lt (by omega)

/-- A prediction of the whole macroblock, then the residue. -/
theorem predicted_luma (hx : 16 * column + 16 ≤ p.width) (hy : 16 * row + 16 ≤ p.height) {p1 : Plane} {f : Fin 16 → Fin 16 → Nat}
    (hf : ∀ x y, f x y ≤ 255) (h : p.Replaced 16 column row p1 fun x y => UInt8.ofNat (f x y)) (r : Residue) (coeffs : Fin 16 → Fin 16 → Int) :
    ∃ q, ifNonzero r (forLuma (addLuma coeffs column row)) p1 = some q ∧
      p.Replaced 16 column row q fun x y => UInt8.ofNat (limited (f x y + added r (coeffs (block16 x y)) (in4 x) (in4 y))) := by
  obtain ⟨q, h1, h2⟩ := addLuma_replaced h.sized.full (by rw [h.sized.width]; exact hx) (by rw [h.sized.height]; exact hy) r coeffs
  refine ⟨q, h1, h.trans (h2.congr fun x y => ?_)⟩
  rw [h.inside, toNat_small (hf x y)]

theorem predicted_chroma (hx : 8 * column + 8 ≤ p.width) (hy : 8 * row + 8 ≤ p.height) {p1 : Plane} {f : Fin 8 → Fin 8 → Nat}
    (hf : ∀ x y, f x y ≤ 255) (h : p.Replaced 8 column row p1 fun x y => UInt8.ofNat (f x y)) (q : Quantizer) (r : Residue) (blocks : Fin 4 → Block) :
    ∃ t, ifNonzero r (addChroma q blocks column row) p1 = some t ∧
      p.Replaced 8 column row t fun x y => UInt8.ofNat (limited (f x y + added r (q.dequantizeUV (blocks (block8 x y)).coeffs) (in4 x) (in4 y))) := by
  obtain ⟨t, h1, h2⟩ := addChroma_replaced h.sized.full (by rw [h.sized.width]; exact hx) (by rw [h.sized.height]; exact hy) q r blocks
  refine ⟨t, h1, h.trans (h2.congr fun x y => ?_)⟩
  rw [h.inside, toNat_small (hf x y)]

/-- The macroblock of `n` by `n` pixels of `q` is the sum of a prediction from `q` itself and a residue, the rest is that of `p`. -/
structure Plane.Solved (n column row : Nat) (p q : Plane) (prediction : Plane → Fin n → Fin n → Nat) (residue : Fin n → Fin n → Int) : Prop where
  sized : q.Sized p.width p.height
  outside : ∀ u v, ¬ (u / n = column ∧ v / n = row) → q.px u v = p.px u v
  inside : Sum n q column row (prediction q) residue

theorem Before.ne {n u v : Nat} (h : Before n column row u v) : ¬ (u / n = column ∧ v / n = row) := by
  unfold Before at h; omega

theorem whole_le (n : Nat) (hn : 0 < n) (mode : Nat) (above left : Bool) (p : Plane) (column row c r : Nat) :
    whole n mode above left (edge p n column row) c r ≤ 255 :=
  C38_range_whole hn mode above left (fun i => (C38_range_edge p n column row i).1) c r

theorem predict_sub_le (mode : Nat) (p : Plane) (column row c r : Nat) : sub mode (IntraSpec.edge4 p column row) c r ≤ 255 :=
  C38_range_sub mode (fun i => (C38_range_edge p 4 column row i).2) c r

/-- The luma coefficients as the code computes them. -/
def codeLuma (q : Quantizer) (m : MBModes) (r : Residue) (k : Fin 16) : Fin 16 → Int :=
  if HasY2 m then walshCoeffs q r k else plainCoeffs q r k

theorem intraLuma_solved (hp : p.Full) (h16 : 16 ∣ p.width) (hx : 16 * column + 16 ≤ p.width) (hy : 16 * row + 16 ≤ p.height) (reference : Plane)
    (q : Quantizer) {m : MBModes} (hm : m.IntraOk) (hi : m.isInter = false) (r : Residue) :
    ∃ t, intraLuma q m r column row p = some t ∧
      p.Solved 16 column row t (fun t => lumaPrediction reference t m column row)
        fun x y => added r (codeLuma q m r (block16 x y)) (in4 x) (in4 y) := by
  unfold intraLuma
  by_cases hb : m.yMode = B_PRED
  · rw [if_pos hb]
    have hc : ∀ k, codeLuma q m r k = plainCoeffs q r k := fun k => if_neg fun h => h.1 hb
    -- one block
    have hstep : ∀ (s : Plane) (k : Fin 16), s.Sized p.width p.height → ∃ t, intraBlock q m r column row s k = some t ∧
        s.Painted t (4 * (4 * column + k.val % 4)) (4 * (4 * row + k.val / 4)) fun c r' : Fin 4 =>
          UInt8.ofNat (limited (sub (m.bModes k) (IntraSpec.edge4 s (4 * column + k.val % 4) (4 * row + k.val / 4)) c r' +
            added r (plainCoeffs q r k) c r')) := by
      intro s k hs
      obtain ⟨b1, b2⟩ := block_bounds16 hx hy k
      obtain ⟨s1, e1, e2⟩ := C38_subblock hs.full (hs.width ▸ h16) (hm.free hb k) (hs.width ▸ b1) (hs.height ▸ b2)
      have hs1 := e2.sized hs
      unfold intraBlock ifNonzero added
      rw [e1, Option.bind_eq_bind, Option.bind_some]
      cases r.nonzero
      · refine ⟨s1, rfl, e2.full, e2.width, e2.height, fun c r' => ?_, e2.outside⟩
        rw [e2.inside, if_neg (by decide), ← toNat_small (predict_sub_le _ _ _ _ _ _), limited_toNat, toNat_small (predict_sub_le _ _ _ _ _ _)]
      · obtain ⟨s2, f1, f2⟩ := idctAdd_eq (c := plainCoeffs q r k) (fun _ _ => rfl) hs1.full (hs1.width ▸ b1) (hs1.height ▸ b2)
        refine ⟨s2, f1, f2.full, f2.width.trans e2.width, f2.height.trans e2.height, fun c r' => ?_, fun u v hu hv hne => ?_⟩
        · rw [f2.inside, e2.inside, if_pos rfl, toNat_small (predict_sub_le _ _ _ _ _ _)]
        · rw [f2.outside u v (e2.width ▸ hu) (e2.height ▸ hv) hne, e2.outside u v hu hv hne]
    obtain ⟨t, h1, h2, h3, h4⟩ := blocks_steps (B := 4) (by decide) (by decide) hstep ⟨hp, rfl, rfl⟩
    refine ⟨t, h1, h2, h3, fun x y => ?_⟩
    obtain ⟨s, g1, g2, g3, g4⟩ := h4 (block16 x y)
    obtain ⟨e1, e2⟩ := px_block16 column row x y
    have e3 : (block16 x y).val % 4 = x.val / 4 ∧ (block16 x y).val / 4 = y.val / 4 := by unfold block16; dsimp only; omega
    rw [e1, e2, g2, hc]
    unfold lumaPrediction
    rw [if_neg (by rw [hi]; decide), if_pos hb, ← e3.1, ← e3.2]
    refine congrArg (fun v : Nat => UInt8.ofNat (limited ((v : Int) + _))) (sub_congr _ (fun i hi => ?_) _ _)
    refine edge4_congr (g1.width.trans h2.width.symm) (by rw [g1.width]; exact hx) _ (fun u v hb => (g4 (u, v) fun j hj hm => ?_).symm) hi
    obtain ⟨m1, m2⟩ := hm
    have := Fin.le_def.mp hj
    have := j.2
    dsimp only at m1 m2
    unfold Before4 Before at hb
    omega
  · rw [if_neg hb]
    have hy2 : HasY2 m := ⟨hb, by rcases hm.yMode with h | h | h | h | h <;> rw [h] <;> decide⟩
    have hc : ∀ k, codeLuma q m r k = walshCoeffs q r k := fun k => if_pos hy2
    have hmode : m.yMode ≤ TM_PRED := by
      rcases hm.yMode with h | h | h | h | h
      · rw [h]; decide
      · rw [h]; decide
      · rw [h]; decide
      · rw [h]
      · exact absurd h hb
    obtain ⟨p1, e1, e2⟩ := C38_luma hp hmode hx hy
    rw [e1, Option.bind_eq_bind, Option.bind_some]
    obtain ⟨t, f1, f2⟩ := predicted_luma hx hy (fun x y => whole_le 16 (by decide) _ _ _ p column row x y) (e2.replaced hp) r (walshCoeffs q r)
    refine ⟨t, f1, f2.sized, f2.outside, fun x y => ?_⟩
    rw [f2.inside, hc]
    unfold lumaPrediction
    rw [if_neg (by rw [hi]; decide), if_neg hb]
    refine congrArg (fun v : Nat => UInt8.ofNat (limited ((v : Int) + _))) (whole_congr _ _ _ (fun i hi => ?_) x.2 y.2)
    exact edge_congr (Or.inl rfl) (fun u v hb => (f2.outside u v hb.ne).symm) hi

theorem intraChroma_solved (hp : p.Full) (hx : 8 * column + 8 ≤ p.width) (hy : 8 * row + 8 ≤ p.height) (reference : Plane)
    (q : Quantizer) {m : MBModes} (hm : m.IntraOk) (hi : m.isInter = false) (r : Residue) (blocks : Fin 4 → Block) :
    ∃ t, intraChroma q m r blocks column row p = some t ∧
      p.Solved 8 column row t (fun t => chromaPrediction reference t m column row)
        fun x y => added r (q.dequantizeUV (blocks (block8 x y)).coeffs) (in4 x) (in4 y) := by
  have hmode : m.uvMode ≤ TM_PRED := by
    rcases hm.uvMode with h | h | h | h <;> rw [h] <;> decide
  obtain ⟨p1, e1, e2⟩ := C38_chroma hp hmode hx hy
  unfold intraChroma
  rw [e1, Option.bind_eq_bind, Option.bind_some]
  obtain ⟨t, f1, f2⟩ := predicted_chroma hx hy (fun x y => whole_le 8 (by decide) _ _ _ p column row x y) (e2.replaced hp) q r blocks
  refine ⟨t, f1, f2.sized, f2.outside, fun x y => ?_⟩
  rw [f2.inside]
  unfold chromaPrediction
  rw [if_neg (by rw [hi]; decide)]
  refine congrArg (fun v : Nat => UInt8.ofNat (limited ((v : Int) + _))) (whole_congr _ _ _ (fun i hi => ?_) x.2 y.2)
  exact edge_congr (Or.inr rfl) (fun u v hb => (f2.outside u v hb.ne).symm) hi

end Alfalfa
