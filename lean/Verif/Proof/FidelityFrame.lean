import Verif.Proof.TwoPass
import Verif.Spec.Fidelity

/-! From blocks to pictures. -/

namespace Alfalfa

open TransformSpec RenderSpec IntraSpec FidelitySpec

/-! ### Blocks -/

theorem idct_zero (x y : Fin 4) : idct (fun _ => 0) x y = 0 := by revert x y; decide +kernel

theorem pixel_close {pred : Nat} {d : Int} {E : Nat} {a : UInt8} (hp : pred ≤ 255) (h : OffBy E (8 * d) (8 * ((a.toNat : Int) - pred))) :
    apart (UInt8.ofNat (limited (pred + d))) a ≤ E / 8 := by
  have := a.toNat_lt
  unfold apart
  rw [toNat_small (by unfold limited; omega)]
  unfold limited
  unfold OffBy at h
  omega

/-- The difference of two blocks, in the order of the coefficients. -/
def difference (a b : Square 4) (i : Fin 16) : Int :=
  (a ⟨i.val % 4, by omega⟩ ⟨i.val / 4, by omega⟩).toNat - (b ⟨i.val % 4, by omega⟩ ⟨i.val / 4, by omega⟩).toNat

theorem difference_small (a b : Square 4) (i : Fin 16) : |difference a b i| ≤ 255 := by
  have h1 := (a ⟨i.val % 4, by omega⟩ ⟨i.val / 4, by omega⟩).toNat_lt
  have h2 := (b ⟨i.val % 4, by omega⟩ ⟨i.val / 4, by omega⟩).toNat_lt
  unfold difference
  rw [abs_le]; omega

theorem difference_entry (a b : Square 4) (x y : Fin 4) : entry (difference a b) x y = (a x y).toNat - (b x y).toNat := by
  unfold entry difference
  dsimp only
  congr 2 <;> congr 1 <;> (try congr 1) <;> apply Fin.ext <;> dsimp only <;> omega

theorem subtractDct_eq (a b : Square 4) : subtractDct a b = fdct (difference a b) := rfl

theorem block_close {pass : Option SecondPass} {mb : Nat} {block : Fin 25} {q Q : Quantizer} (hQ : Coarse q pass Q) {type : BlockType} (ht : type ≠ .yAfterY2)
    (hq : 0 < (q.factors type).1 ∧ 0 < (q.factors type).2) (hq' : 0 < (Q.factors type).2) {a b : Square 4} {z : Fin 16 → Int}
    (h : compress pass mb block q type (subtractDct a b) = some z) (x y : Fin 4) :
    OffBy ((Q.factors type).1 + 14 * (Q.factors type).2 + 9 : Nat) (8 * idct (dequantize (q.factors type).1 (q.factors type).2 z) x y)
      (8 * ((a x y).toNat - (b x y).toNat)) := by
  have hb := C41_forward_range a b
  obtain ⟨e1, e2, e3⟩ := compress_close hQ (fun i => (hb i).trans (by norm_num)) hq (fun e => absurd e ht) h
  rw [idct_eq (C41_idct_range fun i => (e3 i).trans ((hb i).trans (by norm_num))), ← difference_entry]
  have := residue_close (difference_small a b) e1 e2 (by omega) x y
  unfold OffBy at *
  push_cast
  omega

/-! ### Macroblocks without predictions -/

variable {column row : Nat} {o p : Plane}

/-- The difference of the original `o` and the prediction in `p` at a pixel. -/
def gap (o p : Plane) (u v : Nat) : Int := (o.px u v).toNat - (p.px u v).toNat

theorem lumaDct_eq (ho : o.Full) (hp : p.Full) (hx : 16 * column + 16 ≤ o.width) (hy : 16 * row + 16 ≤ o.height) (hw : p.width = o.width)
    (hh : p.height = o.height) {k : Fin 16} {c : Fin 16 → Int} (h : lumaDct o p column row k = some c) : ∃ a b : Square 4, c = subtractDct a b ∧
      ∀ x y : Fin 4, ((a x y).toNat - (b x y).toNat : Int) = gap o p (4 * (4 * column + k.val % 4) + x) (4 * (4 * row + k.val / 4) + y) := by
  obtain ⟨h1, h2⟩ := block_bounds16 hx hy k
  unfold lumaDct at h
  rw [Plane.getSquare_spec ho h1 h2, Plane.getSquare_spec hp (by rw [hw]; exact h1) (by rw [hh]; exact h2)] at h
  cases h
  exact ⟨_, _, rfl, fun _ _ => rfl⟩

theorem chromaDct_eq (ho : o.Full) (hp : p.Full) (hx : 8 * column + 8 ≤ o.width) (hy : 8 * row + 8 ≤ o.height) (hw : p.width = o.width)
    (hh : p.height = o.height) {k : Fin 4} {c : Fin 16 → Int} (h : chromaDct o p column row k = some c) : ∃ a b : Square 4, c = subtractDct a b ∧
      ∀ x y : Fin 4, ((a x y).toNat - (b x y).toNat : Int) = gap o p (4 * (2 * column + k.val % 2) + x) (4 * (2 * row + k.val / 2) + y) := by
  obtain ⟨h1, h2⟩ := block_bounds8 hx hy k
  unfold chromaDct at h
  rw [Plane.getSquare_spec ho h1 h2, Plane.getSquare_spec hp (by rw [hw]; exact h1) (by rw [hh]; exact h2)] at h
  cases h
  exact ⟨_, _, rfl, fun _ _ => rfl⟩

theorem walshCoeffs_close {pass : Option SecondPass} {mb : Nat} {q Q : Quantizer} (hQ : Coarse q pass Q) (hq : q.InRange) (hq' : 0 < Q.yAc) {a b : Fin 16 → Square 4}
    {y : Fin 16 → Fin 16 → Int} {z : Fin 16 → Int}
    (hy : ∀ k : Fin 16, compress pass mb ⟨k.val, by omega⟩ q .yAfterY2 (Function.update (subtractDct (a k) (b k)) 0 0) = some (y k))
    (hz : compressY2 pass mb q (wht fun k => subtractDct (a k) (b k) 0) = some z) {r : Residue} (r2 : r.y2.coeffs = z) (ry : ∀ k, (r.y k).coeffs = y k)
    (k : Fin 16) (x w : Fin 4) : OffBy ((Q.y2Dc + 15 * Q.y2Ac) / 8 + 14 * Q.yAc + 10 : Nat) (8 * idct (walshCoeffs q r k) x w)
      (8 * (((a k) x w).toNat - ((b k) x w).toNat)) := by
  have b2 := hq.y2Dc
  have b3 := hq.y2Ac
  have b4 := hq.yDc
  have b5 := hq.yAc
  have hs : ∀ k i, |subtractDct (a k) (b k) i| ≤ 2041 := fun k => C41_forward_range (a k) (b k)
  have hw := compressY2_close hQ hq (r := fun k => subtractDct (a k) (b k) 0) (fun k => hs k 0) hz ⟨k.val % 4, by omega⟩ ⟨k.val / 4, by omega⟩
  have hent : entry (fun k => subtractDct (a k) (b k) 0) ⟨k.val % 4, by omega⟩ ⟨k.val / 4, by omega⟩ = subtractDct (a k) (b k) 0 := by
    unfold entry
    rw [show (⟨4 * (⟨k.val / 4, by omega⟩ : Fin 4).val + (⟨k.val % 4, by omega⟩ : Fin 4).val, by dsimp only; omega⟩ : Fin 16) = k from
      Fin.ext (by dsimp only; omega)]
  rw [hent] at hw
  have hfits := wht_fits hq (c := fun k => subtractDct (a k) (b k) 0) (fun k => hs k 0) hz
  have hdeq : scaled q.y2Dc q.y2Ac (codedBlock z) = dequantize q.y2Dc q.y2Ac z := funext fun i => (toInt16_of_fits (hfits.each i)).symm
  rw [hdeq] at hfits
  have hup : ∀ i, |Function.update (subtractDct (a k) (b k)) 0 0 i| ≤ 2041 := fun i => by
    by_cases hi : i = 0
    · subst hi; rw [Function.update_self]; decide
    · rw [Function.update_of_ne hi]; exact hs k i
  obtain ⟨-, f2, f3⟩ := compress_close hQ (type := .yAfterY2) (fun i => (hup i).trans (by norm_num)) ⟨by show 0 < q.yDc; omega, by show 0 < q.yAc; omega⟩
    (fun _ => Function.update_self ..) (hy k)
  have f2 : ∀ i, i ≠ 0 → OffBy (Q.yAc - 1) (dequantize q.yDc q.yAc (y k) i) (Function.update (subtractDct (a k) (b k)) 0 0 i) := f2
  have f3 : ∀ i, |dequantize q.yDc q.yAc (y k) i| ≤ |Function.update (subtractDct (a k) (b k)) 0 0 i| := f3
  have c0 : walshCoeffs q r k 0 = iwht (dequantize q.y2Dc q.y2Ac z) ⟨k.val % 4, by omega⟩ ⟨k.val / 4, by omega⟩ := by
    unfold walshCoeffs Quantizer.dequantizeY2; rw [if_pos rfl, r2]
  have ci : ∀ i, i ≠ 0 → walshCoeffs q r k i = dequantize q.yDc q.yAc (y k) i := fun i hi => by
    unfold walshCoeffs Quantizer.dequantizeY; rw [if_neg hi, ry]
  have hfit : Fits line (walshCoeffs q r k) := (both_range (c := walshCoeffs q r k) (by
    rw [c0, iwht_eq hfits.fits, abs_le]
    have := hfits.sums ⟨k.val % 4, by omega⟩ ⟨k.val / 4, by omega⟩
    omega) fun i hi => by rw [ci i hi]; exact (f3 i).trans (hup i)).2.1
  rw [idct_eq hfit, ← difference_entry]
  have hrc := residue_close (r := difference (a k) (b k)) (c := walshCoeffs q r k) (d := (Q.y2Dc + 15 * Q.y2Ac) / 8) (a := Q.yAc - 1)
    (difference_small _ _) (by
      rw [c0, iwht_eq hfits.fits, ← subtractDct_eq]
      unfold OffBy at hw ⊢
      omega) (fun i hi => by
      rw [ci i hi, ← subtractDct_eq]
      have := f2 i hi
      rw [Function.update_of_ne hi] at this
      exact this) (by omega) x w
  unfold OffBy at hrc ⊢
  push_cast
  omega

theorem codeWhole_close {pass : Option SecondPass} {mb : Nat} {q Q : Quantizer} (hQ : Coarse q pass Q) (hq : q.InRange) (ho : o.Full) (hp : p.Full) (hx : 16 * column + 16 ≤ o.width)
    (hy : 16 * row + 16 ≤ o.height) (hw : p.width = o.width) (hh : p.height = o.height) {b : Block × (Fin 16 → Block)}
    (h : codeWhole pass mb q o p column row = some b) {r : Residue} (r2 : r.y2 = b.1) (ry : r.y = b.2) (x y : Fin 16) :
    OffBy ((Q.y2Dc + 15 * Q.y2Ac) / 8 + 14 * Q.yAc + 10 : Nat) (8 * idct (walshCoeffs q r (block16 x y)) (in4 x) (in4 y))
      (8 * gap o p (16 * column + x) (16 * row + y)) := by
  unfold codeWhole at h
  simp only [Option.bind_eq_bind, Option.bind_eq_some_iff, Option.pure_def, Option.some.injEq] at h
  obtain ⟨c, c1, z, z1, t, t1, rfl⟩ := h
  rw [allSome_iff] at c1 z1
  choose A B e1 e2 using fun k => lumaDct_eq ho hp hx hy hw hh (c1 k)
  have hc : c = fun k => subtractDct (A k) (B k) := funext e1
  subst hc
  have := walshCoeffs_close hQ hq (hQ.pos hq .yAfterY2).2 (a := A) (b := B) z1 t1 (r := r) (by rw [r2]; rfl) (fun k => by rw [ry]; rfl) (block16 x y) (in4 x) (in4 y)
  rw [e2] at this
  obtain ⟨b1, b2⟩ := px_block16 column row x y
  rw [b1, b2]
  exact this

theorem plainCoeffs_close {pass : Option SecondPass} {mb : Nat} {block : Fin 25} {q Q : Quantizer} (hQ : Coarse q pass Q) (hq : q.InRange) (ho : o.Full) (hp : p.Full) (hx : 16 * column + 16 ≤ o.width)
    (hy : 16 * row + 16 ≤ o.height) (hw : p.width = o.width) (hh : p.height = o.height) {k : Fin 16} {c z : Fin 16 → Int}
    (h : lumaDct o p column row k = some c) (hz : compress pass mb block q .yWithoutY2 c = some z) (x y : Fin 4) :
    OffBy (Q.yDc + 14 * Q.yAc + 9 : Nat) (8 * idct (q.dequantizeY z) x y)
      (8 * gap o p (4 * (4 * column + k.val % 4) + x) (4 * (4 * row + k.val / 4) + y)) := by
  obtain ⟨a, b, rfl, e⟩ := lumaDct_eq ho hp hx hy hw hh h
  rw [← e]
  exact block_close hQ (type := .yWithoutY2) (by decide) (Coarse.pos (pass := none) rfl hq _) (hQ.pos hq .yWithoutY2).2 hz x y

theorem codePlain_close {mb : Nat} {q : Quantizer} (hq : q.InRange) (ho : o.Full) (hp : p.Full) (hx : 16 * column + 16 ≤ o.width)
    (hy : 16 * row + 16 ≤ o.height) (hw : p.width = o.width) (hh : p.height = o.height) {b : Fin 16 → Block}
    (h : codePlain mb q o p column row = some b) {r : Residue} (ry : r.y = b) (x y : Fin 16) :
    OffBy (q.yDc + 14 * q.yAc + 9 : Nat) (8 * idct (plainCoeffs q r (block16 x y)) (in4 x) (in4 y))
      (8 * gap o p (16 * column + x) (16 * row + y)) := by
  unfold codePlain at h
  simp only [Option.bind_eq_bind, Option.bind_eq_some_iff, Option.pure_def, Option.some.injEq] at h
  obtain ⟨c, c1, z, z1, rfl⟩ := h
  rw [allSome_iff] at c1 z1
  have := plainCoeffs_close (pass := none) rfl hq ho hp hx hy hw hh (c1 (block16 x y)) (z1 (block16 x y)) (in4 x) (in4 y)
  obtain ⟨b1, b2⟩ := px_block16 column row x y
  rw [b1, b2]
  unfold plainCoeffs
  rw [ry]
  exact this

theorem codeChroma_close {pass : Option SecondPass} {mb : Nat} {first : Fin 21} {q Q : Quantizer} (hQ : Coarse q pass Q) (hq : q.InRange) (ho : o.Full) (hp : p.Full) (hx : 8 * column + 8 ≤ o.width)
    (hy : 8 * row + 8 ≤ o.height) (hw : p.width = o.width) (hh : p.height = o.height) {b : Fin 4 → Block}
    (h : codeChroma pass mb first q o p column row = some b) (x y : Fin 8) :
    OffBy (Q.uvDc + 14 * Q.uvAc + 9 : Nat) (8 * idct (q.dequantizeUV (b (block8 x y)).coeffs) (in4 x) (in4 y))
      (8 * gap o p (8 * column + x) (8 * row + y)) := by
  unfold codeChroma at h
  simp only [Option.bind_eq_bind, Option.bind_eq_some_iff, Option.pure_def, Option.some.injEq] at h
  obtain ⟨c, c1, z, z1, rfl⟩ := h
  rw [allSome_iff] at c1 z1
  obtain ⟨a, b, e1, e2⟩ := chromaDct_eq ho hp hx hy hw hh (c1 (block8 x y))
  obtain ⟨b1, b2⟩ := px_block8 column row x y
  have hz := z1 (block8 x y)
  rw [e1] at hz
  rw [b1, b2, ← e2]
  exact block_close hQ (type := .uv) (by decide) (Coarse.pos (pass := none) rfl hq _) (hQ.pos hq .uv).2 hz (in4 x) (in4 y)

/-! ### Predictions -/

/-- Where the coefficients are all zero nothing is added either way. -/
theorem added_eq {m : MBModes} {r : Residue} (hr : r.Ok m) (q : Quantizer) (k : Fin 16) (x y : Fin 4) :
    added r (codeLuma q m r k) x y = idct (codeLuma q m r k) x y := by
  unfold added
  cases hn : r.nonzero
  · have hno := hr.nonzero
    rw [hn] at hno
    simp only [Bool.false_eq_true, false_iff, not_or, not_exists, Bool.not_eq_true] at hno
    have e2 := representable_flag hr.y2 hno.1
    have ey := representable_flag (hr.y k) (hno.2.1 k)
    have : codeLuma q m r k = fun _ => 0 := by
      funext i
      unfold codeLuma
      split
      · unfold walshCoeffs Quantizer.dequantizeY2 Quantizer.dequantizeY
        rw [e2, ey]
        have hz : dequantize q.y2Dc q.y2Ac (({} : Block).coeffs) = fun _ => 0 := by
          funext i; show toInt16 (0 * _) = 0; rw [zero_mul]; rfl
        split
        · rw [hz]
          generalize (⟨k.val % 4, _⟩ : Fin 4) = a
          generalize (⟨k.val / 4, _⟩ : Fin 4) = b
          revert a b; decide +kernel
        · show toInt16 (0 * _) = 0; rw [zero_mul]; rfl
      · unfold plainCoeffs Quantizer.dequantizeY
        rw [ey]; show toInt16 (0 * _) = 0; rw [zero_mul]; rfl
    rw [this, idct_zero]; rfl
  · rfl

theorem addedU_eq {m : MBModes} {r : Residue} (hr : r.Ok m) (q : Quantizer) (k : Fin 4) (x y : Fin 4) :
    added r (q.dequantizeUV (r.u k).coeffs) x y = idct (q.dequantizeUV (r.u k).coeffs) x y := by
  unfold added
  cases hn : r.nonzero
  · have hno := hr.nonzero
    rw [hn] at hno
    simp only [Bool.false_eq_true, false_iff, not_or, not_exists, Bool.not_eq_true] at hno
    have : q.dequantizeUV (r.u k).coeffs = fun _ => 0 := by
      funext i
      unfold Quantizer.dequantizeUV; rw [representable_flag (hr.u k) (hno.2.2.1 k)]; show toInt16 (0 * _) = 0; rw [zero_mul]; rfl
    rw [this, idct_zero]; rfl
  · rfl

theorem addedV_eq {m : MBModes} {r : Residue} (hr : r.Ok m) (q : Quantizer) (k : Fin 4) (x y : Fin 4) :
    added r (q.dequantizeUV (r.v k).coeffs) x y = idct (q.dequantizeUV (r.v k).coeffs) x y := by
  unfold added
  cases hn : r.nonzero
  · have hno := hr.nonzero
    rw [hn] at hno
    simp only [Bool.false_eq_true, false_iff, not_or, not_exists, Bool.not_eq_true] at hno
    have : q.dequantizeUV (r.v k).coeffs = fun _ => 0 := by
      funext i
      unfold Quantizer.dequantizeUV; rw [representable_flag (hr.v k) (hno.2.2.2 k)]; show toInt16 (0 * _) = 0; rw [zero_mul]; rfl
    rw [this, idct_zero]; rfl
  · rfl

/-! ### Blocks that are predicted one by one -/

/-- What one step of `codeSub` can be seen by. -/
def subObs (s : Plane × (Fin 16 → Block)) : (Nat × Nat) ⊕ Fin 16 → UInt8 ⊕ Block
  | .inl x => .inl (s.1.px x.1 x.2)
  | .inr k => .inr (s.2 k)

def subArea (column row : Nat) (k : Fin 16) : (Nat × Nat) ⊕ Fin 16 → Prop
  | .inl x => InBlock 4 column row k x
  | .inr j => j = k

/-- One block: its pixels are a prediction plus what is coded, and that is about what the prediction leaves. -/
structure SubClose (q Q : Quantizer) (mode : Nat) (o : Plane) (column row : Nat) (k : Fin 16) (before after : Plane) (b : Block) : Prop where
  pixels : ∀ c r : Fin 4, after.px (4 * (4 * column + k.val % 4) + c) (4 * (4 * row + k.val / 4) + r) =
    UInt8.ofNat (limited (sub mode (IntraSpec.edge4 before (4 * column + k.val % 4) (4 * row + k.val / 4)) c r + idct (q.dequantizeY b.coeffs) c r))
  close : ∀ c r : Fin 4, OffBy (Q.yDc + 14 * Q.yAc + 9 : Nat) (8 * idct (q.dequantizeY b.coeffs) c r)
    (8 * (((o.px (4 * (4 * column + k.val % 4) + c) (4 * (4 * row + k.val / 4) + r)).toNat : Int) -
      sub mode (IntraSpec.edge4 before (4 * column + k.val % 4) (4 * row + k.val / 4)) c r))

theorem codeSub_close {pass : Option SecondPass} (hpass : ∀ s, pass = some s → s.Fits) {mb : Nat} (hk : (pass.map (·.staleType mb)).getD .yWithoutY2 = .yWithoutY2) {q Q : Quantizer}
    (hQ : Coarse q pass Q) (hq : q.InRange) (modes : Fin 16 → Fin 10) (ho : o.Full) (h16 : 16 ∣ o.width)
    (hx : 16 * column + 16 ≤ o.width) (hy : 16 * row + 16 ≤ o.height) {s : Plane × (Fin 16 → Block)} (hs : s.1.Sized o.width o.height) (k : Fin 16) :
    ∃ t, codeSub pass mb q modes o column row s k = some t ∧ t.1.Sized o.width o.height ∧
      SubClose q Q (modes k).val o column row k s.1 t.1 (t.2 k) ∧ ∀ x, ¬ subArea column row k x → subObs t x = subObs s x := by
  obtain ⟨b1, b2⟩ := block_bounds16 hx hy k
  obtain ⟨p1, e1, e2⟩ := C38_subblock hs.full (by rw [hs.width]; exact h16) (mode := (modes k).val) (by have := (modes k).2; exact Nat.le_of_lt_succ this)
    (column := 4 * column + k.val % 4) (row := 4 * row + k.val / 4) (by rw [hs.width]; exact b1) (by rw [hs.height]; exact b2)
  have s1 := e2.sized hs
  obtain ⟨c, c1, c2⟩ := lumaDct_ok ho s1.full hx hy s1.width s1.height k
  obtain ⟨z, z1, z2⟩ := compress_ok hpass mb ⟨k.val, by omega⟩ hq (type := .yWithoutY2) c2 (.inl (Nat.le_refl _))
  obtain ⟨p2, f1, f2⟩ := idctAdd_eq (c := q.dequantizeY z) (f := idct (q.dequantizeY z)) (fun _ _ => rfl) s1.full (x := 4 * (4 * column + k.val % 4))
    (y := 4 * (4 * row + k.val / 4)) (by rw [s1.width]; exact b1) (by rw [s1.height]; exact b2)
  have hclose := plainCoeffs_close hQ hq ho s1.full hx hy s1.width s1.height c1 z1
  refine ⟨(p2, Function.update s.2 k (codedBlock z)), ?_, f2.sized s1, ⟨fun c r => ?_, fun c r => ?_⟩, fun x hx => ?_⟩
  · unfold codeSub addLuma
    simp only [e1, c1, hk, z1, f1, Option.bind_eq_bind, Option.bind_some, Option.pure_def]
  · dsimp only
    rw [f2.inside, e2.inside, toNat_small (predict_sub_le _ _ _ _ _ _), Function.update_self]
    rfl
  · have := hclose c r
    unfold gap at this
    rw [e2.inside, toNat_small (predict_sub_le _ _ _ _ _ _)] at this
    dsimp only
    rw [Function.update_self]
    exact this
  · cases x with
    | inl x => exact congrArg Sum.inl ((f2.elsewhere s1 hx).trans (e2.elsewhere hs hx))
    | inr j => exact congrArg Sum.inr (Function.update_of_ne hx _ _)

/-- The loop over the blocks: there is a plane `e` that is what the decoder makes of them, and its pixels are about those of the original. -/
theorem codeSubs_close {pass : Option SecondPass} (hpass : ∀ s, pass = some s → s.Fits) {mb : Nat} (hk : (pass.map (·.staleType mb)).getD .yWithoutY2 = .yWithoutY2) {q Q : Quantizer}
    (hQ : Coarse q pass Q) (hq : q.InRange) (modes : Fin 16 → Fin 10) (ho : o.Full) (h16 : 16 ∣ o.width)
    (hx : 16 * column + 16 ≤ o.width) (hy : 16 * row + 16 ≤ o.height) (hp : p.Sized o.width o.height) {e : Plane × (Fin 16 → Block)}
    (h : (List.finRange 16).foldlM (codeSub pass mb q modes o column row) (p, fun _ => {}) = some e) :
    e.1.Sized o.width o.height ∧ (∀ u v, ¬ (u / 16 = column ∧ v / 16 = row) → e.1.px u v = p.px u v) ∧
      ∀ k : Fin 16, SubClose q Q (modes k).val o column row k e.1 e.1 (e.2 k) := by
  obtain ⟨t, t1, t2, t3, t4⟩ := fold_steps subObs (fun s => s.1.Sized o.width o.height) (subArea column row)
    (fun k s t => SubClose q Q (modes k).val o column row k s.1 t.1 (t.2 k)) (codeSub pass mb q modes o column row) (List.finRange 16) (finRange_pairwise 16)
    (fun s k _ hs => codeSub_close hpass hk hQ hq modes ho h16 hx hy hs k) (p, fun _ => {}) hp
  rw [t1] at h
  cases h
  refine ⟨t2, fun u v huv => Sum.inl.inj (t3 (.inl (u, v)) fun j _ hj => huv (InBlock.inside (by decide) (show j.val < 4 * 4 from j.2) hj)), fun k => ?_⟩
  obtain ⟨s1, s2, g1, g2, g3, g4, g5, g6⟩ := t4 k (List.mem_finRange k)
  have hb : e.2 k = s2.2 k := Sum.inr.inj (g6 (.inr k) fun j _ hj he => absurd hj (by rw [show k = j from he]; exact lt_irrefl _))
  have hedge : ∀ i : Int, -4 ≤ i ∧ i ≤ 8 → IntraSpec.edge4 s1.1 (4 * column + k.val % 4) (4 * row + k.val / 4) i =
      IntraSpec.edge4 e.1 (4 * column + k.val % 4) (4 * row + k.val / 4) i := fun i hi => by
    refine edge4_congr (g1.width.trans t2.width.symm) (by rw [g1.width]; exact hx) k (fun u v hb => ?_) hi
    have hno : ∀ j : Fin 16, k ≤ j → ¬ InBlock 4 column row j (u, v) := fun j hj hm => by
      obtain ⟨m1, m2⟩ := hm
      have := Fin.le_def.mp hj
      have := j.2
      dsimp only at m1 m2
      unfold Before4 Before at hb
      omega
    have a1 : s2.1.px u v = s1.1.px u v := Sum.inl.inj (g4 (.inl (u, v)) (hno k (Fin.le_refl k)))
    have a2 : e.1.px u v = s2.1.px u v := Sum.inl.inj (g6 (.inl (u, v)) fun j _ hj => hno j (Fin.le_of_lt hj))
    rw [a2, a1]
  refine ⟨fun c r => ?_, fun c r => ?_⟩
  · have a2 : e.1.px (4 * (4 * column + k.val % 4) + c) (4 * (4 * row + k.val / 4) + r) = s2.1.px _ _ := Sum.inl.inj (g6 (.inl (_, _)) fun j _ hj hm => by
      have := InBlock.unique (show InBlock 4 column row j _ from hm) (inBlock_self 4 column row k c r)
      have := Fin.lt_def.mp hj
      omega)
    rw [a2, g3.pixels c r, hb, sub_congr _ hedge]
  · rw [hb, ← sub_congr _ hedge]
    exact g3.close c r

/-- A plane that has the same sums is the same in the macroblock. -/
theorem subs_unique {q Q : Quantizer} {mode : Fin 16 → Nat} {e t : Plane} {blocks : Fin 16 → Block} {w h : Nat} (he : e.Sized w h) (ht : t.Sized w h)
    (hx : 16 * column + 16 ≤ w) (hsame : ∀ u v, ¬ (u / 16 = column ∧ v / 16 = row) → t.px u v = e.px u v)
    (h1 : ∀ k, SubClose q Q (mode k) o column row k e e (blocks k))
    (h2 : ∀ (k : Fin 16) (c r : Fin 4), t.px (4 * (4 * column + k.val % 4) + c) (4 * (4 * row + k.val / 4) + r) =
      UInt8.ofNat (limited (sub (mode k) (IntraSpec.edge4 t (4 * column + k.val % 4) (4 * row + k.val / 4)) c r + idct (q.dequantizeY (blocks k).coeffs) c r))) :
    ∀ n, ∀ k : Fin 16, k.val < n → ∀ c r : Fin 4, t.px (4 * (4 * column + k.val % 4) + c) (4 * (4 * row + k.val / 4) + r) =
      e.px (4 * (4 * column + k.val % 4) + c) (4 * (4 * row + k.val / 4) + r) := by
  intro n
  induction n with
  | zero => exact fun k hk => absurd hk (Nat.not_lt_zero _)
  | succ n ih =>
    intro k hk c r
    rw [h2 k c r, (h1 k).pixels c r]
    refine congrArg (fun v : Nat => UInt8.ofNat (limited ((v : Int) + _))) (sub_congr _ (fun i hi => ?_) _ _)
    refine edge4_congr (ht.width.trans he.width.symm) (by rw [ht.width]; exact hx) k (fun u v hb => ?_) hi
    by_cases hin : u / 16 = column ∧ v / 16 = row
    · have hj : v / 4 % 4 * 4 + u / 4 % 4 < 16 := by omega
      have := ih ⟨v / 4 % 4 * 4 + u / 4 % 4, hj⟩ (by unfold Before4 Before at hb; have := k.2; dsimp only; omega) ⟨u % 4, by omega⟩ ⟨v % 4, by omega⟩
      dsimp only at this
      rwa [show 4 * (4 * column + (v / 4 % 4 * 4 + u / 4 % 4) % 4) + u % 4 = u by omega,
        show 4 * (4 * row + (v / 4 % 4 * 4 + u / 4 % 4) / 4) + v % 4 = v by omega] at this
    · exact hsame u v hin

/-! ### Planes -/

/-- The pixels of the macroblock of `n` by `n` pixels are about those of the original. -/
def Close (bound n : Nat) (o t : Plane) (column row : Nat) : Prop :=
  ∀ x y : Fin n, apart (t.px (n * column + x) (n * row + y)) (o.px (n * column + x) (n * row + y)) ≤ bound

theorem close_of_sum {n E : Nat} {t : Plane} {P : Fin n → Fin n → Nat} {D : Fin n → Fin n → Int} (hs : Sum n t column row P D)
    (hP : ∀ x y : Fin n, (p.px (n * column + x) (n * row + y)).toNat = P x y)
    (hD : ∀ x y : Fin n, OffBy E (8 * D x y) (8 * gap o p (n * column + x) (n * row + y))) : Close (E / 8) n o t column row := by
  intro x y
  rw [hs x y]
  refine pixel_close (by rw [← hP]; have := (p.px (n * column + x) (n * row + y)).toNat_lt; omega) ?_
  have := hD x y
  unfold gap at this
  rwa [hP] at this

theorem Close.mono {a b n : Nat} {t : Plane} (h : Close a n o t column row) (hab : a ≤ b) : Close b n o t column row := fun x y => (h x y).trans hab

theorem intraLuma_close {pass : Option SecondPass} (hpass : ∀ s, pass = some s → s.Fits) {mb : Nat} {q Q : Quantizer} (hQ : Coarse q pass Q) (hq : q.InRange)
    {choice : IntraChoice} (hk : TypeKept pass mb choice) (ho : o.Full) (h16 : 16 ∣ o.width)
    (hx : 16 * column + 16 ≤ o.width) (hy : 16 * row + 16 ≤ o.height) (hp : p.Sized o.width o.height) {b : Block × (Fin 16 → Block)}
    (h : codeIntraLuma pass mb q choice o p column row = some b) {r : Residue} (r2 : r.y2 = b.1) (ry : r.y = b.2) {m : MBModes} (hi : m.isInter = false)
    (hm : m.yMode = choice.yMode.val) (hb : choice.yMode.val = B_PRED → ∀ i, m.bModes i = (choice.bModes i).val) (hr : r.Ok m) {t : Plane}
    (ht : t.Sized o.width o.height) (hsame : ∀ u v, ¬ (u / 16 = column ∧ v / 16 = row) → t.px u v = p.px u v) {reference : Plane}
    (hs : Sum 16 t column row (lumaPrediction reference t m column row) fun x y => added r (codeLuma q m r (block16 x y)) (in4 x) (in4 y)) :
    Close (FidelitySpec.luma Q) 16 o t column row := by
  unfold codeIntraLuma at h
  by_cases hB : choice.yMode.val = B_PRED
  · rw [if_pos hB] at h
    obtain ⟨e, e1, e2⟩ := Option.bind_eq_some_iff.1 h
    cases e2
    obtain ⟨f1, f2, f3⟩ := codeSubs_close hpass (staleType_kept hk hB) hQ hq choice.bModes ho h16 hx hy hp e1
    have hcode : ∀ k, codeLuma q m r k = q.dequantizeY (e.2 k).coeffs := fun k => by
      rw [show codeLuma q m r k = plainCoeffs q r k from if_neg fun h => h.1 (hm.trans hB)]
      unfold plainCoeffs
      rw [ry]
    have h2 : ∀ (k : Fin 16) (c r' : Fin 4), t.px (4 * (4 * column + k.val % 4) + c) (4 * (4 * row + k.val / 4) + r') =
        UInt8.ofNat (limited (sub (choice.bModes k).val (IntraSpec.edge4 t (4 * column + k.val % 4) (4 * row + k.val / 4)) c r' +
          idct (q.dequantizeY (e.2 k).coeffs) c r')) := fun k c r' => by
      have hk := k.2
      have := hs ⟨4 * (k.val % 4) + c, by omega⟩ ⟨4 * (k.val / 4) + r', by omega⟩
      have hblk : block16 ⟨4 * (k.val % 4) + c, by omega⟩ ⟨4 * (k.val / 4) + r', by omega⟩ = k := by
        unfold block16; apply Fin.ext; dsimp only; omega
      unfold lumaPrediction at this
      beta_reduce at this
      rw [added_eq hr, hblk, hcode, if_neg (by rw [hi]; decide), if_pos (hm.trans hB), hb hB] at this
      dsimp only at this
      rw [show in4 (4 * (k.val % 4) + c.val) = c from Fin.ext (by unfold in4; dsimp only; omega),
        show in4 (4 * (k.val / 4) + r'.val) = r' from Fin.ext (by unfold in4; dsimp only; omega),
        show (4 * (k.val % 4) + c.val) / 4 = k.val % 4 by omega, show (4 * (k.val / 4) + r'.val) / 4 = k.val / 4 by omega,
        show 16 * column + (4 * (k.val % 4) + c.val) = 4 * (4 * column + k.val % 4) + c by omega,
        show 16 * row + (4 * (k.val / 4) + r'.val) = 4 * (4 * row + k.val / 4) + r' by omega] at this
      exact this
    have hu := subs_unique (mode := fun k => (choice.bModes k).val) f1 ht hx (fun u v huv => (hsame u v huv).trans (f2 u v huv).symm) f3 h2 16
    intro x y
    obtain ⟨b1, b2⟩ := px_block16 column row x y
    rw [b1, b2, hu _ (block16 x y).2, (f3 (block16 x y)).pixels]
    exact (pixel_close (predict_sub_le _ _ _ _ _ _) ((f3 (block16 x y)).close (in4 x) (in4 y))).trans (Nat.le_max_left _ _)
  · rw [if_neg hB] at h
    obtain ⟨p1, e1, e2⟩ := Option.bind_eq_some_iff.1 h
    have hle : choice.yMode.val ≤ TM_PRED := by
      have := choice.yMode.2
      have h4 : choice.yMode.val ≠ 4 := hB
      show choice.yMode.val ≤ 3
      omega
    obtain ⟨p1', e1', e3⟩ := C38_luma hp.full hle (column := column) (row := row) (by rw [hp.width]; exact hx) (by rw [hp.height]; exact hy)
    rw [e1] at e1'
    cases e1'
    have s1 := e3.sized hp
    have hY2 : HasY2 m := ⟨by rw [hm]; exact hB, by rw [hm]; intro h; have := choice.yMode.2; have h' : choice.yMode.val = 9 := h; omega⟩
    refine (close_of_sum (p := p1) (E := (Q.y2Dc + 15 * Q.y2Ac) / 8 + 14 * Q.yAc + 10) hs (fun x y => ?_) (fun x y => ?_)).mono (Nat.le_max_right _ _)
    · rw [e3.inside, toNat_small (whole_le 16 (by decide) _ _ _ _ _ _ _ _)]
      unfold lumaPrediction
      rw [if_neg (by rw [hi]; decide), if_neg (by rw [hm]; exact hB), hm]
      exact whole_congr _ _ _ (fun i hi => edge_congr (Or.inl rfl) (fun u v hb => (hsame u v hb.ne).symm) hi) x.2 y.2
    · rw [added_eq hr, show codeLuma q m r (block16 x y) = walshCoeffs q r (block16 x y) from if_pos hY2]
      exact codeWhole_close hQ hq ho s1.full hx hy s1.width s1.height e2 r2 ry x y

theorem intraChroma_close {pass : Option SecondPass} {mb : Nat} {first : Fin 21} {q Q : Quantizer} (hQ : Coarse q pass Q) (hq : q.InRange) {mode : Fin 4} (ho : o.Full)
    (hx : 8 * column + 8 ≤ o.width) (hy : 8 * row + 8 ≤ o.height) (hp : p.Sized o.width o.height) {p1 : Plane} (h1 : intraPredict8 p mode.val column row = some p1)
    {b : Fin 4 → Block} (h : codeChroma pass mb first q o p1 column row = some b) {m : MBModes} (hi : m.isInter = false)
    (hm : m.uvMode = mode.val) {t : Plane} (hsame : ∀ u v, ¬ (u / 8 = column ∧ v / 8 = row) → t.px u v = p.px u v) {reference : Plane}
    (hs : Sum 8 t column row (chromaPrediction reference t m column row) fun x y => idct (q.dequantizeUV (b (block8 x y)).coeffs) (in4 x) (in4 y)) :
    Close (FidelitySpec.chroma Q) 8 o t column row := by
  obtain ⟨p1', e1', e3⟩ := C38_chroma hp.full (show mode.val ≤ TM_PRED from Nat.le_of_lt_succ mode.2) (column := column) (row := row)
    (by rw [hp.width]; exact hx) (by rw [hp.height]; exact hy)
  rw [h1] at e1'
  cases e1'
  have s1 := e3.sized hp
  refine close_of_sum (p := p1) (E := Q.uvDc + 14 * Q.uvAc + 9) hs (fun x y => ?_) (fun x y => ?_)
  · rw [e3.inside, toNat_small (whole_le 8 (by decide) _ _ _ _ _ _ _ _)]
    unfold chromaPrediction
    rw [if_neg (by rw [hi]; decide), hm]
    exact whole_congr _ _ _ (fun i hi => edge_congr (Or.inr rfl) (fun u v hb => (hsame u v hb.ne).symm) hi) x.2 y.2
  · exact codeChroma_close hQ hq ho s1.full hx hy s1.width s1.height h x y

/-! ### Macroblocks -/

/-- All pixels of the macroblock are about those of the original. -/
structure CloseAt (q : Quantizer) (o t : Raster) (column row : Nat) : Prop where
  y : Close (FidelitySpec.luma q) 16 o.y t.y column row
  u : Close (FidelitySpec.chroma q) 8 o.u t.u column row
  v : Close (FidelitySpec.chroma q) 8 o.v t.v column row

theorem sum_u {q : Quantizer} {m : MBModes} {r : Residue} (hr : r.Ok m) {t : Plane} {P : Fin 8 → Fin 8 → Nat}
    (h : Sum 8 t column row P (codeResidues q m r).u) :
    Sum 8 t column row P fun x y => idct (q.dequantizeUV (r.u (block8 x y)).coeffs) (in4 x) (in4 y) := fun x y => by
  rw [h x y]; exact congrArg (fun d : Int => UInt8.ofNat (limited (_ + d))) (addedU_eq hr q _ _ _)

theorem sum_v {q : Quantizer} {m : MBModes} {r : Residue} (hr : r.Ok m) {t : Plane} {P : Fin 8 → Fin 8 → Nat}
    (h : Sum 8 t column row P (codeResidues q m r).v) :
    Sum 8 t column row P fun x y => idct (q.dequantizeUV (r.v (block8 x y)).coeffs) (in4 x) (in4 y) := fun x y => by
  rw [h x y]; exact congrArg (fun d : Int => UInt8.ofNat (limited (_ + d))) (addedV_eq hr q _ _ _)

theorem codeIntra_close {pass : Option SecondPass} (hpass : ∀ s, pass = some s → s.Fits) {mb : Nat} {q Q : Quantizer} (hQ : Coarse q pass Q) (hq : q.InRange)
    {choice : IntraChoice} (hk : TypeKept pass mb choice) {dw dh dw' dh' w h k : Nat} {o s t : Raster}
    (ho : o.Sized dw' dh' w h) (hs : s.Sized dw dh w h) (hc : k % w < w) (hr : k / w < h) {m : MBModes} {r : Residue}
    (e : codeIntra pass mb q choice o s (k % w) (k / w) = some (m, r)) (hi : m.isInter = false) (hok : r.Ok m) (ht : t.Sized dw dh w h)
    (hsame : ∀ x, ¬ InMacroblock w k x → t.pixel x = s.pixel x) {reference : Raster}
    (hsum : Sums reference m (codeResidues q m r) (k % w) (k / w) t) : CloseAt Q o t (k % w) (k / w) := by
  have y1 : 16 * (k % w) + 16 ≤ o.y.width := by rw [ho.y.width]; exact mb_bounds hc
  have y2 : 16 * (k / w) + 16 ≤ o.y.height := by rw [ho.y.height]; exact mb_bounds hr
  have u1 : 8 * (k % w) + 8 ≤ o.u.width := by rw [ho.u.width]; exact mb_bounds hc
  have u2 : 8 * (k / w) + 8 ≤ o.u.height := by rw [ho.u.height]; exact mb_bounds hr
  have v1 : 8 * (k % w) + 8 ≤ o.v.width := by rw [ho.v.width]; exact mb_bounds hc
  have v2 : 8 * (k / w) + 8 ≤ o.v.height := by rw [ho.v.height]; exact mb_bounds hr
  obtain ⟨k1, k2, k3⟩ := codeIntra_keeps e
  unfold codeIntra at e
  simp only [Option.bind_eq_bind, Option.bind_eq_some_iff, Option.pure_def, Option.some.injEq, Prod.mk.injEq] at e
  obtain ⟨b, b1, pu, e1, pv, f1, u, c1, v, d1, m', -, rfl, hres⟩ := e
  subst hres
  refine ⟨intraLuma_close hpass hQ hq hk ho.y.full (sixteen_dvd ho.y) y1 y2 ?_ b1 rfl rfl hi k1 k3 hok ?_ (fun a c hac => hsame (0, a, c) hac) hsum.y,
    intraChroma_close hQ hq ho.u.full u1 u2 ?_ e1 c1 hi k2 (fun a c hac => hsame (1, a, c) hac) (sum_u hok hsum.u),
    intraChroma_close hQ hq ho.v.full v1 v2 ?_ f1 d1 hi k2 (fun a c hac => hsame (2, a, c) hac) (sum_v hok hsum.v)⟩
  · rw [ho.y.width, ho.y.height]; exact hs.y
  · rw [ho.y.width, ho.y.height]; exact ht.y
  · rw [ho.u.width, ho.u.height]; exact hs.u
  · rw [ho.v.width, ho.v.height]; exact hs.v

/-- The prediction of an inter-predicted macroblock. -/
def interLumaAt (reference : Plane) (m : MBModes) (column row : Nat) (x y : Fin 16) : Nat :=
  InterSpec.interpolated reference (8 * ((16 * column + x : Nat) : Int) + (m.mvs (block16 x y)).x) (8 * ((16 * row + y : Nat) : Int) + (m.mvs (block16 x y)).y)

def interChromaAt (reference : Plane) (m : MBModes) (column row : Nat) (x y : Fin 8) : Nat :=
  InterSpec.interpolated reference (8 * ((8 * column + x : Nat) : Int) + (m.uMvs (block8 x y)).x) (8 * ((8 * row + y : Nat) : Int) + (m.uMvs (block8 x y)).y)

theorem interLuma_close {q : Quantizer} {E : Nat} {reference : Plane} {m : MBModes} (hi : m.isInter = true) {r : Residue} (hr : r.Ok m) {t : Plane}
    (hs : Sum 16 t column row (lumaPrediction reference t m column row) (codeResidues q m r).y)
    (hp : ∀ x y : Fin 16, p.px (16 * column + x) (16 * row + y) = UInt8.ofNat (interLumaAt reference m column row x y))
    (hD : ∀ x y : Fin 16, OffBy E (8 * idct (codeLuma q m r (block16 x y)) (in4 x) (in4 y)) (8 * gap o p (16 * column + x) (16 * row + y))) :
    Close (E / 8) 16 o t column row := by
  refine close_of_sum (p := p) hs (fun x y => ?_) (fun x y => ?_)
  · rw [hp, interLumaAt, toNat_small (C37_range reference _ _)]
    unfold lumaPrediction
    rw [if_pos hi]
  · show OffBy E (8 * added r (codeLuma q m r (block16 x y)) (in4 x) (in4 y)) _
    rw [added_eq hr]; exact hD x y

theorem interChroma_close {mb : Nat} {first : Fin 21} {q : Quantizer} (hq : q.InRange) (ho : o.Full) (hx : 8 * column + 8 ≤ o.width)
    (hy : 8 * row + 8 ≤ o.height) (hp : p.Sized o.width o.height) {b : Fin 4 → Block} (h : codeChroma none mb first q o p column row = some b)
    {reference : Plane} {m : MBModes} (hi : m.isInter = true) {t : Plane}
    (hs : Sum 8 t column row (chromaPrediction reference t m column row) fun x y => idct (q.dequantizeUV (b (block8 x y)).coeffs) (in4 x) (in4 y))
    (hpx : ∀ x y : Fin 8, p.px (8 * column + x) (8 * row + y) = UInt8.ofNat (interChromaAt reference m column row x y)) :
    Close (FidelitySpec.chroma q) 8 o t column row := by
  refine close_of_sum (p := p) (E := q.uvDc + 14 * q.uvAc + 9) hs (fun x y => ?_) (fun x y => ?_)
  · rw [hpx, interChromaAt, toNat_small (C37_range reference _ _)]
    unfold chromaPrediction
    rw [if_pos hi]
  · exact codeChroma_close (pass := none) rfl hq ho hp.full hx hy hp.width hp.height h x y

theorem codeInter_close {mb : Nat} {q : Quantizer} (hq : q.InRange) {dw dh dw' dh' dw'' dh'' w h : Nat} {o s t reference : Raster}
    (ho : o.Sized dw' dh' w h) (hs : s.Sized dw dh w h) (href : reference.Sized dw'' dh'' w h) {rows : List (List UInt8)} {c : MBContext}
    (hc : c.column < w) (hr : c.row < h) {mode : Nat} {mv : MotionVector} (hv : VectorOk reference.y rows c mode mv) {m : MBModes} {r : Residue}
    (e : codeInter q rows reference c mode mv mb o s = some (m, r)) {hd : InterFrameHeader} {sc : Scorer} (hm : m.InterOk hd c sc) (hok : r.Ok m)
    (hsum : Sums reference m (codeResidues q m r) c.column c.row t) : CloseAt q o t c.column c.row := by
  have y1 : 16 * c.column + 16 ≤ o.y.width := by rw [ho.y.width]; exact mb_bounds hc
  have y2 : 16 * c.row + 16 ≤ o.y.height := by rw [ho.y.height]; exact mb_bounds hr
  have u1 : 8 * c.column + 8 ≤ o.u.width := by rw [ho.u.width]; exact mb_bounds hc
  have u2 : 8 * c.row + 8 ≤ o.u.height := by rw [ho.u.height]; exact mb_bounds hr
  have v1 : 8 * c.column + 8 ≤ o.v.width := by rw [ho.v.width]; exact mb_bounds hc
  have v2 : 8 * c.row + 8 ≤ o.v.height := by rw [ho.v.height]; exact mb_bounds hr
  unfold codeInter at e
  simp only [Option.bind_eq_bind, Option.bind_eq_some_iff, Option.pure_def, Option.some.injEq, Prod.mk.injEq] at e
  obtain ⟨pr, e1, py, e2, b, b1, pu, f1, pv, g1, u, c1, v, d1, rfl, rfl⟩ := e
  rw [hv.visible, interSquare_eq href.y.full] at e1
  cases e1
  obtain ⟨py', e2', e3⟩ := Plane.putSquare_spec hs.y.full (x := 16 * c.column) (y := 16 * c.row) (fun (a b : Fin 16) =>
    UInt8.ofNat (InterSpec.interpolated reference.y (8 * ((16 * c.column + a : Nat) : Int) + mv.x) (8 * ((16 * c.row + b : Nat) : Int) + mv.y)))
    (by rw [hs.y.width]; exact mb_bounds hc) (by rw [hs.y.height]; exact mb_bounds hr)
  rw [e2] at e2'
  cases e2'
  have sy := e3.sized hs.y
  obtain ⟨pu', f1', f2⟩ := C36_inter_prediction hs.u.full href.u.full (href.u.width.trans hs.u.width.symm) (n := 8) (chromaMvs (fun _ => mv) 0)
    (column := c.column) (row := c.row) (by rw [hs.u.width]; exact mb_bounds hc) (by rw [hs.u.height]; exact mb_bounds hr)
  rw [f1] at f1'
  cases f1'
  obtain ⟨pv', g1', g2⟩ := C36_inter_prediction hs.v.full href.v.full (href.v.width.trans hs.v.width.symm) (n := 8) (chromaMvs (fun _ => mv) 0)
    (column := c.column) (row := c.row) (by rw [hs.v.width]; exact mb_bounds hc) (by rw [hs.v.height]; exact mb_bounds hr)
  rw [g1] at g1'
  cases g1'
  have su := f2.sized hs.u
  have sv := g2.sized hs.v
  have hnb : mode ≠ B_PRED ∧ mode ≠ SPLITMV := by
    rcases hv.kind with h | h | h | h <;> subst h <;> decide
  refine ⟨(interLuma_close (E := (q.y2Dc + 15 * q.y2Ac) / 8 + 14 * q.yAc + 10) (p := py) hm.isInter hok hsum.y e3.inside fun x y => ?_).mono
      (Nat.le_max_right _ _),
    interChroma_close hq ho.u.full u1 u2 ?_ c1 hm.isInter (sum_u hok hsum.u) fun x y => ?_,
    interChroma_close hq ho.v.full v1 v2 ?_ d1 hm.isInter (sum_v hok hsum.v) fun x y => ?_⟩
  · rw [codeLuma, if_pos (show HasY2 { skip := some !(assembleResidue b.1 b.2 u v).nonzero, isInter := true, sel1 := some false, yMode := mode, mvs := fun _ => mv, uMvs := chromaMvs fun _ => mv } from hnb)]
    exact codeWhole_close (pass := none) rfl hq ho.y.full sy.full y1 y2 (sy.width.trans ho.y.width.symm) (sy.height.trans ho.y.height.symm) b1 rfl rfl x y
  · rw [ho.u.width, ho.u.height]; exact su
  · rw [f2.inside, interChromaAt, ← InterOk.sameChroma hm hnb.2 0 (block8 x y)]
  · rw [ho.v.width, ho.v.height]; exact sv
  · rw [g2.inside, interChromaAt, ← InterOk.sameChroma hm hnb.2 0 (block8 x y)]

/-! ### Re-encoded macroblocks -/

theorem updateLuma_close {mb : Nat} {q : Quantizer} (hq : q.InRange) {reference : Plane} (hr : reference.Full) {hd : InterFrameHeader} {c : MBContext}
    {sc : Scorer} {m : MBModes} (hm : m.InterOk hd c sc) (ho : o.Full) (hp : p.Sized o.width o.height) (hx : 16 * column + 16 ≤ o.width)
    (hy : 16 * row + 16 ≤ o.height) (hrw : reference.width = o.width) {b : Block × (Fin 16 → Block)}
    (h : updateLuma mb q reference m o p column row = some b) {r : Residue} (r2 : r.y2 = b.1) (ry : r.y = b.2) (hok : r.Ok m) {t : Plane}
    (hs : Sum 16 t column row (lumaPrediction reference t m column row) (codeResidues q m r).y) : Close (FidelitySpec.luma q) 16 o t column row := by
  unfold updateLuma at h
  by_cases hsp : m.yMode = SPLITMV
  · rw [if_pos hsp] at h
    obtain ⟨t', e1, e2⟩ := splitLuma_ok hp.full (by rw [hp.width]; exact hx) (by rw [hp.height]; exact hy) hr (hrw.trans hp.width.symm) m.mvs
    rw [e1, Option.bind_eq_bind, Option.bind_some] at h
    obtain ⟨y, y1, y2⟩ := Option.bind_eq_some_iff.1 h
    cases y2
    have st := hp.of e2.sized
    refine (interLuma_close (E := q.yDc + 14 * q.yAc + 9) hm.isInter hok hs e2.inside fun x y => ?_).mono (Nat.le_max_left _ _)
    rw [codeLuma, if_neg (fun h : HasY2 m => h.2 hsp)]
    exact codePlain_close hq ho st.full hx hy st.width st.height y1 ry x y
  · rw [if_neg hsp] at h
    obtain ⟨t', e1, e2⟩ := C36_inter_prediction hp.full hr (hrw.trans hp.width.symm) (n := 16) m.baseMv (column := column) (row := row)
      (by rw [hp.width]; exact hx) (by rw [hp.height]; exact hy)
    rw [e1, Option.bind_eq_bind, Option.bind_some] at h
    have st := e2.sized hp
    refine (interLuma_close (E := (q.y2Dc + 15 * q.y2Ac) / 8 + 14 * q.yAc + 10) (p := t') hm.isInter hok hs (fun x y => ?_) fun x y => ?_).mono (Nat.le_max_right _ _)
    · rw [e2.inside, interLumaAt, ← InterOk.same hm hsp 15 (block16 x y)]; rfl
    · rw [codeLuma, if_pos (show HasY2 m from ⟨InterOk.notBPred hm, hsp⟩)]
      exact codeWhole_close (pass := none) rfl hq ho st.full hx hy st.width st.height h r2 ry x y

theorem predictChroma_px (hp : p.Full) (hx : 8 * column + 8 ≤ p.width) (hy : 8 * row + 8 ≤ p.height) {reference : Plane} (hr : reference.Full)
    (hw : reference.width = p.width) {hd : InterFrameHeader} {c : MBContext} {sc : Scorer} {m : MBModes} (hm : m.InterOk hd c sc) {t : Plane}
    (h : predictChroma reference (m.yMode == SPLITMV) m.uMvs p column row = some t) : t.Sized p.width p.height ∧
      ∀ x y : Fin 8, t.px (8 * column + x) (8 * row + y) = UInt8.ofNat (interChromaAt reference m column row x y) := by
  unfold predictChroma at h
  by_cases hsp : m.yMode = SPLITMV
  · rw [if_pos (beq_iff_eq.2 hsp)] at h
    obtain ⟨t', e1, e2⟩ := splitChroma_ok hp hx hy hr hw m.uMvs
    rw [h] at e1
    cases e1
    exact ⟨e2.sized, e2.inside⟩
  · rw [if_neg (fun h => hsp (beq_iff_eq.1 h))] at h
    obtain ⟨t', e1, e2⟩ := C36_inter_prediction hp hr hw (n := 8) (m.uMvs 0) (column := column) (row := row) hx hy
    rw [h] at e1
    cases e1
    refine ⟨e2.sized ⟨hp, rfl, rfl⟩, fun x y => ?_⟩
    rw [e2.inside, interChromaAt, ← InterOk.sameChroma hm hsp 0 (block8 x y)]

theorem updateInter_close {mb : Nat} {q : Quantizer} (hq : q.InRange) {dw dh dw' dh' dw'' dh'' w h : Nat} {o s t : Raster} {references : References}
    (ho : o.Sized dw' dh' w h) (hs : s.Sized dw dh w h) (hc : column < w) (hr : row < h) {hd : InterFrameHeader} {c : MBContext} {sc : Scorer}
    {m : MBModes} (hm : m.InterOk hd c sc) (href : (reference references m).Sized dw'' dh'' w h) {m' : MBModes} {r : Residue}
    (e : updateInter mb q references m o s column row = some (m', r)) (hm' : m'.InterOk hd c sc) (hmm : m'.yMode = m.yMode ∧ m'.mvs = m.mvs ∧ m'.uMvs = m.uMvs)
    (hok : r.Ok m') (hsum : Sums (reference references m) m' (codeResidues q m' r) column row t) : CloseAt q o t column row := by
  have y1 : 16 * column + 16 ≤ o.y.width := by rw [ho.y.width]; exact mb_bounds hc
  have y2 : 16 * row + 16 ≤ o.y.height := by rw [ho.y.height]; exact mb_bounds hr
  have u1 : 8 * column + 8 ≤ o.u.width := by rw [ho.u.width]; exact mb_bounds hc
  have u2 : 8 * row + 8 ≤ o.u.height := by rw [ho.u.height]; exact mb_bounds hr
  have v1 : 8 * column + 8 ≤ o.v.width := by rw [ho.v.width]; exact mb_bounds hc
  have v2 : 8 * row + 8 ≤ o.v.height := by rw [ho.v.height]; exact mb_bounds hr
  obtain ⟨r1, r2⟩ := reference_at hm references
  have hmvs : (if m.yMode = SPLITMV then m.mvs else fun _ => m.baseMv) = m.mvs := by
    by_cases hsp : m.yMode = SPLITMV
    · rw [if_pos hsp]
    · rw [if_neg hsp]; exact funext fun i => InterOk.same hm hsp 15 i
  have humvs : chromaMvs m.mvs = m.uMvs := funext fun i => (hm.chroma i).symm
  unfold updateInter at e
  simp only [r1, r2, hmvs, humvs, Option.bind_eq_bind, Option.bind_some, Option.bind_eq_some_iff, Option.pure_def, Option.some.injEq, Prod.mk.injEq] at e
  obtain ⟨b, b1, pu, e1, pv, f1, u, c1, v, d1, -, rfl⟩ := e
  have hb1 : updateLuma mb q (reference references m).y m' o.y s.y column row = some b := by
    rw [← b1]; unfold updateLuma; rw [hmm.1, hmm.2.1]
    unfold MBModes.baseMv; rw [hmm.2.1]
  rw [← hmm.1, ← hmm.2.2] at e1 f1
  obtain ⟨e2, e3⟩ := predictChroma_px hs.u.full (by rw [hs.u.width]; exact mb_bounds hc) (by rw [hs.u.height]; exact mb_bounds hr) href.u.full
    (href.u.width.trans hs.u.width.symm) hm' e1
  obtain ⟨f2, f3⟩ := predictChroma_px hs.v.full (by rw [hs.v.width]; exact mb_bounds hc) (by rw [hs.v.height]; exact mb_bounds hr) href.v.full
    (href.v.width.trans hs.v.width.symm) hm' f1
  have su := hs.u.of e2
  have sv := hs.v.of f2
  refine ⟨updateLuma_close hq href.y.full hm' ho.y.full ?_ y1 y2 (href.y.width.trans ho.y.width.symm) hb1 rfl rfl hok hsum.y,
    interChroma_close hq ho.u.full u1 u2 ?_ c1 hm'.isInter (sum_u hok hsum.u) e3,
    interChroma_close hq ho.v.full v1 v2 ?_ d1 hm'.isInter (sum_v hok hsum.v) f3⟩
  · rw [ho.y.width, ho.y.height]; exact hs.y
  · rw [ho.u.width, ho.u.height]; exact su
  · rw [ho.v.width, ho.v.height]; exact sv

/-! ### Frames -/

/-- The first `k` macroblocks are about those of the original. -/
def CloseUpTo (q : Quantizer) (o : Raster) (w k : Nat) (s : Raster) : Prop := ∀ j, j < k → CloseAt q o s (j % w) (j / w)

theorem other_macroblock {n w j k : Nat} (hw : 0 < w) (hj : j < k) (x y : Fin n) :
    ¬ ((n * (j % w) + x.val) / n = k % w ∧ (n * (j / w) + y.val) / n = k / w) := by
  rw [own, own]
  rintro ⟨h1, h2⟩
  have e1 := Nat.div_add_mod j w
  have e2 := Nat.div_add_mod k w
  rw [h1, h2, e2] at e1
  omega

theorem CloseUpTo.step {q : Quantizer} {o : Raster} {w k : Nat} (hw : 0 < w) {s t : Raster} (hs : CloseUpTo q o w k s)
    (he : ∀ x, ¬ InMacroblock w k x → t.pixel x = s.pixel x) (ht : CloseAt q o t (k % w) (k / w)) : CloseUpTo q o w (k + 1) t := by
  intro j hj
  rcases Nat.lt_succ_iff_lt_or_eq.1 hj with hj | rfl
  · refine ⟨fun x y => ?_, fun x y => ?_, fun x y => ?_⟩
    · have h0 : t.y.px _ _ = s.y.px _ _ := he (0, 16 * (j % w) + x.val, 16 * (j / w) + y.val) (other_macroblock hw hj x y)
      rw [h0]; exact (hs j hj).y x y
    · have h0 : t.u.px _ _ = s.u.px _ _ := he (1, 8 * (j % w) + x.val, 8 * (j / w) + y.val) (other_macroblock hw hj x y)
      rw [h0]; exact (hs j hj).u x y
    · have h0 : t.v.px _ _ = s.v.px _ _ := he (2, 8 * (j % w) + x.val, 8 * (j / w) + y.val) (other_macroblock hw hj x y)
      rw [h0]; exact (hs j hj).v x y
  · exact ht

/-- The early trials write to the macroblock only, too. -/
def Trials.EarlyLocal (dw dh w h : Nat) (t : Trials) : Prop :=
  ∀ k s, Raster.Sized dw dh w h s → ∀ x, ¬ InMacroblock w k x → (t.early k s).pixel x = s.pixel x

theorem Trials.Confined.early {width height : Nat} {t : Trials} (h : t.Confined width height) :
    t.EarlyLocal width height ((width + 15) / 16) ((height + 15) / 16) := by
  intro k s hs x hx
  obtain ⟨e1, e2⟩ := (h.place k s hs.ok).1
  obtain ⟨i, u, v⟩ := x
  match i with
  | 0 => exact e1 u v hx
  | 1 => exact (e2 u v hx).1
  | 2 => exact (e2 u v hx).2

theorem keyStep_close {pass : Option SecondPass} (hpass : ∀ s, pass = some s → s.Fits) {trials : Trials} {q Q : Quantizer} (hQ : Coarse q pass Q) (hq : q.InRange)
    (choices : Nat → IntraChoice) (hkept : ∀ k, TypeKept pass k (choices k)) {dw dh w h : Nat} (hT : trials.Local dw dh w h)
    (hE : trials.EarlyLocal dw dh w h) {o : Raster} (ho : o.Sized dw dh w h) {k : Nat} {s t : Coded} (hk : k < w * h) (hs : s.raster.Sized dw dh w h)
    (h : keyStep pass trials q choices o w s k = some t) (hcl : CloseUpTo Q o w k s.raster) : CloseUpTo Q o w (k + 1) t.raster := by
  have hw := pos_of_lt_mul hk
  have hc := Nat.mod_lt k hw
  have hr := div_lt_of hk
  have se := hT.early k _ hs
  obtain ⟨m, r, e1, m1, m2, m3, m4, m5⟩ := codeIntra_ok hpass k hq (choices k) ho se hc hr
  obtain ⟨l1, l2⟩ := hT.late k _ hs
  obtain ⟨t', t1, t2⟩ := reconstructIntra_solved l1 hc hr o q m1 m2.isInter r
  unfold keyStep at h
  simp only [e1, t1, Option.bind_eq_bind, Option.bind_some, Option.pure_def] at h
  cases h
  have he : ∀ x, ¬ InMacroblock w k x → t'.pixel x = s.raster.pixel x := fun x hx => (t2.elsewhere x hx).trans (l2 x hx)
  exact hcl.step hw he (codeIntra_close hpass hQ hq (hkept k) ho se hc hr e1 m2.isInter m5 (t2.sized l1) (fun x hx => (he x hx).trans (hE k _ hs x hx).symm)
    ⟨t2.y.inside, t2.u.inside, t2.v.inside⟩)

theorem interStep_close {trials : Trials} {q : Quantizer} (hq : q.InRange) {choices : Nat → InterChoice} {dw dh w h : Nat}
    (hch : ∀ k, (choices k).Fits w h) (hT : trials.Local dw dh w h) (hE : trials.EarlyLocal dw dh w h) {o : Raster} (ho : o.Sized dw dh w h)
    {references : References} (href : references.last.Sized dw dh w h) {rows : List (List UInt8)} (hrows : safeRaster references.last.y = some rows)
    (hd : InterFrameHeader) {k : Nat} {s t : Coded} (hk : k < w * h) (hs : s.raster.Sized dw dh w h)
    (hstep : interStep trials q choices rows references o w h s k = some t) (hcl : CloseUpTo q o w k s.raster) : CloseUpTo q o w (k + 1) t.raster := by
  have hw := pos_of_lt_mul hk
  have hc := Nat.mod_lt k hw
  have hr := div_lt_of hk
  have se := hT.early k _ hs
  obtain ⟨l1, l2⟩ := hT.late k _ hs
  by_cases hi : ∃ i, choices k = .intra i
  · obtain ⟨i, hi⟩ := hi
    obtain ⟨m, r, e1, m1, m2, m3, m4, m5⟩ := codeIntra_ok (pass := none) (fun _ h => nomatch h) k hq i ho se hc hr
    obtain ⟨t', t1, t2⟩ := reconstructIntra_solved l1 hc hr o q m1 m2.isInter r
    unfold interStep at hstep
    rw [hi] at hstep
    simp only [e1, t1, Option.bind_eq_bind, Option.bind_some, Option.pure_def] at hstep
    cases hstep
    have he : ∀ x, ¬ InMacroblock w k x → t'.pixel x = s.raster.pixel x := fun x hx => (t2.elsewhere x hx).trans (l2 x hx)
    exact hcl.step hw he (codeIntra_close (pass := none) (fun _ h => nomatch h) rfl hq (.first _ _) ho se hc hr e1 m2.isInter m5 (t2.sized l1) (fun x hx => (he x hx).trans (hE k _ hs x hx).symm)
      ⟨t2.y.inside, t2.u.inside, t2.v.inside⟩)
  · have hn : ∀ i, choices k ≠ .intra i := fun i e => hi ⟨i, e⟩
    have hfits : Search.Fits { rows, context := gridContext w h s.modes k, cost := fun _ _ => 0 } references.last.y :=
      .own href.y.full hrows href.y.width href.y.height hc hr
    obtain ⟨mode, mv, v1, v2⟩ := interVector_ok hfits hn (hch k)
    obtain ⟨m, r, sc, e1, e2, e3, e4, m3, m4, m5, m6⟩ := codeInter_ok k hq ho se href (c := gridContext w h s.modes k) hc hr v2 hd
    have hlast : reference references m = references.last := by
      unfold reference; rw [e4]; rfl
    obtain ⟨t', t1, t2⟩ := reconstructInter_solved l1 hc hr (references := references) (m := m) (by rw [hlast]; exact href) q e3 r
    have hstep' : interStep trials q choices rows references o w h s k = (do
        let (mode, mv) ← interVector rows (gridContext w h s.modes k) (choices k)
        let (m, r) ← codeInter q rows references.last (gridContext w h s.modes k) mode mv k o (trials.early k s.raster)
        let raster ← reconstructInter q references m r (k % w) (k / w) (trials.late k s.raster)
        pure { raster, modes := s.modes ++ [m], residues := s.residues ++ [r] }) := by
      unfold interStep
      cases he : choices k with
      | intra i => exact absurd he (hn i)
      | _ => rfl
    dsimp only at v1
    rw [hstep', v1] at hstep
    simp only [e1, t1, Option.bind_eq_bind, Option.bind_some, Option.pure_def] at hstep
    cases hstep
    rw [hlast] at t2
    exact hcl.step hw (fun x hx => (t2.elsewhere x hx).trans (l2 x hx)) (codeInter_close hq ho se href hc hr v2 e1 e3 m5
      ⟨t2.y.inside, t2.u.inside, t2.v.inside⟩)

theorem updateStep_close {trials : Trials} {q : Quantizer} (hq : q.InRange) {dw dh w h : Nat} (hT : trials.Local dw dh w h) {o : Raster}
    (ho : o.Sized dw dh w h) {references : References} (href : ∀ m, (reference references m).Sized dw dh w h) {hd : InterFrameHeader}
    {old : List MBModes} (hlen : old.length = w * h) (hold : ∀ (k : Nat) (m : MBModes), old[k]? = some m → m.InterFrameOk hd (gridContext w h old k) ∧ m.segmentIdUpdate = none)
    {k : Nat} {s t : Coded} (hk : k < w * h) (hs : s.raster.Sized dw dh w h) (hstep : updateStep trials.late q references old o w s k = some t)
    (hcl : CloseUpTo q o w k s.raster) : CloseUpTo q o w (k + 1) t.raster := by
  have hw := pos_of_lt_mul hk
  have hc := Nat.mod_lt k hw
  have hr := div_lt_of hk
  have h0 : old[k]? = some (old[k]'(hlen ▸ hk)) := List.getElem?_eq_getElem _
  obtain ⟨m0, h0⟩ : ∃ m0, old[k]? = some m0 := ⟨_, h0⟩
  obtain ⟨hm, hseg⟩ := hold k m0 h0
  obtain ⟨l1, l2⟩ := hT.late k _ hs
  obtain ⟨r, e1, e2⟩ := updateMacroblock_ok k hq ho hs hc hr hm hseg (href m0)
  unfold updateStep at hstep
  rw [h0, Option.bind_eq_bind, Option.bind_some, e1, Option.bind_eq_bind, Option.bind_some] at hstep
  dsimp only at hstep
  rcases hm.cases with ⟨i1, i2⟩ | ⟨sc, -, i2⟩
  · have ⟨a1, a2, a3, a4, a5, a6, a7⟩ := i1
    obtain ⟨t', t1, t2⟩ := reconstructIntra_solved (m := { m0 with skip := some (!r.nonzero) }) l1 hc hr (reference references m0) q ⟨a1, a2, a3, a4, a5, a6, a7⟩ i2.isInter r
    rw [if_neg (by rw [i2.isInter]; decide), t1] at hstep
    cases hstep
    unfold updateMacroblock at e1
    rw [if_neg (by rw [i2.isInter]; decide)] at e1
    obtain ⟨choice, c1, c2⟩ := Option.bind_eq_some_iff.1 e1
    have he : ∀ x, ¬ InMacroblock w k x → t'.pixel x = s.raster.pixel x := fun x hx => (t2.elsewhere x hx).trans (l2 x hx)
    exact hcl.step hw he (codeIntra_close (pass := none) (fun _ h => nomatch h) rfl hq (.first _ _) ho hs hc hr c2 i2.isInter e2 (t2.sized l1) he ⟨t2.y.inside, t2.u.inside, t2.v.inside⟩)
  · have i2' : ({ m0 with skip := some (!r.nonzero) } : MBModes).InterOk hd (gridContext w h old k) sc :=
      ⟨i2.isInter, i2.sel1, i2.sel2, i2.flipped, i2.yMode, i2.uvMode, i2.nearest, i2.near, i2.zero, i2.new, i2.noSplit,
        (fun e => by obtain ⟨k, groups, g1, g2, g3⟩ := i2.split e; exact ⟨k, groups, g1, g2, g3.mode, g3.shared, g3.left, g3.above, g3.zero, g3.new⟩), i2.chroma⟩
    obtain ⟨t', t1, t2⟩ := reconstructInter_solved l1 hc hr (references := references) (m := { m0 with skip := some (!r.nonzero) }) (href _) q i2' r
    rw [if_pos i2.isInter, t1] at hstep
    cases hstep
    unfold updateMacroblock at e1
    rw [if_pos i2.isInter] at e1
    exact hcl.step hw (fun x hx => (t2.elsewhere x hx).trans (l2 x hx)) (updateInter_close hq ho hs hc hr i2 (href m0) e1 i2' ⟨rfl, rfl, rfl⟩ e2
      ⟨t2.y.inside, t2.u.inside, t2.v.inside⟩)

theorem CloseUpTo.resembles {q : Quantizer} {o s : Raster} {dw dh w h : Nat} (ho : o.Sized dw dh w h) (hs : CloseUpTo q o w (w * h) s) : Resembles q o s := by
  have at_ (n : Nat) (hn : 0 < n) (u v : Nat) (hu : u < n * w) (hv : v < n * h) : ∃ j, j < w * h ∧ ∃ x y : Fin n, u = n * (j % w) + x ∧ v = n * (j / w) + y := by
    have h1 : u / n < w := Nat.div_lt_of_lt_mul hu
    have h2 : v / n < h := Nat.div_lt_of_lt_mul hv
    obtain ⟨a, b, c⟩ := mb_index h1 h2
    refine ⟨_, a, ⟨u % n, Nat.mod_lt _ hn⟩, ⟨v % n, Nat.mod_lt _ hn⟩, ?_, ?_⟩
    · rw [b]; exact (Nat.div_add_mod u n).symm
    · rw [c]; exact (Nat.div_add_mod v n).symm
  refine ⟨fun u v hu hv => ?_, fun u v hu hv => ?_, fun u v hu hv => ?_⟩
  · obtain ⟨j, hj, x, y, rfl, rfl⟩ := at_ 16 (by decide) u v (by rw [← ho.y.width]; exact hu) (by rw [← ho.y.height]; exact hv)
    exact (hs j hj).y x y
  · obtain ⟨j, hj, x, y, rfl, rfl⟩ := at_ 8 (by decide) u v (by rw [← ho.u.width]; exact hu) (by rw [← ho.u.height]; exact hv)
    exact (hs j hj).u x y
  · obtain ⟨j, hj, x, y, rfl, rfl⟩ := at_ 8 (by decide) u v (by rw [← ho.v.width]; exact hu) (by rw [← ho.v.height]; exact hv)
    exact (hs j hj).v x y

end Alfalfa
