import Verif.Model.Encode
import Verif.Props.Render
import Verif.Props.Trellis
import Verif.Props.Search
import Verif.Props.Choices

/-! What the encoder makes of a macroblock is what the format can carry. -/

namespace Alfalfa

open TransformSpec QuantizerSpec RenderSpec

/-! ### Blocks -/

theorem natAbs_tdiv_le {a : Int} {b n m : Nat} (h : a.natAbs ≤ m) (hm : m / b ≤ n) : (a.tdiv (b : Int)).natAbs ≤ n := by
  rw [Int.natAbs_tdiv, Int.natAbs_natCast]
  exact (Nat.div_le_div_right h).trans hm

/-- Costs with which the search for coefficients cannot overflow. -/
def SecondPass.Fits (s : SecondPass) : Prop := ∀ t, (s.costs t).distortion ≤ 100

theorem factors_bounds {q : Quantizer} (hq : q.InRange) (type : BlockType) :
    (4 ≤ (q.factors type).1 ∧ 4 ≤ (q.factors type).2) ∧ (q.factors type).1 ≤ 442 ∧ (q.factors type).2 ≤ 442 := by
  have h1 := hq.yAc; have h2 := hq.yDc; have h3 := hq.y2Ac; have h4 := hq.y2Dc; have h5 := hq.uvAc; have h6 := hq.uvDc
  unfold Quantizer.factors
  cases type <;> dsimp only <;> omega

/-- What is known of the coefficients of a block after compression. -/
structure Compressed (c z : Fin 16 → Int) : Prop where
  small : ∀ i, (z i).natAbs ≤ 2041
  dc : c 0 = 0 → z 0 = 0

theorem compress_ok {pass : Option SecondPass} (hp : ∀ s, pass = some s → s.Fits) (mb : Nat) (block : Fin 25) {q : Quantizer} (hq : q.InRange)
    {type : BlockType} {c : Fin 16 → Int} {m : Nat} (hc : ∀ i, (c i).natAbs ≤ m) (hm : m ≤ 2041 ∨ (type = .y2 ∧ m ≤ 16335)) :
    ∃ z, compress pass mb block q type c = some z ∧ Compressed c z := by
  obtain ⟨⟨f1, f2⟩, f3, f4⟩ := factors_bounds hq type
  have hf : type = .y2 → 8 ≤ (q.factors type).1 ∧ 8 ≤ (q.factors type).2 := fun e => by
    subst e; exact ⟨hq.y2Dc.1, hq.y2Ac.1⟩
  unfold compress
  generalize (q.factors type).1 = dc at *
  generalize (q.factors type).2 = ac at *
  have hm' : m / dc ≤ 2041 ∧ m / ac ≤ 2041 := by
    rcases hm with h | ⟨e, h⟩
    · exact ⟨(Nat.div_le_self _ _).trans h, (Nat.div_le_self _ _).trans h⟩
    · obtain ⟨g1, g2⟩ := hf e
      exact ⟨(Nat.div_le_div_left g1 (by decide)).trans (by omega), (Nat.div_le_div_left g2 (by decide)).trans (by omega)⟩
  have hsmall : m ≤ 16335 := by omega
  have hb : ∀ i, -16335 ≤ c i ∧ c i ≤ 16335 := fun i => by have := hc i; omega
  let plain : Fin 16 → Int := fun i => (c i).tdiv (if i = 0 then dc else ac : Nat)
  have hpl : ∀ i, (plain i).natAbs ≤ 2041 := fun i => by
    show ((c i).tdiv _).natAbs ≤ 2041
    split
    · exact natAbs_tdiv_le (hc i) hm'.1
    · exact natAbs_tdiv_le (hc i) hm'.2
  have hquant : quantize dc ac c = some plain := by
    unfold quantize
    rw [if_neg (by omega)]
    refine congrArg some (funext fun i => ?_)
    show toInt16 (plain i) = plain i
    exact toInt16_of_fits (by have := hpl i; omega)
  have h0 : c 0 = 0 → plain 0 = 0 := fun h => by show (c 0).tdiv _ = 0; rw [h, Int.zero_tdiv]
  cases pass with
  | none => exact ⟨plain, hquant, hpl, h0⟩
  | some s =>
    dsimp only
    obtain ⟨z, hz⟩ := C47_total (hp s rfl type) type (dc := dc) (ac := ac) ⟨by omega, by omega⟩ ⟨f3, f4⟩ (s.contexts mb block)
      (c := c) (fun i => by have := hb i; omega) hquant (fun i => by have := hpl i; omega)
    obtain ⟨n1, n2, n3⟩ := C47_near hz hquant
    refine ⟨z, hz, fun i => ?_, fun h => ?_⟩
    · obtain ⟨j, rfl⟩ := zigzag_surj i
      by_cases hj : type.first ≤ j.val
      · exact (n2 j hj).1.trans (hpl _)
      · have hf1 : type.first = 1 := by cases type <;> first | rfl | (exfalso; exact hj (Nat.zero_le _))
        have hj0 : j = 0 := by apply Fin.ext; rw [Fin.val_zero]; omega
        subst hj0
        rw [zigzag_zero]
        rcases n3 hf1 with e | e <;> rw [e]
        · rcases hm with g | ⟨g, _⟩
          · exact (hc 0).trans g
          · subst g; exact absurd hf1 (by decide)
        · decide
    · by_cases hf1 : type.first = 1
      · rcases n3 hf1 with e | e
        · rw [e, h]
        · exact e
      · have hz0 : type.first = 0 := by revert hf1; cases type <;> decide
        have := (n2 0 (by rw [hz0]; exact Nat.zero_le _)).1
        rw [zigzag_zero, h0 h] at this
        exact Int.natAbs_eq_zero.1 (Nat.le_zero.1 this)

theorem codedBlock_representable {type : BlockType} {z : Fin 16 → Int} (h : ∀ i, (z i).natAbs ≤ 2041) (h0 : type = .yAfterY2 → z 0 = 0) :
    (codedBlock z).Representable type :=
  ⟨fun i => by have := h i; show -2114 ≤ z i ∧ z i ≤ 2114; omega, h0, by unfold codedBlock; dsimp only; rw [decide_eq_true_eq]⟩

theorem wht_small {input : Fin 16 → Int} (h : ∀ i, (input i).natAbs ≤ 2041) (i : Fin 16) : (wht input i).natAbs ≤ 16335 := by
  have hb : ∀ j, |at16 (whtIntermediate input) j| ≤ 32657 := fun j => by
    unfold at16
    split
    · exact whtRow_bound (fun i => by have := h i; rw [abs_le]; omega) (by dsimp only; omega)
    · decide
  unfold wht
  dsimp only
  have b0 := abs_le.1 (hb (i.val % 4 + 0))
  have b1 := abs_le.1 (hb (i.val % 4 + 4))
  have b2 := abs_le.1 (hb (i.val % 4 + 8))
  have b3 := abs_le.1 (hb (i.val % 4 + 12))
  generalize at16 (whtIntermediate input) (i.val % 4 + 0) = v0 at *
  generalize at16 (whtIntermediate input) (i.val % 4 + 4) = v1 at *
  generalize at16 (whtIntermediate input) (i.val % 4 + 8) = v2 at *
  generalize at16 (whtIntermediate input) (i.val % 4 + 12) = v3 at *
  have key : ∀ a : Int, |a| ≤ 130628 → (toInt16 (whtRound a)).natAbs ≤ 16335 := fun a ha => by
    obtain ⟨r1, r2⟩ := whtRound_bound ha
    rw [r1]
    have := Int.abs_eq_natAbs (whtRound a)
    omega
  split <;> exact key _ (by rw [abs_le]; omega)

/-! ### Transforms of a macroblock -/

variable {column row : Nat} {o p : Plane}

theorem subtractDct_small (a b : Square 4) (i : Fin 16) : (subtractDct a b i).natAbs ≤ 2041 := by
  have := C41_forward_range a b i
  rw [Int.abs_eq_natAbs] at this
  omega

theorem lumaDct_ok (ho : o.Full) (hp : p.Full) (hx : 16 * column + 16 ≤ o.width) (hy : 16 * row + 16 ≤ o.height)
    (hw : p.width = o.width) (hh : p.height = o.height) (k : Fin 16) :
    ∃ c, lumaDct o p column row k = some c ∧ ∀ i, (c i).natAbs ≤ 2041 := by
  obtain ⟨h1, h2⟩ := block_bounds16 hx hy k
  unfold lumaDct
  rw [Plane.getSquare_spec ho h1 h2, Plane.getSquare_spec hp (by rw [hw]; exact h1) (by rw [hh]; exact h2)]
  exact ⟨_, rfl, subtractDct_small _ _⟩

theorem chromaDct_ok (ho : o.Full) (hp : p.Full) (hx : 8 * column + 8 ≤ o.width) (hy : 8 * row + 8 ≤ o.height)
    (hw : p.width = o.width) (hh : p.height = o.height) (k : Fin 4) :
    ∃ c, chromaDct o p column row k = some c ∧ ∀ i, (c i).natAbs ≤ 2041 := by
  obtain ⟨h1, h2⟩ := block_bounds8 hx hy k
  unfold chromaDct
  rw [Plane.getSquare_spec ho h1 h2, Plane.getSquare_spec hp (by rw [hw]; exact h1) (by rw [hh]; exact h2)]
  exact ⟨_, rfl, subtractDct_small _ _⟩

theorem compressY2_ok {pass : Option SecondPass} (hp : ∀ s, pass = some s → s.Fits) (mb : Nat) {q : Quantizer} (hq : q.InRange)
    {c : Fin 16 → Int} (hc : ∀ i, (c i).natAbs ≤ 16335) : ∃ z, compressY2 pass mb q c = some z ∧ ∀ i, (z i).natAbs ≤ 2041 := by
  unfold compressY2
  cases pass with
  | none =>
    obtain ⟨z, h1, h2⟩ := compress_ok hp mb 24 hq hc (.inr ⟨rfl, Nat.le_refl _⟩)
    exact ⟨z, h1, h2.small⟩
  | some s =>
    have hc' : ∀ i, (checkResetY2 q.y2Dc q.y2Ac c i).natAbs ≤ 16335 := fun i => by
      rcases C47_reset q.y2Dc q.y2Ac c with e | ⟨e, _⟩ <;> rw [e]
      · exact hc i
      · exact Nat.zero_le _
    obtain ⟨z, h1, h2⟩ := compress_ok hp mb 24 hq hc' (.inr ⟨rfl, Nat.le_refl _⟩)
    exact ⟨z, h1, h2.small⟩

theorem codeWhole_ok {pass : Option SecondPass} (hpass : ∀ s, pass = some s → s.Fits) (mb : Nat) {q : Quantizer} (hq : q.InRange)
    (ho : o.Full) (hp : p.Full) (hx : 16 * column + 16 ≤ o.width) (hy : 16 * row + 16 ≤ o.height)
    (hw : p.width = o.width) (hh : p.height = o.height) :
    ∃ b, codeWhole pass mb q o p column row = some b ∧ b.1.Representable .y2 ∧ ∀ k, (b.2 k).Representable .yAfterY2 := by
  choose c hc1 hc2 using lumaDct_ok ho hp hx hy hw hh
  have hup : ∀ k i, (Function.update (c k) 0 0 i).natAbs ≤ 2041 := fun k i => by
    by_cases h : i = 0
    · subst h; rw [Function.update_self]; decide
    · rw [Function.update_of_ne h]; exact hc2 k i
  choose y hy1 hy2 using fun k : Fin 16 => compress_ok hpass mb ⟨k.val, by omega⟩ hq (type := .yAfterY2) (hup k) (.inl (Nat.le_refl _))
  obtain ⟨z, hz1, hz2⟩ := compressY2_ok hpass mb hq (wht_small fun k => hc2 k 0)
  unfold codeWhole
  rw [allSome_some hc1, Option.bind_eq_bind, Option.bind_some, allSome_some hy1, Option.bind_eq_bind, Option.bind_some, hz1]
  exact ⟨_, rfl, codedBlock_representable hz2 (fun h => nomatch h),
    fun k => codedBlock_representable (hy2 k).small fun _ => (hy2 k).dc (Function.update_self _ _ _)⟩

theorem codeChroma_ok {pass : Option SecondPass} (hpass : ∀ s, pass = some s → s.Fits) (mb : Nat) (first : Fin 21) {q : Quantizer} (hq : q.InRange)
    (ho : o.Full) (hp : p.Full) (hx : 8 * column + 8 ≤ o.width) (hy : 8 * row + 8 ≤ o.height)
    (hw : p.width = o.width) (hh : p.height = o.height) :
    ∃ b, codeChroma pass mb first q o p column row = some b ∧ ∀ k, (b k).Representable .uv := by
  choose c hc1 hc2 using chromaDct_ok ho hp hx hy hw hh
  choose z hz1 hz2 using fun k : Fin 4 => compress_ok hpass mb ⟨first.val + k.val, by omega⟩ hq (type := .uv) (hc2 k) (.inl (Nat.le_refl _))
  unfold codeChroma
  rw [allSome_some hc1, Option.bind_eq_bind, Option.bind_some, allSome_some hz1]
  exact ⟨_, rfl, fun k => codedBlock_representable (hz2 k).small (fun h => nomatch h)⟩

/-- One block with `B_PRED`: it succeeds, and the plane keeps its size. -/
theorem codeSub_ok {pass : Option SecondPass} (hpass : ∀ s, pass = some s → s.Fits) (mb : Nat) {q : Quantizer} (hq : q.InRange)
    (modes : Fin 16 → Fin 10) (ho : o.Full) (h16 : 16 ∣ o.width) (hx : 16 * column + 16 ≤ o.width) (hy : 16 * row + 16 ≤ o.height)
    {s : Plane × (Fin 16 → Block)} (hs : s.1.Sized o.width o.height) (hb : ∀ k, (s.2 k).Representable .yWithoutY2) (k : Fin 16) :
    ∃ t, codeSub pass mb q modes o column row s k = some t ∧ t.1.Sized o.width o.height ∧ ∀ k, (t.2 k).Representable .yWithoutY2 := by
  obtain ⟨b1, b2⟩ := block_bounds16 hx hy k
  obtain ⟨p1, e1, e2⟩ := C38_subblock hs.full (by rw [hs.width]; exact h16) (mode := (modes k).val) (by have := (modes k).2; exact Nat.le_of_lt_succ this)
    (column := 4 * column + k.val % 4) (row := 4 * row + k.val / 4) (by rw [hs.width]; exact b1) (by rw [hs.height]; exact b2)
  have s1 := e2.sized hs
  obtain ⟨c, c1, c2⟩ := lumaDct_ok ho s1.full hx hy s1.width s1.height k
  obtain ⟨z, z1, z2⟩ := compress_ok hpass mb ⟨k.val, by omega⟩ hq (type := (pass.map (·.staleType mb)).getD .yWithoutY2) c2 (.inl (Nat.le_refl _))
  obtain ⟨p2, f1, f2⟩ := idctAdd_eq (c := q.dequantizeY z) (f := idct (q.dequantizeY z)) (fun _ _ => rfl) s1.full (x := 4 * (4 * column + k.val % 4))
    (y := 4 * (4 * row + k.val / 4)) (by rw [s1.width]; exact b1) (by rw [s1.height]; exact b2)
  unfold codeSub addLuma
  simp only [e1, c1, z1, f1, Option.bind_eq_bind, Option.bind_some]
  refine ⟨_, rfl, f2.sized s1, fun j => ?_⟩
  dsimp only
  by_cases hj : j = k
  · subst hj; rw [Function.update_self]; exact codedBlock_representable z2.small (fun h => nomatch h)
  · rw [Function.update_of_ne hj]; exact hb j

theorem codeSubs_ok {pass : Option SecondPass} (hpass : ∀ s, pass = some s → s.Fits) (mb : Nat) {q : Quantizer} (hq : q.InRange)
    (modes : Fin 16 → Fin 10) (ho : o.Full) (h16 : 16 ∣ o.width) (hx : 16 * column + 16 ≤ o.width) (hy : 16 * row + 16 ≤ o.height) (l : List (Fin 16)) :
    ∀ s : Plane × (Fin 16 → Block), s.1.Sized o.width o.height → (∀ k, (s.2 k).Representable .yWithoutY2) →
    ∃ t, l.foldlM (codeSub pass mb q modes o column row) s = some t ∧ ∀ k, (t.2 k).Representable .yWithoutY2 := by
  induction l with
  | nil => exact fun s _ hb => ⟨s, rfl, hb⟩
  | cons k l ih =>
    intro s hs hb
    obtain ⟨t, t1, t2, t3⟩ := codeSub_ok hpass mb hq modes ho h16 hx hy hs hb k
    rw [List.foldlM_cons, t1, Option.bind_eq_bind, Option.bind_some]
    exact ih t t2 t3

theorem empty_representable (t : BlockType) : ({} : Block).Representable t := ⟨fun _ => ⟨by show (-2114 : Int) ≤ 0; decide, by show (0 : Int) ≤ 2114; decide⟩, fun _ => rfl, by simp⟩

theorem codeIntraLuma_ok {pass : Option SecondPass} (hpass : ∀ s, pass = some s → s.Fits) (mb : Nat) {q : Quantizer} (hq : q.InRange)
    (choice : IntraChoice) (ho : o.Full) (hp : p.Full) (h16 : 16 ∣ o.width) (hx : 16 * column + 16 ≤ o.width) (hy : 16 * row + 16 ≤ o.height)
    (hw : p.width = o.width) (hh : p.height = o.height) :
    ∃ b, codeIntraLuma pass mb q choice o p column row = some b ∧ b.1.Representable .y2 ∧ (choice.yMode.val = B_PRED → b.1 = {}) ∧
      ∀ k, (b.2 k).Representable (if choice.yMode.val = B_PRED then .yWithoutY2 else .yAfterY2) := by
  unfold codeIntraLuma
  by_cases hm : choice.yMode.val = B_PRED
  · rw [if_pos hm, if_pos hm]
    obtain ⟨t, t1, t2⟩ := codeSubs_ok hpass mb hq choice.bModes ho h16 hx hy (List.finRange 16) (p, fun _ => {}) ⟨hp, hw, hh⟩
      (fun _ => empty_representable _)
    rw [t1]
    exact ⟨_, rfl, empty_representable _, fun _ => rfl, t2⟩
  · rw [if_neg hm, if_neg hm]
    have hle : choice.yMode.val ≤ TM_PRED := by
      have := choice.yMode.2
      have h4 : choice.yMode.val ≠ 4 := hm
      show choice.yMode.val ≤ 3
      omega
    obtain ⟨p1, e1, e2⟩ := C38_luma hp hle (column := column) (row := row) (by rw [hw]; exact hx) (by rw [hh]; exact hy)
    obtain ⟨b, b1, b2, b3⟩ := codeWhole_ok hpass mb hq ho e2.full hx hy (e2.width.trans hw) (e2.height.trans hh)
    rw [e1, Option.bind_eq_bind, Option.bind_some, b1]
    exact ⟨b, rfl, b2, fun h => absurd h hm, b3⟩

/-! ### Macroblocks -/

theorem representable_flag {type : BlockType} {b : Block} (hb : b.Representable type) (h : b.hasNonzero = false) : b = {} := by
  refine Block.ext (funext fun i => ?_) h
  by_contra hc
  have := hb.flag.2 ⟨i, hc⟩
  rw [h] at this
  cases this

theorem assemble_ok {m : MBModes} {y2 : Block} {y : Fin 16 → Block} {u v : Fin 4 → Block} (h2 : y2.Representable .y2)
    (hn : m.yMode = B_PRED ∨ m.yMode = SPLITMV → y2 = {})
    (hy : ∀ k, (y k).Representable (if m.yMode = B_PRED ∨ m.yMode = SPLITMV then .yWithoutY2 else .yAfterY2))
    (hu : ∀ k, (u k).Representable .uv) (hv : ∀ k, (v k).Representable .uv) (hs : m.skip = some (!(assembleResidue y2 y u v).nonzero)) :
    (assembleResidue y2 y u v).Ok m := by
  have hnz : (assembleResidue y2 y u v).nonzero = true ↔ y2.hasNonzero = true ∨ (∃ k, (y k).hasNonzero = true) ∨ (∃ k, (u k).hasNonzero = true) ∨
      (∃ k, (v k).hasNonzero = true) := by
    unfold assembleResidue
    simp only [Bool.or_eq_true, decide_eq_true_eq, or_assoc]
  refine ⟨fun h => ?_, hn, h2, hy, hu, hv, hnz⟩
  rw [h] at hs
  injection hs with hs
  have hz : (assembleResidue y2 y u v).nonzero = false := by
    revert hs
    cases (assembleResidue y2 y u v).nonzero <;> simp
  have none_of : ¬ (y2.hasNonzero = true ∨ (∃ k, (y k).hasNonzero = true) ∨ (∃ k, (u k).hasNonzero = true) ∨ (∃ k, (v k).hasNonzero = true)) := by
    rw [← hnz, hz]; decide
  simp only [not_or, not_exists, Bool.not_eq_true] at none_of
  obtain ⟨n1, n2, n3, n4⟩ := none_of
  have e1 := representable_flag h2 n1
  have e2 : y = fun _ => {} := funext fun k => representable_flag (hy k) (n2 k)
  have e3 : u = fun _ => {} := funext fun k => representable_flag (hu k) (n3 k)
  have e4 : v = fun _ => {} := funext fun k => representable_flag (hv k) (n4 k)
  have hz' := hz
  rw [e1, e2, e3, e4] at hz' ⊢
  unfold assembleResidue at hz' ⊢
  dsimp only at hz' ⊢
  rw [hz']

theorem intraModes_ok (choice : IntraChoice) (r : Residue) : ∃ m, intraModes choice r = some m ∧ m.IntraOk ∧ m.NoInter ∧
    m.skip = some (!r.nonzero) ∧ m.yMode = choice.yMode.val ∧ m.segmentIdUpdate = none := by
  obtain ⟨y, uv, b⟩ := choice
  have huv : uv.val = DC_PRED ∨ uv.val = V_PRED ∨ uv.val = H_PRED ∨ uv.val = TM_PRED := by
    revert uv; decide
  have hno : ∀ (bm : Fin 16 → Nat) (s : Option Bool), ({ skip := s, yMode := y.val, uvMode := uv.val, bModes := bm } : MBModes).NoInter := fun bm s =>
    ⟨rfl, rfl, rfl, rfl, rfl, fun _ => rfl, fun _ => rfl⟩
  unfold intraModes
  dsimp only
  by_cases hm : y.val = B_PRED
  · rw [if_pos hm]
    refine ⟨_, rfl, ⟨.inr (.inr (.inr (.inr hm))), huv, fun _ i => Nat.le_of_lt_succ (b i).2, ?_, ?_, ?_, ?_⟩, hno _ _, rfl, rfl, rfl⟩ <;>
    · intro h
      dsimp only at h
      rw [hm] at h
      exact absurd h (by decide)
  · rw [if_neg hm]
    have h4 : y.val < 5 := y.2
    have hm4 : y.val ≠ 4 := hm
    have hc : y.val = 0 ∨ y.val = 1 ∨ y.val = 2 ∨ y.val = 3 := by omega
    rcases hc with h | h | h | h
    all_goals
      rw [h]
      refine ⟨_, rfl, ⟨?_, huv, ?_, ?_, ?_, ?_, ?_⟩, ⟨rfl, rfl, rfl, rfl, rfl, fun _ => rfl, fun _ => rfl⟩, rfl, rfl, rfl⟩
      · dsimp only; decide
      all_goals
        intro h' i
        first | rfl | exact absurd h' (by dsimp only; decide)

theorem sixteen_dvd {w : Nat} {p : Plane} {h : Nat} (hp : p.Sized (16 * w) h) : 16 ∣ p.width := ⟨w, hp.width⟩

theorem codeIntra_ok {pass : Option SecondPass} (hpass : ∀ s, pass = some s → s.Fits) (mb : Nat) {q : Quantizer} (hq : q.InRange)
    (choice : IntraChoice) {dw dh dw' dh' w h : Nat} {o s : Raster} (ho : o.Sized dw' dh' w h) (hs : s.Sized dw dh w h) (hc : column < w) (hr : row < h) :
    ∃ m r, codeIntra pass mb q choice o s column row = some (m, r) ∧ m.IntraOk ∧ m.NoInter ∧ m.skip = some (!r.nonzero) ∧
      m.segmentIdUpdate = none ∧ r.Ok m := by
  have y1 : 16 * column + 16 ≤ o.y.width := by rw [ho.y.width]; exact mb_bounds hc
  have y2 : 16 * row + 16 ≤ o.y.height := by rw [ho.y.height]; exact mb_bounds hr
  have u1 : 8 * column + 8 ≤ o.u.width := by rw [ho.u.width]; exact mb_bounds hc
  have u2 : 8 * row + 8 ≤ o.u.height := by rw [ho.u.height]; exact mb_bounds hr
  have v1 : 8 * column + 8 ≤ o.v.width := by rw [ho.v.width]; exact mb_bounds hc
  have v2 : 8 * row + 8 ≤ o.v.height := by rw [ho.v.height]; exact mb_bounds hr
  obtain ⟨b, b1, b2, b3, b4⟩ := codeIntraLuma_ok hpass mb hq choice ho.y.full hs.y.full (sixteen_dvd ho.y) y1 y2
    (hs.y.width.trans ho.y.width.symm) (hs.y.height.trans ho.y.height.symm)
  have huv : choice.uvMode.val ≤ TM_PRED := Nat.le_of_lt_succ choice.uvMode.2
  obtain ⟨pu, e1, e2⟩ := C38_chroma hs.u.full huv (column := column) (row := row) (by rw [hs.u.width]; exact mb_bounds hc)
    (by rw [hs.u.height]; exact mb_bounds hr)
  obtain ⟨pv, f1, f2⟩ := C38_chroma hs.v.full huv (column := column) (row := row) (by rw [hs.v.width]; exact mb_bounds hc)
    (by rw [hs.v.height]; exact mb_bounds hr)
  have su := e2.sized hs.u
  have sv := f2.sized hs.v
  obtain ⟨u, c1, c2⟩ := codeChroma_ok hpass mb 16 hq ho.u.full su.full u1 u2 (su.width.trans ho.u.width.symm) (su.height.trans ho.u.height.symm)
  obtain ⟨v, d1, d2⟩ := codeChroma_ok hpass mb 20 hq ho.v.full sv.full v1 v2 (sv.width.trans ho.v.width.symm) (sv.height.trans ho.v.height.symm)
  obtain ⟨m, m1, m2, m3, m4, m5, m6⟩ := intraModes_ok choice (assembleResidue b.1 b.2 u v)
  have hns : ¬ m.yMode = SPLITMV := by
    rw [m5]
    have := choice.yMode.2
    intro h
    have h' : choice.yMode.val = 9 := h
    omega
  refine ⟨m, assembleResidue b.1 b.2 u v, ?_, m2, m3, m4, m6, assemble_ok b2 (fun h => b3 ?_) (fun k => ?_) c2 d2 m4⟩
  · unfold codeIntra
    simp only [b1, e1, f1, c1, d1, m1, Option.bind_eq_bind, Option.bind_some, Option.pure_def]
  · rw [← m5]; exact h.resolve_right hns
  · have := b4 k
    rw [← m5] at this
    simp only [hns, or_false]
    exact this

/-! ### Inter-predicted macroblocks -/

/-- What is known of the mode and vector that are chosen. -/
structure VectorOk (reference : Plane) (rows : List (List UInt8)) (c : MBContext) (mode : Nat) (mv : MotionVector)
    (place : Nat × Nat := (c.column, c.row)) : Prop where
  visible : searchPredict rows mv place.1 place.2 = interSquare 16 reference reference.width mv place.1 place.2
  kind : mode = NEARESTMV ∨ mode = NEARMV ∨ mode = ZEROMV ∨ mode = NEWMV
  modes : ∃ s, census false c = some s ∧ (mode = NEARESTMV → mv = clampMv (s.mvs 1) c) ∧ (mode = NEARMV → mv = clampMv (s.mvs 2) c) ∧
    (mode = ZEROMV → mv = {}) ∧ (mode = NEWMV → CodableFrom (clampMv (s.mvs 0) c) mv)

/-- The choice can be made in pictures of this size: a search for a new vector needs the margins. -/
def InterChoice.Fits (w h : Nat) : InterChoice → Prop
  | .new _ => w ≤ 248 ∧ h ≤ 248
  | _ => True

theorem zero_inMargin {s : Search} {p : Plane} (hs : s.Fits p) : InMargin p {} s.place.1 s.place.2 := by
  have h1 := hs.column; have h2 := hs.row; have h3 := hs.width; have h4 := hs.height; have h5 := hs.left; have h6 := hs.above
  have hz : (({} : MotionVector).x / 8 : Int) = 0 := by decide
  have hz' : (({} : MotionVector).y / 8 : Int) = 0 := by decide
  exact ⟨by rw [hz]; omega, by rw [hz]; omega, by rw [hz']; omega, by rw [hz']; omega⟩

theorem interVector_ok {s : Search} {p : Plane} (hs : s.Fits p) {choice : InterChoice} (hn : ∀ i, choice ≠ .intra i)
    (hf : choice.Fits s.context.width s.context.height) :
    ∃ mode mv, interVector s.rows s.context choice s.place = some (mode, mv) ∧ VectorOk p s.rows s.context mode mv s.place := by
  obtain ⟨sc, hsc, -⟩ := census_bounded false s.context
  cases choice with
  | intra i => exact absurd rfl (hn i)
  | zero =>
    exact ⟨_, _, rfl, searchPredict_eq hs.full hs.rows (zero_inMargin hs), .inr (.inr (.inl rfl)), sc, hsc,
      fun h => absurd h (by decide), fun h => absurd h (by decide), fun _ => rfl, fun h => absurd h (by decide)⟩
  | nearest =>
    refine ⟨NEARESTMV, clampMv (sc.mvs 1) s.context, ?_, (C66_neighbours hs _).1, .inl rfl, sc, hsc, fun _ => rfl, fun h => ?_, fun h => ?_, fun h => ?_⟩
    · unfold interVector; rw [hsc]; rfl
    all_goals exact absurd h (by decide)
  | near =>
    refine ⟨NEARMV, clampMv (sc.mvs 2) s.context, ?_, (C66_neighbours hs _).1, .inr (.inl rfl), sc, hsc, fun h => ?_, fun _ => rfl, fun h => ?_, fun h => ?_⟩
    · unfold interVector; rw [hsc]; rfl
    all_goals exact absurd h (by decide)
  | new cost =>
    have hs' : Search.Fits { rows := s.rows, context := s.context, cost, place := s.place } p :=
      ⟨hs.full, hs.rows, hs.width, hs.height, hs.column, hs.row, hs.left, hs.above⟩
    obtain ⟨d, h1, h2, h3, h4, h5⟩ := C66_search hs' (clampMv (sc.mvs 0) s.context)
    refine ⟨NEWMV, d.add (clampMv (sc.mvs 0) s.context), ?_, (C66_prediction hs hf.1 hf.2 (sc.mvs 0) (d := d) (by omega) (by omega)).1,
      .inr (.inr (.inr rfl)), sc, hsc, fun h => ?_, fun h => ?_, fun h => ?_, fun _ => ⟨d.x, d.y, h2, h3, rfl⟩⟩
    · unfold interVector; dsimp only; rw [hsc, Option.bind_eq_bind, Option.bind_some, h1]; rfl
    all_goals exact absurd h (by decide)

theorem codeInter_ok (mb : Nat) {q : Quantizer} (hq : q.InRange) {dw dh dw' dh' dw'' dh'' w h : Nat} {o s reference : Raster} (ho : o.Sized dw' dh' w h)
    (hs : s.Sized dw dh w h) (href : reference.Sized dw'' dh'' w h) {rows : List (List UInt8)} {c : MBContext} (hc : c.column < w) (hr : c.row < h)
    {mode : Nat} {mv : MotionVector} (hv : VectorOk reference.y rows c mode mv) (hd : InterFrameHeader) :
    ∃ m r sc, codeInter q rows reference c mode mv mb o s = some (m, r) ∧ census m.flipped c = some sc ∧ m.InterOk hd c sc ∧
      m.sel1 = some false ∧ m.skip = some (!r.nonzero) ∧ m.segmentIdUpdate = none ∧ r.Ok m ∧ m.yMode ≠ SPLITMV := by
  have y1 : 16 * c.column + 16 ≤ o.y.width := by rw [ho.y.width]; exact mb_bounds hc
  have y2 : 16 * c.row + 16 ≤ o.y.height := by rw [ho.y.height]; exact mb_bounds hr
  have u1 : 8 * c.column + 8 ≤ o.u.width := by rw [ho.u.width]; exact mb_bounds hc
  have u2 : 8 * c.row + 8 ≤ o.u.height := by rw [ho.u.height]; exact mb_bounds hr
  have v1 : 8 * c.column + 8 ≤ o.v.width := by rw [ho.v.width]; exact mb_bounds hc
  have v2 : 8 * c.row + 8 ≤ o.v.height := by rw [ho.v.height]; exact mb_bounds hr
  have hnone : ∀ s : SecondPass, none = some s → s.Fits := fun _ h => nomatch h
  have hvis := hv.visible
  rw [interSquare_eq href.y.full] at hvis
  obtain ⟨py, g1, g2⟩ := Plane.putSquare_spec hs.y.full (x := 16 * c.column) (y := 16 * c.row) (fun (a b : Fin 16) =>
    UInt8.ofNat (InterSpec.interpolated reference.y (8 * ((16 * c.column + a : Nat) : Int) + mv.x) (8 * ((16 * c.row + b : Nat) : Int) + mv.y)))
    (by rw [hs.y.width]; exact mb_bounds hc) (by rw [hs.y.height]; exact mb_bounds hr)
  have sy := g2.sized hs.y
  obtain ⟨b, b1, b2, b3⟩ := codeWhole_ok (pass := none) hnone mb hq ho.y.full sy.full y1 y2 (sy.width.trans ho.y.width.symm) (sy.height.trans ho.y.height.symm)
  obtain ⟨pu, e1, e2⟩ := C36_inter_prediction hs.u.full href.u.full (href.u.width.trans hs.u.width.symm) (n := 8) (chromaMvs (fun _ => mv) 0)
    (column := c.column) (row := c.row) (by rw [hs.u.width]; exact mb_bounds hc) (by rw [hs.u.height]; exact mb_bounds hr)
  obtain ⟨pv, f1, f2⟩ := C36_inter_prediction hs.v.full href.v.full (href.v.width.trans hs.v.width.symm) (n := 8) (chromaMvs (fun _ => mv) 0)
    (column := c.column) (row := c.row) (by rw [hs.v.width]; exact mb_bounds hc) (by rw [hs.v.height]; exact mb_bounds hr)
  have su := e2.sized hs.u
  have sv := f2.sized hs.v
  obtain ⟨u, c1, c2⟩ := codeChroma_ok (pass := none) hnone mb 16 hq ho.u.full su.full u1 u2 (su.width.trans ho.u.width.symm) (su.height.trans ho.u.height.symm)
  obtain ⟨v, d1, d2⟩ := codeChroma_ok (pass := none) hnone mb 20 hq ho.v.full sv.full v1 v2 (sv.width.trans ho.v.width.symm) (sv.height.trans ho.v.height.symm)
  obtain ⟨sc, s1, s2, s3, s4, s5⟩ := hv.modes
  have hnb : ¬ (mode = B_PRED ∨ mode = SPLITMV) := by
    rcases hv.kind with h | h | h | h <;> subst h <;> decide
  refine ⟨{ skip := some (!(assembleResidue b.1 b.2 u v).nonzero), isInter := true, sel1 := some false, yMode := mode, mvs := fun _ => mv,
            uMvs := chromaMvs fun _ => mv }, assembleResidue b.1 b.2 u v, sc, ?_, s1, ?_, rfl, rfl, rfl,
    assemble_ok b2 (fun h => absurd h hnb) (fun k => ?_) c2 d2 rfl, fun h => hnb (.inr h)⟩
  · unfold codeInter
    simp only [hvis, g1, b1, e1, f1, c1, d1, Option.bind_eq_bind, Option.bind_some, Option.pure_def]
  · refine ⟨rfl, rfl, by simp, by simp, ?_, rfl, fun h _ => s2 h, fun h _ => s3 h, fun h _ => s4 h, fun h => ⟨mv, fun _ => rfl, s5 h⟩,
      fun _ => ⟨rfl, fun _ => rfl⟩, fun h => absurd (.inr h) hnb, fun _ => rfl⟩
    rcases hv.kind with h | h | h | h <;> subst h <;> dsimp only <;> decide
  · dsimp only
    rw [if_neg hnb]
    exact b3 k

/-! ### The loops -/

/-- The first `k` macroblocks are coded: `P` holds for the modes, the coefficients are possible, and the picture has the sums. -/
structure CodedUpTo (dw dh w h : Nat) (q : Quantizer) (reference : MBModes → Raster) (P : List MBModes → Nat → MBModes → Prop) (k : Nat) (s : Coded) : Prop where
  sized : s.raster.Sized dw dh w h
  modes : s.modes.length = k
  residues : s.residues.length = k
  good : ∀ j m, s.modes[j]? = some m → P s.modes j m
  residueOk : ∀ (j : Nat) (m : MBModes) (r : Residue), s.modes[j]? = some m → s.residues[j]? = some r → r.Ok m
  sums : ∀ (j : Nat) (m : MBModes) (r : Residue), s.modes[j]? = some m → s.residues[j]? = some r →
    Sums (reference m) m (codeResidues q m r) (j % w) (j / w) s.raster

theorem getElem?_snoc {α : Type} {l : List α} {a x : α} {j : Nat} (h : (l ++ [a])[j]? = some x) :
    (j < l.length ∧ l[j]? = some x) ∨ (j = l.length ∧ x = a) := by
  rcases Nat.lt_trichotomy j l.length with hj | hj | hj
  · rw [List.getElem?_append_left hj] at h; exact .inl ⟨hj, h⟩
  · subst hj
    rw [List.getElem?_concat_length] at h
    injection h with h
    exact .inr ⟨rfl, h.symm⟩
  · rw [List.getElem?_eq_none (by rw [List.length_append, List.length_singleton]; omega)] at h
    cases h

theorem CodedUpTo.step {dw dh w h : Nat} {q : Quantizer} {reference : MBModes → Raster} {P : List MBModes → Nat → MBModes → Prop}
    (hP : ∀ a b j m, j ≤ a.length → P a j m → P (a ++ b) j m) {k : Nat} (hw : 0 < w) {s : Coded} (hs : CodedUpTo dw dh w h q reference P k s)
    {t : Raster} {m : MBModes} {r : Residue} (ht : t.Sized dw dh w h) (hsum : Sums (reference m) m (codeResidues q m r) (k % w) (k / w) t)
    (he : ∀ x, ¬ InMacroblock w k x → t.pixel x = s.raster.pixel x) (hm : P s.modes k m) (hr : r.Ok m) :
    CodedUpTo dw dh w h q reference P (k + 1) { raster := t, modes := s.modes ++ [m], residues := s.residues ++ [r] } := by
  refine ⟨ht, ?_, ?_, fun j m' hj => ?_, fun j m' r' h1 h2 => ?_, fun j m' r' h1 h2 => ?_⟩
  · dsimp only; rw [List.length_append, hs.modes, List.length_singleton]
  · dsimp only; rw [List.length_append, hs.residues, List.length_singleton]
  · dsimp only at hj ⊢
    rcases getElem?_snoc hj with ⟨h1, h2⟩ | ⟨h1, h2⟩
    · exact hP _ _ _ _ h1.le (hs.good j m' h2)
    · subst h2; rw [h1, hs.modes]; exact hP _ _ _ _ (by rw [hs.modes]) hm
  · dsimp only at h1 h2
    rcases getElem?_snoc h1 with ⟨a1, a2⟩ | ⟨a1, a2⟩
    · rcases getElem?_snoc h2 with ⟨b1, b2⟩ | ⟨b1, b2⟩
      · exact hs.residueOk j m' r' a2 b2
      · rw [hs.modes] at a1; rw [hs.residues] at b1; omega
    · rcases getElem?_snoc h2 with ⟨b1, b2⟩ | ⟨b1, b2⟩
      · rw [hs.modes] at a1; rw [hs.residues] at b1; omega
      · subst a2; subst b2; exact hr
  · dsimp only at h1 h2
    rcases getElem?_snoc h1 with ⟨a1, a2⟩ | ⟨a1, a2⟩
    · rcases getElem?_snoc h2 with ⟨b1, b2⟩ | ⟨b1, b2⟩
      · rw [hs.modes] at a1
        exact (hs.sums j m' r' a2 b2).transfer hs.sized ht (Nat.mod_lt j hw) fun x hx => he x (hx k a1)
      · rw [hs.modes] at a1; rw [hs.residues] at b1; omega
    · rcases getElem?_snoc h2 with ⟨b1, b2⟩ | ⟨b1, b2⟩
      · rw [hs.modes] at a1; rw [hs.residues] at b1; omega
      · subst a2; subst b2; rw [a1, hs.modes]; exact hsum

/-- A loop over the macroblocks. -/
theorem coded_loop {n : Nat} {Inv : Nat → Coded → Prop} {step : Coded → Nat → Option Coded}
    (hstep : ∀ k s, k < n → Inv k s → ∃ t, step s k = some t ∧ Inv (k + 1) t) {s : Coded} (hs : Inv 0 s) :
    ∃ t, (List.range n).foldlM step s = some t ∧ Inv n t := by
  have key : ∀ k, k ≤ n → ∃ t, (List.range k).foldlM step s = some t ∧ Inv k t := by
    intro k
    induction k with
    | zero => exact fun _ => ⟨s, rfl, hs⟩
    | succ k ih =>
      intro hk
      obtain ⟨t, h1, h2⟩ := ih (by omega)
      obtain ⟨u, h3, h4⟩ := hstep k t (by omega) h2
      refine ⟨u, ?_, h4⟩
      rw [List.range_succ, List.foldlM_append, h1, Option.bind_eq_bind, Option.bind_some, List.foldlM_cons, h3]
      rfl
  exact key n (Nat.le_refl n)

/-- The trials write to the macroblock only and keep the size of the picture. -/
structure Trials.Local (dw dh w h : Nat) (t : Trials) : Prop where
  early : ∀ k s, Raster.Sized dw dh w h s → (t.early k s).Sized dw dh w h
  late : ∀ k s, Raster.Sized dw dh w h s → (t.late k s).Sized dw dh w h ∧ ∀ x, ¬ InMacroblock w k x → (t.late k s).pixel x = s.pixel x

theorem div_lt_of {w h k : Nat} (hk : k < w * h) : k / w < h := Nat.div_lt_of_lt_mul hk

theorem pos_of_lt_mul {w h k : Nat} (hk : k < w * h) : 0 < w := by
  rcases Nat.eq_zero_or_pos w with e | e
  · subst e; omega
  · exact e

theorem keyStep_ok {pass : Option SecondPass} (hpass : ∀ s, pass = some s → s.Fits) {trials : Trials} {q : Quantizer} (hq : q.InRange)
    (choices : Nat → IntraChoice) {dw dh w h : Nat} (hT : trials.Local dw dh w h) {o : Raster} (ho : o.Sized dw dh w h) {hd : KeyFrameHeader}
    (h1 : hd.updateSegmentation = none) (h2 : hd.probSkipFalse.isSome = true) (reference : MBModes → Raster) {k : Nat} {s : Coded} (hk : k < w * h)
    (hs : CodedUpTo dw dh w h q reference (fun _ _ m => m.KeyOk hd) k s) :
    ∃ t, keyStep pass trials q choices o w s k = some t ∧ CodedUpTo dw dh w h q reference (fun _ _ m => m.KeyOk hd) (k + 1) t := by
  have hw := pos_of_lt_mul hk
  have hc := Nat.mod_lt k hw
  have hr := div_lt_of hk
  obtain ⟨m, r, e1, m1, m2, m3, m4, m5⟩ := codeIntra_ok hpass k hq (choices k) ho (hT.early k _ hs.sized) hc hr
  obtain ⟨l1, l2⟩ := hT.late k _ hs.sized
  obtain ⟨t, t1, t2⟩ := reconstructIntra_solved l1 hc hr (reference m) q m1 m2.isInter r
  refine ⟨_, by unfold keyStep; simp only [e1, t1, Option.bind_eq_bind, Option.bind_some]; rfl, hs.step (fun _ _ _ _ _ h => h) hw (t2.sized l1)
    ⟨t2.y.inside, t2.u.inside, t2.v.inside⟩ (fun x hx => (t2.elsewhere x hx).trans (l2 x hx)) ⟨⟨?_, fun v hv => ?_, ?_⟩, m1, m2⟩ m5⟩
  · rw [m4, h1]; simp
  · rw [m4] at hv; exact nomatch hv
  · rw [m3, h2]; rfl

theorem empty_coded {dw dh w h : Nat} (q : Quantizer) (reference : MBModes → Raster) (P : List MBModes → Nat → MBModes → Prop) {s : Raster}
    (hs : s.Sized dw dh w h) : CodedUpTo dw dh w h q reference P 0 { raster := s, modes := [], residues := [] } :=
  ⟨hs, rfl, rfl, fun _ _ h => (nomatch h), fun _ _ _ h => (nomatch h), fun _ _ _ h => (nomatch h)⟩

theorem interStep_ok {trials : Trials} {q : Quantizer} (hq : q.InRange) {choices : Nat → InterChoice} {dw dh w h : Nat}
    (hch : ∀ k, (choices k).Fits w h) (hT : trials.Local dw dh w h) {o : Raster} (ho : o.Sized dw dh w h) {references : References}
    (href : references.last.Sized dw dh w h) {rows : List (List UInt8)} (hrows : safeRaster references.last.y = some rows) {hd : InterFrameHeader}
    (h1 : hd.updateSegmentation = none) (h2 : hd.probSkipFalse.isSome = true) {k : Nat} {s : Coded} (hk : k < w * h)
    (hs : CodedUpTo dw dh w h q (reference references) (fun l j m => m.InterFrameOk hd (gridContext w h l j) ∧ m.yMode ≠ SPLITMV) k s) :
    ∃ t, interStep trials q choices rows references o w h s k = some t ∧
      CodedUpTo dw dh w h q (reference references) (fun l j m => m.InterFrameOk hd (gridContext w h l j) ∧ m.yMode ≠ SPLITMV) (k + 1) t := by
  have hw := pos_of_lt_mul hk
  have hc := Nat.mod_lt k hw
  have hr := div_lt_of hk
  have hP : ∀ (a b : List MBModes) (j : Nat) (m : MBModes), j ≤ a.length → (m.InterFrameOk hd (gridContext w h a j) ∧ m.yMode ≠ SPLITMV) →
      (m.InterFrameOk hd (gridContext w h (a ++ b) j) ∧ m.yMode ≠ SPLITMV) := fun a b j m hj hm => by rwa [gridContext_append h a b hw hj]
  obtain ⟨l1, l2⟩ := hT.late k _ hs.sized
  have pre : ∀ (m : MBModes) (r : Residue), m.skip = some (!r.nonzero) → m.segmentIdUpdate = none → m.PrefixOk hd.updateSegmentation hd.probSkipFalse :=
    fun m r m3 m4 => ⟨by rw [m4, h1]; simp, (fun v hv => by rw [m4] at hv; cases hv), by rw [m3, h2]; rfl⟩
  by_cases hi : ∃ i, choices k = .intra i
  · obtain ⟨i, hi⟩ := hi
    obtain ⟨m, r, e1, m1, m2, m3, m4, m5⟩ := codeIntra_ok (pass := none) (fun _ h => nomatch h) k hq i ho (hT.early k _ hs.sized) hc hr
    obtain ⟨t, t1, t2⟩ := reconstructIntra_solved l1 hc hr (reference references m) q m1 m2.isInter r
    refine ⟨_, by unfold interStep; rw [hi]; simp only [e1, t1, Option.bind_eq_bind, Option.bind_some]; rfl, hs.step hP hw (t2.sized l1)
      ⟨t2.y.inside, t2.u.inside, t2.v.inside⟩ (fun x hx => (t2.elsewhere x hx).trans (l2 x hx)) ⟨⟨pre m r m3 m4, .inl ⟨m1, m2⟩⟩, fun e => by have := m1.yMode; rw [e] at this; revert this; decide⟩ m5⟩
  · have hn : ∀ i, choices k ≠ .intra i := fun i e => hi ⟨i, e⟩
    have hfits : Search.Fits { rows, context := gridContext w h s.modes k, cost := fun _ _ => 0 } references.last.y :=
      .own href.y.full hrows href.y.width href.y.height hc hr
    obtain ⟨mode, mv, v1, v2⟩ := interVector_ok hfits hn (hch k)
    obtain ⟨m, r, sc, e1, e2, e3, e4, m3, m4, m5, m6⟩ := codeInter_ok k hq ho (hT.early k _ hs.sized) href (c := gridContext w h s.modes k) hc hr v2 hd
    have hlast : reference references m = references.last := by
      unfold reference; rw [e4]; rfl
    obtain ⟨t, t1, t2⟩ := reconstructInter_solved l1 hc hr (references := references) (m := m) (by rw [hlast]; exact href) q e3 r
    refine ⟨{ raster := t, modes := s.modes ++ [m], residues := s.residues ++ [r] }, ?_, hs.step hP hw (t2.sized l1)
      ⟨t2.y.inside, t2.u.inside, t2.v.inside⟩ (fun x hx => (t2.elsewhere x hx).trans (l2 x hx)) ⟨⟨pre m r m3 m4, .inr ⟨sc, e2, e3⟩⟩, m6⟩ m5⟩
    have hstep : interStep trials q choices rows references o w h s k = (do
        let (mode, mv) ← interVector rows (gridContext w h s.modes k) (choices k)
        let (m, r) ← codeInter q rows references.last (gridContext w h s.modes k) mode mv k o (trials.early k s.raster)
        let raster ← reconstructInter q references m r (k % w) (k / w) (trials.late k s.raster)
        pure { raster, modes := s.modes ++ [m], residues := s.residues ++ [r] }) := by
      unfold interStep
      cases he : choices k with
      | intra i => exact absurd he (hn i)
      | _ => rfl
    dsimp only at v1
    rw [hstep, v1]
    simp only [e1, t1, Option.bind_eq_bind, Option.bind_some]
    rfl

end Alfalfa
