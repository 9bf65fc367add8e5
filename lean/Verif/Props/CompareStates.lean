import Verif.Model.CompareStates
import Verif.Proof.SaveState
import Verif.Spec.Pixels
import Verif.Props.DecoderExamples
import Mathlib.Algebra.BigOperators.Group.Finset.Basic
import Mathlib.Algebra.BigOperators.Group.Finset.Sigma
import Mathlib.Algebra.BigOperators.Group.Finset.Piecewise

/-! C88: the tools that compare saved decoders say what differs. -/

namespace Alfalfa

open Finset

/-! ### What the numbers mean -/

/-- How many bits differ: those of the common length at which the files differ, and all the bits of the longer file beyond it. -/
def bitsApart (f g : List UInt8) : Nat :=
  8 * (max f.length g.length - min f.length g.length) +
    #{z ∈ range (min f.length g.length) ×ˢ range 8 | (f.getD z.1 0).toNat.testBit z.2 ≠ (g.getD z.1 0).toNat.testBit z.2}

/-- How many of the first `w` by `h` pixels of two planes differ. -/
def pixelsApart (p q : Plane) (w h : Nat) : Nat := #{z ∈ range w ×ˢ range h | p.px z.1 z.2 ≠ q.px z.1 z.2}

/-- The sum of the differences of the first `w` by `h` pixels. -/
def distanceApart (p q : Plane) (w h : Nat) : Nat := ∑ z ∈ range w ×ˢ range h, (((p.px z.1 z.2).toNat : Int) - (q.px z.1 z.2).toNat).natAbs

/-! ### Loops that add -/

theorem foldl_sum {M : Nat} {a : Nat → Nat} : ∀ (n s : Nat), s < M → (List.range n).foldl (fun s i => (s + a i) % M) s = (s + ∑ i ∈ range n, a i) % M
  | 0, s, h => by rw [List.range_zero, List.foldl_nil, sum_range_zero, Nat.add_zero, Nat.mod_eq_of_lt h]
  | n + 1, s, h => by
    rw [List.range_succ, List.foldl_append, foldl_sum n s h, List.foldl_cons, List.foldl_nil, sum_range_succ, Nat.mod_add_mod, Nat.add_assoc]

theorem foldlM_sums {M : Nat} (hM : 0 < M) {a b : Nat → Nat} {f : Nat × Nat → Nat → Option (Nat × Nat)} : ∀ (n : Nat) (s : Nat × Nat), s.1 < M → s.2 < M →
    (∀ i < n, ∀ s : Nat × Nat, s.1 < M → s.2 < M → f s i = some ((s.1 + a i) % M, (s.2 + b i) % M)) →
    (List.range n).foldlM f s = some ((s.1 + ∑ i ∈ range n, a i) % M, (s.2 + ∑ i ∈ range n, b i) % M)
  | 0, s, h1, h2, _ => by
    rw [List.range_zero, List.foldlM_nil, sum_range_zero, sum_range_zero, Nat.add_zero, Nat.add_zero, Nat.mod_eq_of_lt h1, Nat.mod_eq_of_lt h2]
    rfl
  | n + 1, s, h1, h2, hf => by
    rw [List.range_succ, List.foldlM_append, foldlM_sums hM n s h1 h2 fun i hi => hf i (by omega)]
    show (List.foldlM f _ [n] : Option _) = _
    rw [List.foldlM_cons, hf n (by omega) _ (Nat.mod_lt _ hM) (Nat.mod_lt _ hM), sum_range_succ, sum_range_succ]
    show some _ = _
    dsimp only
    rw [Nat.mod_add_mod, Nat.mod_add_mod, Nat.add_assoc, Nat.add_assoc]

/-! ### Bits -/

theorem setBits_eq : ∀ x < 256, setBits.getD x 0 = #{j ∈ range 8 | x.testBit j} := by decide +kernel

theorem bitDifference_eq {f g : List UInt8} (hf : f.length < 2 ^ 28) (hg : g.length < 2 ^ 28) : bitDifference f g = some (bitsApart f g) := by
  have hd : (intDifference f.length g.length).natAbs = max f.length g.length - min f.length g.length := by
    unfold intDifference
    rw [Int.bmod_eq_of_le (by omega) (by omega)]
    omega
  have step (i : Nat) : setBits.getD ((f.getD i 0).toNat ^^^ (g.getD i 0).toNat) 0 =
      #{j ∈ range 8 | (f.getD i 0).toNat.testBit j ≠ (g.getD i 0).toNat.testBit j} := by
    rw [setBits_eq _ (Nat.xor_lt_two_pow (n := 8) (UInt8.toNat_lt _) (UInt8.toNat_lt _))]
    refine congrArg card (filter_congr fun j _ => ?_)
    rw [Nat.testBit_xor]
    cases (f.getD i 0).toNat.testBit j <;> cases (g.getD i 0).toNat.testBit j <;> decide
  have hsum : ∑ i ∈ range (min f.length g.length), setBits.getD ((f.getD i 0).toNat ^^^ (g.getD i 0).toNat) 0 =
      #{z ∈ range (min f.length g.length) ×ˢ range 8 | (f.getD z.1 0).toNat.testBit z.2 ≠ (g.getD z.1 0).toNat.testBit z.2} := by
    rw [card_filter, sum_product]
    refine sum_congr rfl fun i _ => ?_
    rw [step, card_filter]
  have hle : #{z ∈ range (min f.length g.length) ×ˢ range 8 | (f.getD z.1 0).toNat.testBit z.2 ≠ (g.getD z.1 0).toNat.testBit z.2} ≤ min f.length g.length * 8 := by
    refine (card_filter_le _ _).trans ?_
    rw [card_product, card_range, card_range]
  unfold bitDifference
  dsimp only
  rw [hd, if_neg (by omega), Nat.mod_eq_of_lt (by omega), Nat.mod_eq_of_lt (by omega), foldl_sum _ _ (by omega), hsum, Nat.mod_eq_of_lt (by omega)]
  rfl

theorem bitsApart_zero {f g : List UInt8} : bitsApart f g = 0 ↔ f = g := by
  unfold bitsApart
  constructor
  · intro h
    have h1 : f.length = g.length := by omega
    have h2 : #{z ∈ range (min f.length g.length) ×ˢ range 8 | (f.getD z.1 0).toNat.testBit z.2 ≠ (g.getD z.1 0).toNat.testBit z.2} = 0 := by omega
    rw [card_eq_zero, filter_eq_empty_iff] at h2
    refine List.ext_getElem h1 fun i a b => UInt8.toNat_inj.1 (Nat.eq_of_testBit_eq fun j => ?_)
    by_cases hj : j < 8
    · have := h2 (x := (i, j)) (mem_product.2 ⟨mem_range.2 (by omega), mem_range.2 hj⟩)
      rw [List.getD_eq_getElem _ _ a, List.getD_eq_getElem _ _ b] at this
      exact not_not.1 this
    · have lt (x : UInt8) : x.toNat < 2 ^ j := Nat.lt_of_lt_of_le (UInt8.toNat_lt x) (Nat.pow_le_pow_right (by decide) (by omega : 8 ≤ j))
      rw [Nat.testBit_lt_two_pow (lt _), Nat.testBit_lt_two_pow (lt _)]
  · rintro rfl
    rw [filter_false_of_mem fun z _ h => h rfl]
    simp

/-! ### Pixels -/

theorem at_px {p : Plane} (hp : p.cells.length = p.width * p.height) (hb : p.width * p.height ≤ 2 ^ 32) {x y : Nat} (hx : x < p.width) (hy : y < p.height) :
    p.at? x y = some (p.px x y) := by
  have hs : y * p.width + x < p.width * p.height := by
    calc y * p.width + x < y * p.width + p.width := by omega
      _ = (y + 1) * p.width := by ring
      _ ≤ p.height * p.width := Nat.mul_le_mul_right _ hy
      _ = p.width * p.height := Nat.mul_comm ..
  unfold Grid.at? Grid.slot Plane.px
  rw [if_pos ⟨hx, hy⟩, if_pos hx, Nat.mod_eq_of_lt (by omega), List.getD_eq_getElem?_getD, List.getElem?_eq_getElem (by omega), Option.getD_some]

theorem planeDifference_eq {p q : Plane} (hp : p.cells.length = p.width * p.height) (hq : q.cells.length = q.width * q.height)
    (hb : p.width * p.height ≤ 2 ^ 32) (hw : q.width = p.width) (hh : q.height = p.height) {w h : Nat} (ew : w = p.width) (eh : h = p.height) (s : Nat × Nat)
    (h1 : s.1 < 2 ^ 32) (h2 : s.2 < 2 ^ 32) :
    planeDifference p q w h s = some ((s.1 + pixelsApart p q w h) % 2 ^ 32, (s.2 + distanceApart p q w h) % 2 ^ 32) := by
  subst ew eh
  unfold planeDifference pixelsApart distanceApart
  rw [card_filter, sum_product, sum_product]
  refine foldlM_sums (by decide) _ s h1 h2 fun x hx s h1 h2 => ?_
  refine foldlM_sums (by decide) _ s h1 h2 fun y hy s h1 h2 => ?_
  rw [at_px hp hb hx hy, at_px hq (by rw [hw, hh]; exact hb) (hw ▸ hx) (hh ▸ hy)]
  show some _ = some _
  congr 2
  split
  · rfl
  · rw [Nat.add_zero, Nat.mod_eq_of_lt h1]

/-! ### Loading -/

theorem loadOnlyReferences_save {d : Decoder} (h : d.Ok) (blank : Raster) : (loadOnlyReferences blank (saveDecoder d)).map (·.1) =
    some ⟨d.references.last, d.references.last, d.references.last⟩ := by
  have hlen := saveState_length h.state
  have k : Loads (loadOnlyReferences blank) (saveDecoder d) ⟨d.references.last, d.references.last, d.references.last⟩ := by
    unfold loadOnlyReferences saveDecoder saveSection
    refine (loads_tag TAG_DECODER (by decide)).bind' (b := putLE 4 _ ++ (saveState d.state ++ saveReferences d.references)) ?_ rfl
    refine (loads_LE_mod 4 _).bind ?_
    have e : saveState d.state = saveSection TAG_DECODER_STATE (stateLen d.state) ((saveState d.state).drop 5) := rfl
    rw [e]
    have hd : ((saveState d.state).drop 5).length = stateLen d.state := by rw [List.length_drop, hlen]; omega
    generalize (saveState d.state).drop 5 = body at hd
    unfold saveSection
    refine (loads_tag TAG_DECODER_STATE (by decide)).bind' (b := putLE 4 (stateLen d.state) ++ (body ++ saveReferences d.references)) ?_ (by simp)
    refine (loads_LE 4 _ (by have := stateLen_lt h.state; omega)).bind ?_
    have hl := loads_byteList body
    rw [hd] at hl
    exact hl.bind (loads_references h.state.width.2 h.state.height.2 h.references.last)
  have := k []
  rw [List.append_nil] at this
  rw [this]
  rfl

theorem saveDecoder_eq_iff {d e : Decoder} (hd : d.Ok) (he : e.Ok) :
    saveDecoder d = saveDecoder e ↔ d.state = e.state ∧ d.references.last = e.references.last := by
  constructor
  · intro h
    have := (load_save hd d.references.last).symm.trans (h ▸ load_save he d.references.last)
    simp only [Option.some.injEq, Decoder.mk.injEq, References.mk.injEq] at this
    exact ⟨this.1, this.2.1⟩
  · rintro ⟨h1, h2⟩
    unfold saveDecoder saveReferences
    rw [h1, h2]

/-! ### comp-states -/

/-- **C88** (comp-states): for the files of two decoders, each smaller than 256 MiB, the exit status is 0 exactly if the decoders have the same state and the same last
picture.  Else the tool prints the number of bits at which the files differ, and, if the pictures have the same size, the number of pixels at which the last pictures
differ, padding included, and the sum of the differences modulo 2^32; it divides the one number by the number of pixels and the other by the first. -/
theorem C88_compare {d e : Decoder} (hd : d.Ok) (he : e.Ok) (sd : (saveDecoder d).length < 2 ^ 28) (se : (saveDecoder e).length < 2 ^ 28) (blank1 blank2 : Raster) :
    (compareStates blank1 blank2 (saveDecoder d) (saveDecoder e) = .same ↔ d.state = e.state ∧ d.references.last = e.references.last) ∧
    (¬(d.state = e.state ∧ d.references.last = e.references.last) → d.references.last.y.width = e.references.last.y.width →
      d.references.last.y.height = e.references.last.y.height →
      let p := d.references.last
      let q := e.references.last
      let w := p.y.width
      let h := p.y.height
      compareStates blank1 blank2 (saveDecoder d) (saveDecoder e) = .different (bitsApart (saveDecoder d) (saveDecoder e))
        ⟨pixelsApart p.y q.y w h + pixelsApart p.u q.u (w / 2) (h / 2) + pixelsApart p.v q.v (w / 2) (h / 2),
          (distanceApart p.y q.y w h + distanceApart p.u q.u (w / 2) (h / 2) + distanceApart p.v q.v (w / 2) (h / 2)) % 2 ^ 32,
          w * h + (w / 2) * (h / 2) + (w / 2) * (h / 2)⟩) := by
  have ne (x : Decoder) : saveDecoder x ≠ [] := fun h => nomatch h
  have hb := bitDifference_eq sd se
  unfold compareStates
  rw [if_neg (by rintro (h | h) <;> exact ne _ h), hb]
  dsimp only
  by_cases heq : d.state = e.state ∧ d.references.last = e.references.last
  · have : bitsApart (saveDecoder d) (saveDecoder e) = 0 := bitsApart_zero.2 ((saveDecoder_eq_iff hd he).2 heq)
    rw [if_pos this]
    exact ⟨⟨fun _ => heq, fun _ => rfl⟩, fun h => absurd heq h⟩
  · have h0 : bitsApart (saveDecoder d) (saveDecoder e) ≠ 0 := fun h => heq ((saveDecoder_eq_iff hd he).1 (bitsApart_zero.1 h))
    rw [if_neg h0]
    refine ⟨⟨fun h => ?_, fun h => absurd h heq⟩, fun _ hw hh => ?_⟩
    · split at h <;> exact nomatch h
    obtain ⟨⟨r1, x1⟩, l1, l1'⟩ := Option.map_eq_some_iff.1 (loadOnlyReferences_save hd blank1)
    obtain ⟨⟨r2, x2⟩, l2, l2'⟩ := Option.map_eq_some_iff.1 (loadOnlyReferences_save he blank2)
    dsimp only at l1' l2'
    subst l1' l2'
    have op := hd.references.last
    have oq := he.references.last
    have bw : (d.state.width + 15) / 16 ≤ 1024 := by have := hd.state.width; omega
    have bh : (d.state.height + 15) / 16 ≤ 1024 := by have := hd.state.height; omega
    have ew : e.references.last.u.width = d.references.last.u.width := by
      have := op.yWidth; have := oq.yWidth; have := op.uWidth; have := oq.uWidth; omega
    have eh : e.references.last.u.height = d.references.last.u.height := by
      have := op.yHeight; have := oq.yHeight; have := op.uHeight; have := oq.uHeight; omega
    have ew' : e.references.last.v.width = d.references.last.v.width := by
      have := op.yWidth; have := oq.yWidth; have := op.vWidth; have := oq.vWidth; omega
    have eh' : e.references.last.v.height = d.references.last.v.height := by
      have := op.yHeight; have := oq.yHeight; have := op.vHeight; have := oq.vHeight; omega
    have cw : d.references.last.y.width / 2 = d.references.last.u.width := by have := op.yWidth; have := op.uWidth; omega
    have ch : d.references.last.y.height / 2 = d.references.last.u.height := by have := op.yHeight; have := op.uHeight; omega
    have cw' : d.references.last.y.width / 2 = d.references.last.v.width := by have := op.yWidth; have := op.vWidth; omega
    have ch' : d.references.last.y.height / 2 = d.references.last.v.height := by have := op.yHeight; have := op.vHeight; omega
    have area : d.references.last.y.width * d.references.last.y.height = 256 * ((d.state.width + 15) / 16 * ((d.state.height + 15) / 16)) := by
      rw [op.yWidth, op.yHeight]; ring
    have quarter : d.references.last.y.width / 2 * (d.references.last.y.height / 2) = 64 * ((d.state.width + 15) / 16 * ((d.state.height + 15) / 16)) := by
      rw [cw, ch, op.uWidth, op.uHeight]; ring
    have big : (d.state.width + 15) / 16 * ((d.state.height + 15) / 16) ≤ 1024 * 1024 := Nat.mul_le_mul bw bh
    have le (p q : Plane) (w h : Nat) : pixelsApart p q w h ≤ w * h := by
      refine (card_filter_le _ _).trans ?_
      rw [card_product, card_range, card_range]
    have le1 := le d.references.last.y e.references.last.y d.references.last.y.width d.references.last.y.height
    have le2 := le d.references.last.u e.references.last.u (d.references.last.y.width / 2) (d.references.last.y.height / 2)
    have le3 := le d.references.last.v e.references.last.v (d.references.last.y.width / 2) (d.references.last.y.height / 2)
    have uarea : d.references.last.u.width * d.references.last.u.height ≤ 2 ^ 32 := by rw [← cw, ← ch]; omega
    have varea : d.references.last.v.width * d.references.last.v.height ≤ 2 ^ 32 := by rw [← cw', ← ch']; omega
    have total : pixelDifference d.references.last e.references.last = some
        ⟨pixelsApart d.references.last.y e.references.last.y d.references.last.y.width d.references.last.y.height +
            pixelsApart d.references.last.u e.references.last.u (d.references.last.y.width / 2) (d.references.last.y.height / 2) +
            pixelsApart d.references.last.v e.references.last.v (d.references.last.y.width / 2) (d.references.last.y.height / 2),
          (distanceApart d.references.last.y e.references.last.y d.references.last.y.width d.references.last.y.height +
            distanceApart d.references.last.u e.references.last.u (d.references.last.y.width / 2) (d.references.last.y.height / 2) +
            distanceApart d.references.last.v e.references.last.v (d.references.last.y.width / 2) (d.references.last.y.height / 2)) % 2 ^ 32,
          d.references.last.y.width * d.references.last.y.height + d.references.last.y.width / 2 * (d.references.last.y.height / 2) +
            d.references.last.y.width / 2 * (d.references.last.y.height / 2)⟩ := by
      unfold pixelDifference
      rw [if_neg (by rw [hw, hh]; rintro (h | h) <;> exact h rfl)]
      rw [planeDifference_eq op.y oq.y (by omega) hw.symm hh.symm rfl rfl (0, 0) (by decide) (by decide)]
      show (planeDifference _ _ _ _ _).bind _ = _
      rw [planeDifference_eq op.u oq.u uarea ew eh cw ch _ (Nat.mod_lt _ (by decide)) (Nat.mod_lt _ (by decide))]
      show (planeDifference _ _ _ _ _).bind _ = _
      rw [planeDifference_eq op.v oq.v varea ew' eh' cw' ch' _ (Nat.mod_lt _ (by decide)) (Nat.mod_lt _ (by decide))]
      show some _ = some _
      dsimp only
      simp only [Nat.mod_add_mod, Nat.zero_add]
      rw [Option.some.injEq, PixelDifference.mk.injEq]
      refine ⟨Nat.mod_eq_of_lt (by omega), rfl, ?_⟩
      rw [area, quarter]
      generalize (d.state.width + 15) / 16 * ((d.state.height + 15) / 16) = n at big
      rw [Nat.mod_eq_of_lt (a := 256 * n) (by omega), Nat.mod_eq_of_lt (by omega)]
      omega
    rw [l1, l2]
    dsimp only [Option.bind_some]
    rw [total]

theorem pixelsApart_self (p : Plane) (w h : Nat) : pixelsApart p p w h = 0 := by
  unfold pixelsApart
  rw [filter_false_of_mem fun z _ h => h rfl, card_empty]

theorem distanceApart_self (p : Plane) (w h : Nat) : distanceApart p p w h = 0 := by
  unfold distanceApart
  refine sum_eq_zero fun z _ => ?_
  rw [Int.sub_self, Int.natAbs_zero]

/-- **C88** (comp-states): two decoders with the same last picture and another state are told apart, but then the second number that is printed is zero divided by
zero. -/
theorem C88_compare_same_picture {d e : Decoder} (hd : d.Ok) (he : e.Ok) (sd : (saveDecoder d).length < 2 ^ 28) (se : (saveDecoder e).length < 2 ^ 28)
    (blank1 blank2 : Raster) (hl : d.references.last = e.references.last) (hs : d.state ≠ e.state) :
    ∃ bits total, 0 < bits ∧ compareStates blank1 blank2 (saveDecoder d) (saveDecoder e) = .different bits ⟨0, 0, total⟩ := by
  obtain ⟨-, h2⟩ := C88_compare hd he sd se blank1 blank2
  have h := h2 (fun h => hs h.1) (by rw [hl]) (by rw [hl])
  dsimp only at h
  rw [hl, pixelsApart_self, pixelsApart_self, pixelsApart_self, distanceApart_self, distanceApart_self, distanceApart_self] at h
  refine ⟨_, _, ?_, h⟩
  rcases Nat.eq_zero_or_pos (bitsApart (saveDecoder d) (saveDecoder e)) with h0 | h0
  · exact absurd ((saveDecoder_eq_iff hd he).1 (bitsApart_zero.1 h0)).1 hs
  · exact h0

/-- **C88** is false of files of any size: a file of one byte and a file of 4 GiB and one byte that begins with the same byte are called the same. -/
theorem C88_large_files_called_same : ∃ f g : List UInt8, f ≠ g ∧ ∀ blank1 blank2, compareStates blank1 blank2 f g = .same := by
  obtain ⟨r, hl⟩ : ∃ r : List UInt8, r.length = 2 ^ 32 := ⟨List.replicate (2 ^ 32) 1, List.length_replicate⟩
  refine ⟨[7], 7 :: r, fun h => ?_, fun blank1 blank2 => ?_⟩
  · have := congrArg List.length h
    rw [List.length_cons, List.length_cons, hl, List.length_nil] at this
    omega
  · have hb : bitDifference [7] (7 :: r) = some 0 := by
      unfold bitDifference intDifference
      rw [List.length_cons, List.length_cons, List.length_nil, hl]
      have h1 : (((0 + 1 : Nat) : Int) - ((2 ^ 32 + 1 : Nat) : Int)).bmod (2 ^ 32) = 0 := by decide +kernel
      have h2 : min ((0 + 1) % 2 ^ 32) ((2 ^ 32 + 1) % 2 ^ 32) = 1 := by decide +kernel
      rw [h1, h2]
      dsimp only
      rw [if_neg (by decide)]
      show some ((8 * Int.natAbs 0 + setBits.getD ((7 : UInt8).toNat ^^^ (7 : UInt8).toNat) 0) % 2 ^ 32) = some 0
      decide +kernel
    unfold compareStates
    rw [if_neg (by rintro (h | h) <;> exact nomatch h), hb]
    rfl

/-! ### xc-diff -/

theorem tables_same {a b : ProbabilityTables} : a.same b = true ↔ a = b := by
  unfold ProbabilityTables.same
  rw [Bool.and_eq_true, Bool.and_eq_true, Bool.and_eq_true, decide_eq_true_iff, decide_eq_true_iff, decide_eq_true_iff, decide_eq_true_iff, ProbabilityTables.ext_iff]
  tauto

theorem segmentation_same {a b : Segmentation} : a.same b = true ↔ a = b := by
  unfold Segmentation.same
  simp only [Bool.and_eq_true, decide_eq_true_iff, beq_iff_eq, Segmentation.ext_iff]
  tauto

theorem filter_same {a b : FilterAdjustments} : a.same b = true ↔ a = b := by
  unfold FilterAdjustments.same
  simp only [Bool.and_eq_true, decide_eq_true_iff, FilterAdjustments.ext_iff]

theorem option_same {α : Type} {eq : α → α → Bool} (h : ∀ a b, eq a b = true ↔ a = b) : ∀ {a b : Option α}, optionSame eq a b = true ↔ a = b
  | some a, some b => by unfold optionSame; rw [h, Option.some.injEq]
  | none, none => by unfold optionSame; simp
  | some _, none => by unfold optionSame; simp
  | none, some _ => by unfold optionSame; simp

theorem state_same {a b : DecoderState} : a.same b = true ↔ a = b := by
  unfold DecoderState.same
  simp only [Bool.and_eq_true, decide_eq_true_iff, tables_same, option_same fun _ _ => segmentation_same, option_same fun _ _ => filter_same, DecoderState.ext_iff]
  tauto

theorem unlessSame_mem {b : Bool} {l : List DiffMessage} {m : DiffMessage} : m ∈ unlessSame b l ↔ b = false ∧ m ∈ l := by
  unfold unlessSame
  cases b <;> simp

/-- The parts of a decoder, each with the message that says that it differs. -/
def PartDiffers (d e : Decoder) : DiffMessage → Prop
  | .decoders => ¬(d.state = e.state ∧ d.references.last = e.references.last)
  | .dimensions => ¬(d.state.width = e.state.width ∧ d.state.height = e.state.height)
  | .states => d.state ≠ e.state
  | .tables => d.state.tables ≠ e.state.tables
  | .coefficients => d.state.tables.coeffProbs ≠ e.state.tables.coeffProbs
  | .yModes => d.state.tables.yModeProbs ≠ e.state.tables.yModeProbs
  | .uvModes => d.state.tables.uvModeProbs ≠ e.state.tables.uvModeProbs
  | .vectors => d.state.tables.mvProbs ≠ e.state.tables.mvProbs
  | .segmentations => d.state.segmentation ≠ e.state.segmentation
  | .filters => d.state.filterAdjustments ≠ e.state.filterAdjustments
  | .references => d.references.last ≠ e.references.last
  | .last => d.references.last ≠ e.references.last
  | .golden => d.references.last ≠ e.references.last
  | .alternative => d.references.last ≠ e.references.last

/-- **C88** (xc-diff): for the files of two decoders, unless the hashes of their last pictures collide, the exit status is 0 exactly if the decoders have the same state and
the same last picture, and then nothing is printed; else it is 1, and a message is printed exactly for each part that differs.  Missing: the golden and the alternate picture,
which are not in the files; the messages about them repeat the one about the last picture. -/
theorem C88_diff_partial (mix : Nat → Nat → Nat) {d e : Decoder} (hd : d.Ok) (he : e.Ok) (blank1 blank2 : Raster)
    (hm : d.references.last.hash mix = e.references.last.hash mix → d.references.last = e.references.last) :
    ∃ status messages, diffStates mix blank1 blank2 (saveDecoder d) (saveDecoder e) = some (status, messages) ∧
      (status = 0 ↔ d.state = e.state ∧ d.references.last = e.references.last) ∧ status ≤ 1 ∧ ∀ m, m ∈ messages ↔ PartDiffers d e m := by
  have hr : d.references.last.sameHash mix e.references.last = true ↔ d.references.last = e.references.last := by
    unfold Raster.sameHash
    rw [decide_eq_true_iff]
    exact ⟨hm, fun h => by rw [h]⟩
  unfold diffStates
  rw [load_save hd, load_save he]
  simp only [Option.bind_eq_bind, Option.bind_some]
  have hsame : Decoder.same mix ⟨d.state, ⟨d.references.last, d.references.last, d.references.last⟩⟩ ⟨e.state, ⟨e.references.last, e.references.last, e.references.last⟩⟩ = true ↔
      d.state = e.state ∧ d.references.last = e.references.last := by
    unfold Decoder.same References.same
    simp only [Bool.and_eq_true, state_same, hr]
    tauto
  split
  · next h =>
    have h' := hsame.1 h
    refine ⟨0, [], rfl, ⟨fun _ => h', fun _ => rfl⟩, by decide, fun m => ⟨(fun h => nomatch h), fun hp => ?_⟩⟩
    obtain ⟨h1, h2⟩ := h'
    cases m <;> simp [PartDiffers, h1, h2] at hp
  · next h =>
    have h' : ¬_ := fun x => h (hsame.2 x)
    refine ⟨1, _, rfl, ⟨(fun x => nomatch x), fun x => absurd x h'⟩, by decide, fun m => ?_⟩
    unfold diffMessages References.same
    have fs : ∀ {b : Bool}, b = false ↔ ¬(b = true) := by intro b; cases b <;> simp
    simp only [List.mem_append, unlessSame_mem, fs, state_same, tables_same, option_same fun _ _ => segmentation_same, option_same fun _ _ => filter_same, hr,
      Bool.and_eq_true, decide_eq_true_iff, List.mem_singleton]
    have s1 : d.state = e.state → d.state.tables = e.state.tables ∧ d.state.segmentation = e.state.segmentation ∧ d.state.filterAdjustments = e.state.filterAdjustments :=
      fun h => by rw [h]; exact ⟨rfl, rfl, rfl⟩
    have s2 : d.state.tables = e.state.tables → d.state.tables.coeffProbs = e.state.tables.coeffProbs ∧ d.state.tables.yModeProbs = e.state.tables.yModeProbs ∧
        d.state.tables.uvModeProbs = e.state.tables.uvModeProbs ∧ d.state.tables.mvProbs = e.state.tables.mvProbs := fun h => by rw [h]; exact ⟨rfl, rfl, rfl, rfl⟩
    clear hsame h hr hm
    cases m <;> simp only [PartDiffers, reduceCtorEq, and_false, or_false, and_true, false_or, true_iff, ne_eq] <;> grind

/-- **C88** is false of the golden and the alternate picture: decoders that differ in them are called the same by both tools. -/
theorem C88_golden_not_compared (mix : Nat → Nat → Nat) : ∃ d e : Decoder, d.Ok ∧ e.Ok ∧ d.references.golden ≠ e.references.golden ∧
    d.references.alternative ≠ e.references.alternative ∧
    ∀ blank1 blank2, diffStates mix blank1 blank2 (saveDecoder d) (saveDecoder e) = some (0, []) ∧ compareStates blank1 blank2 (saveDecoder d) (saveDecoder e) = .same := by
  let e : Decoder := ⟨exampleDecoder.state, ⟨grayRaster 17 20 1, grayRaster 17 20 5, grayRaster 17 20 6⟩⟩
  have he : e.Ok := ⟨exampleDecoder_ok.state, ⟨grayRaster_ok .., grayRaster_ok .., grayRaster_ok ..⟩⟩
  have sd : (saveDecoder exampleDecoder).length < 2 ^ 28 := by decide +kernel
  have se : (saveDecoder e).length < 2 ^ 28 := by decide +kernel
  refine ⟨exampleDecoder, e, exampleDecoder_ok, he, by decide +kernel, by decide +kernel, fun blank1 blank2 => ⟨?_, ?_⟩⟩
  · obtain ⟨status, messages, h1, h2, -, h3⟩ := C88_diff_partial mix exampleDecoder_ok he blank1 blank2 fun _ => rfl
    rw [h1, h2.2 ⟨rfl, rfl⟩]
    cases messages with
    | nil => rfl
    | cons m rest =>
      have := (h3 m).1 (List.mem_cons_self ..)
      cases m <;> first | exact absurd rfl this | exact absurd ⟨rfl, rfl⟩ this
  · exact (C88_compare exampleDecoder_ok he sd se blank1 blank2).1.2 ⟨rfl, rfl⟩

/-- **C88**: the two tools agree on whether decoders are the same. -/
theorem C88_agree (mix : Nat → Nat → Nat) {d e : Decoder} (hd : d.Ok) (he : e.Ok) (sd : (saveDecoder d).length < 2 ^ 28) (se : (saveDecoder e).length < 2 ^ 28)
    (blank1 blank2 blank3 blank4 : Raster) (hm : d.references.last.hash mix = e.references.last.hash mix → d.references.last = e.references.last) :
    compareStates blank1 blank2 (saveDecoder d) (saveDecoder e) = .same ↔ ∃ messages, diffStates mix blank3 blank4 (saveDecoder d) (saveDecoder e) = some (0, messages) := by
  obtain ⟨status, messages, h1, h2, -, -⟩ := C88_diff_partial mix hd he blank3 blank4 hm
  rw [(C88_compare hd he sd se blank1 blank2).1, ← h2, h1]
  constructor
  · intro h
    exact ⟨messages, by rw [h]⟩
  · rintro ⟨m, h⟩
    exact (Prod.mk.inj (Option.some.inj h)).1

/-! ### Examples -/

/-- The example decoder with another picture and other probabilities of modes. -/
def exampleDecoder3 : Decoder :=
  ⟨{ exampleDecoder.state with tables := { yModeProbs := fun _ => 9 } }, ⟨grayRaster 17 20 4, grayRaster 17 20 2, grayRaster 17 20 3⟩⟩

theorem exampleDecoder3_ok : exampleDecoder3.Ok :=
  ⟨⟨by decide, by decide, fun _ h => (nomatch h), fun _ h => (nomatch h)⟩, ⟨grayRaster_ok .., grayRaster_ok .., grayRaster_ok ..⟩⟩

/-- The luma pixels, 32 by 32 with the padding, differ by 3 each. -/
example (blank : Raster) : ∃ bits, compareStates blank blank (saveDecoder exampleDecoder) (saveDecoder exampleDecoder3) = .different bits ⟨1024, 3072, 1536⟩ := by
  have sd : (saveDecoder exampleDecoder).length < 2 ^ 28 := by decide +kernel
  have se : (saveDecoder exampleDecoder3).length < 2 ^ 28 := by decide +kernel
  have h := (C88_compare exampleDecoder_ok exampleDecoder3_ok sd se blank blank).2 (fun h => absurd h.2 (by decide +kernel)) rfl rfl
  dsimp only at h
  have px (s : UInt8) (x y : Nat) (hx : x < 32) (hy : y < 32) : (grayRaster 17 20 s).y.px x y = s := by
    show (if x < 32 then (List.replicate 1024 s).getD (y * 32 + x) 0 else 0) = s
    rw [if_pos hx, List.getD_eq_getElem?_getD, List.getElem?_replicate, if_pos (by omega), Option.getD_some]
  have h1 : pixelsApart exampleDecoder.references.last.y exampleDecoder3.references.last.y 32 32 = 1024 := by
    unfold pixelsApart
    rw [filter_true_of_mem fun z hz => ?_, card_product, card_range]
    obtain ⟨hx, hy⟩ := mem_product.1 hz
    show (grayRaster 17 20 1).y.px _ _ ≠ (grayRaster 17 20 4).y.px _ _
    rw [px _ _ _ (mem_range.1 hx) (mem_range.1 hy), px _ _ _ (mem_range.1 hx) (mem_range.1 hy)]
    decide
  have h2 : distanceApart exampleDecoder.references.last.y exampleDecoder3.references.last.y 32 32 = 3072 := by
    unfold distanceApart
    rw [sum_congr rfl fun z hz => show _ = 3 from ?_, sum_const, card_product, card_range]
    · rfl
    obtain ⟨hx, hy⟩ := mem_product.1 hz
    show ((((grayRaster 17 20 1).y.px _ _).toNat : Int) - ((grayRaster 17 20 4).y.px _ _).toNat).natAbs = 3
    rw [px _ _ _ (mem_range.1 hx) (mem_range.1 hy), px _ _ _ (mem_range.1 hx) (mem_range.1 hy)]
    decide
  have eu : exampleDecoder3.references.last.u = exampleDecoder.references.last.u := rfl
  have ev : exampleDecoder3.references.last.v = exampleDecoder.references.last.v := rfl
  have ew : exampleDecoder.references.last.y.width = 32 := rfl
  have eh : exampleDecoder.references.last.y.height = 32 := rfl
  rw [eu, ev, ew, eh, pixelsApart_self, pixelsApart_self, distanceApart_self, distanceApart_self, h1, h2] at h
  exact ⟨_, h⟩

example (mix : Nat → Nat → Nat) (hm : (grayRaster 17 20 1).hash mix ≠ (grayRaster 17 20 4).hash mix) (blank : Raster) :
    ∃ messages, diffStates mix blank blank (saveDecoder exampleDecoder) (saveDecoder exampleDecoder3) = some (1, messages) ∧
      DiffMessage.yModes ∈ messages ∧ DiffMessage.last ∈ messages ∧ DiffMessage.coefficients ∉ messages := by
  obtain ⟨status, messages, h1, h2, h3, h4⟩ := C88_diff_partial mix exampleDecoder_ok exampleDecoder3_ok blank blank fun h => absurd h hm
  have hl : exampleDecoder.references.last ≠ exampleDecoder3.references.last := by decide +kernel
  have hs : status = 1 := by
    have : status ≠ 0 := fun h => hl (h2.1 h).2
    omega
  subst hs
  refine ⟨messages, h1, (h4 _).2 (fun h => ?_), (h4 _).2 hl, fun h => (h4 _).1 h rfl⟩
  exact absurd (congrFun h 0) (by decide)

end Alfalfa
