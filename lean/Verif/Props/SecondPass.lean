import Verif.Props.Trellis
import Verif.Model.Encode

/-! C70: the second pass over a key frame (src/encoder/encode_intra.cc:388-456) chooses cheaper coefficients; it must not choose larger ones.
It does for blocks of `B_PRED` macroblocks that were not `B_PRED` in the first pass. -/

namespace Alfalfa

theorem zigzag_onto : ∀ j : Fin 16, ∃ i : Fin 16, zigzag i = j ∧ (i.val = 0 ↔ j = 0) := by decide +kernel

/-- No coefficient of `z` is further from zero than that of `plain`, none is on the other side. -/
def Shrinks (plain z : Fin 16 → Int) : Prop :=
  ∀ i, (z i).natAbs ≤ (plain i).natAbs ∧ (0 ≤ plain i → 0 ≤ z i) ∧ (plain i ≤ 0 → z i ≤ 0)

/-- **C70** (one block): the second pass does not make a coefficient larger than the first pass, if the block has its own DC coefficient or if
that has been moved to the Y2 block.  Missing: the blocks for which neither holds, see `C70_stale_type`. -/
theorem C70_shrinks_partial {s : SecondPass} {mb : Nat} {b : Fin 25} {q : Quantizer} {type : BlockType} {c plain z : Fin 16 → Int}
    (ht : type = .yAfterY2 → c 0 = 0) (h1 : compress none mb b q type c = some plain) (h2 : compress (some s) mb b q type c = some z) :
    Shrinks plain z := by
  obtain ⟨-, hn, h0⟩ := C47_near (type := type) h2 h1
  intro j
  obtain ⟨i, rfl, hi⟩ := zigzag_onto j
  by_cases hf : type.first ≤ i.val
  · exact hn i hf
  · have e : type = .yAfterY2 ∧ i.val = 0 := by
      cases type
      · exact ⟨rfl, by simp only [BlockType.first] at hf; omega⟩
      all_goals exact absurd (Nat.zero_le _) hf
    obtain ⟨rfl, e⟩ := e
    have hz : z 0 = 0 := by
      rcases h0 rfl with h | h
      · rw [h, ht rfl]
      · exact h
    rw [hi.1 e, hz]
    exact ⟨Nat.zero_le _, fun _ => le_refl _, fun _ => le_refl _⟩

/-- **C70** (one block of a `B_PRED` macroblock): the same, if the macroblock had separate block modes in the first pass too. -/
theorem C70_sub_partial {s : SecondPass} {mb : Nat} (hs : s.staleType mb = .yWithoutY2) {q : Quantizer} {modes : Fin 16 → Fin 10} {o : Plane}
    {column row : Nat} {at' first second : Plane × (Fin 16 → Block)} {k : Fin 16}
    (h1 : codeSub none mb q modes o column row at' k = some first) (h2 : codeSub (some s) mb q modes o column row at' k = some second) :
    Shrinks (first.2 k).coeffs (second.2 k).coeffs := by
  unfold codeSub at h1 h2
  rw [Option.map_some, Option.getD_some, hs] at h2
  rw [Option.map_none, Option.getD_none] at h1
  obtain ⟨p, hp, h1⟩ := Option.bind_eq_some_iff.1 h1
  obtain ⟨c, hc, h1⟩ := Option.bind_eq_some_iff.1 h1
  obtain ⟨plain, hplain, h1⟩ := Option.bind_eq_some_iff.1 h1
  obtain ⟨p1, -, h1⟩ := Option.bind_eq_some_iff.1 h1
  obtain ⟨p', hp', h2⟩ := Option.bind_eq_some_iff.1 h2
  obtain ⟨c', hc', h2⟩ := Option.bind_eq_some_iff.1 h2
  obtain ⟨z, hz, h2⟩ := Option.bind_eq_some_iff.1 h2
  obtain ⟨p2, -, h2⟩ := Option.bind_eq_some_iff.1 h2
  cases h1
  cases h2
  rw [hp] at hp'
  cases hp'
  rw [hc] at hc'
  cases hc'
  simp only [Function.update_self, codedBlock]
  exact C70_shrinks_partial (type := .yWithoutY2) (fun h => BlockType.noConfusion h) hplain hz

/-- A second pass in which a longer run of tokens costs more; the macroblocks were of the given type in the first. -/
def exampleSecondPass (type : BlockType) : SecondPass :=
  { costs := fun _ => { token := fun _ _ t => 100 * ((t.val + 1) % 12), base := fun _ => 0, rate := 300, distortion := 1 }
    contexts := fun _ _ => 0, staleType := fun _ => type }

/-- A bright picture with a brighter corner. -/
def brightPlane : Plane := ⟨16, 16, (List.range 256).map fun i => if i = 0 then 250 else 200⟩

/-- A picture of which nothing has been reconstructed. -/
def darkPlane : Plane := ⟨16, 16, List.replicate 256 0⟩

/-- The first block of `brightPlane` with quantizer index 30: its DC coefficient and two pixels after reconstruction. -/
def firstBlock (pass : Option SecondPass) : Option (Int × Option UInt8 × Option UInt8) := do
  let q ← quantizer (uniformIndices 30)
  let s ← codeSub pass 0 q (fun _ => 0) brightPlane 0 0 (darkPlane, fun _ => {}) 0
  pure ((s.2 0).coeffs 0, s.1.at? 1 1, s.1.at? 2 2)

/-- **C70** (the claim is false): a block of a `B_PRED` macroblock that had a Y2 block in the first pass is taken for one whose DC coefficient is
elsewhere.  That coefficient is left as it is, not quantized, and dequantized nevertheless: where the picture shows 200 the first pass gives
203 and so does the second for a macroblock that was `B_PRED` before; for the others the coefficient is 601 in place of 22, the pixels are 255. -/
theorem C70_stale_type :
    brightPlane.at? 1 1 = some 200 ∧ firstBlock none = some (22, some 203, some 204) ∧
    firstBlock (some (exampleSecondPass .yWithoutY2)) = some (22, some 203, some 204) ∧
    firstBlock (some (exampleSecondPass .yAfterY2)) = some (601, some 255, some 255) := by decide +kernel

/-- **C70** (always): whatever the costs and the block, with the wrong type the DC coefficient that is sent is the one before quantization or 0. -/
theorem C70_stale_dc {s : SecondPass} {mb : Nat} {b : Fin 25} {q : Quantizer} {c plain z : Fin 16 → Int}
    (h1 : compress none mb b q .yAfterY2 c = some plain) (h2 : compress (some s) mb b q .yAfterY2 c = some z) :
    z 0 = c 0 ∨ z 0 = 0 := (C47_near (type := .yAfterY2) h2 h1).2.2 rfl

end Alfalfa
