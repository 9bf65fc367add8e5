import Verif.Proof.MotionVector
import Verif.Spec.Macroblock

/-! # Motion vectors (C06) -/

namespace Alfalfa

/-- **C06.** A motion vector whose components are even and of magnitude at most 2046 is read back exactly, under any
probabilities. -/
theorem C06_motion_vector_round_trip (v : MotionVector) (hx : CodableComponent v.x) (hy : CodableComponent v.y)
    (p : Fin 2 → Fin 19 → Prob) : ∃ bits, encMv v p = some bits ∧ RoundTrips (readMv p) bits v := by
  obtain ⟨bits, h1, h2⟩ := parses_mv v p hx.1 (by have := hx.2; omega) hy.1 (by have := hy.2; omega)
  exact ⟨bits, h1, h2.roundTrips⟩

/-- **C06**, the reader's side: whatever the bits and probabilities, a motion vector is read without failure and its
components are in that set; so nothing else can be represented. -/
theorem C06_only_codable_vectors_are_read (p : Fin 2 → Fin 19 → Prob) (d : BoolDecoder) :
    ∃ v d', readMv p d = some (v, d') ∧ CodableComponent v.x ∧ CodableComponent v.y := by
  obtain ⟨v, d', h1, h2⟩ := produces_mv p d
  refine ⟨v, d', h1, ⟨h2.1.1, ?_⟩, ⟨h2.2.1, ?_⟩⟩ <;> omega

/-- **C06**: a motion vector outside the set is never read back from what is written for it, whatever was written. -/
theorem C06_uncodable_vector_is_lost (v : MotionVector) (h : ¬ (CodableComponent v.x ∧ CodableComponent v.y))
    (p : Fin 2 → Fin 19 → Prob) (bits : Bits) : ¬ RoundTrips (readMv p) bits v := by
  intro hr
  obtain ⟨bytes, d', -, h2, -⟩ := hr [] []
  obtain ⟨w, d'', h3, h4⟩ := C06_only_codable_vectors_are_read p (BoolDecoder.init bytes)
  simp only [List.map_nil, List.foldl_nil] at h2
  rw [h2] at h3
  cases h3
  exact h h4

example : CodableComponent (-2046) ∧ CodableComponent 16 ∧ ¬ CodableComponent 3 ∧ ¬ CodableComponent 2048 := by
  unfold CodableComponent; omega

/-- A long form with the implicit bit: magnitude 8 is written without bit 3. -/
example : (encMvComponent (-16) (fun _ => 200)).map List.length = some 11 := by decide +kernel

end Alfalfa
