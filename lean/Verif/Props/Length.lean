import Verif.Proof.Length
import Verif.Props.Encode
import Verif.Spec.Terminate

/-! C68: bounds on the length of the first partition, whose field in the frame tag has nineteen bits. -/

namespace Alfalfa

/-- **C68** (key frames): with any tables, the first partition of a key frame takes at most 289 bits for each macroblock and 16032 for the header and
the flush, and with segmentation 14 and 98 more. -/
theorem C68_key {f : Frame KeyFrameHeader} (hf : KeyFrameOk f) {t : ProbabilityTables} {b : List UInt8} (h : keyKind.serializeFirst t f = some b) :
    8 * b.length ≤ 16130 + 303 * ((f.width + 15) / 16 * ((f.height + 15) / 16)) ∧
    (f.header.updateSegmentation = none → 8 * b.length ≤ 16032 + 289 * ((f.width + 15) / 16 * ((f.height + 15) / 16))) := by
  unfold FrameKind.serializeFirst at h
  obtain ⟨x, h1, h2⟩ := Option.bind_eq_some_iff.1 h
  have c1 := encodeBits_cost h2
  have c2 : cost (keyKind.writeHeader f.header) ≤ _ := cost_keyHeader f.header
  have key (j : Nat) (m : MBModes) (hj : f.modes[j]? = some m) := fun b hb => cost_keyMB (c := gridContext (macroblockDimension f.width) (macroblockDimension f.height) f.modes (0 + j)) (b := b) (hf.modes j m hj) hb
  rw [cost_append] at c1
  refine ⟨?_, fun hs => ?_⟩
  · have c3 := cost_MBs (c := 303) f.modes 0 x (fun j m hj b hb => (key j m hj b hb).trans (by split <;> omega)) h1
    have : (if f.header.updateSegmentation.isSome then 98 else 0) ≤ 98 := by split <;> omega
    rw [show f.modes.length = _ from hf.count] at c3
    generalize (f.width + 15) / 16 * ((f.height + 15) / 16) = n at *
    omega
  · rw [hs] at c2 key
    have c3 := cost_MBs (c := 289) f.modes 0 x (fun j m hj b hb => key j m hj b hb) h1
    have c2 : _ ≤ 16000 := c2
    rw [show f.modes.length = _ from hf.count] at c3
    generalize (f.width + 15) / 16 * ((f.height + 15) / 16) = n at *
    omega

/-- **C68** (inter frames): 3269 bits for each macroblock in general, and 224 if no macroblock has a vector for each block, and again 14 and 98 more with
segmentation. -/
theorem C68_inter {f : Frame InterFrameHeader} (hf : InterFrameOk f) {t : ProbabilityTables} {b : List UInt8}
    (h : interKind.serializeFirst t f = some b) :
    8 * b.length ≤ 17130 + 3283 * ((f.width + 15) / 16 * ((f.height + 15) / 16)) ∧
    (f.header.updateSegmentation = none → (∀ m ∈ f.modes, m.yMode ≠ SPLITMV) →
      8 * b.length ≤ 17032 + 224 * ((f.width + 15) / 16 * ((f.height + 15) / 16))) := by
  unfold FrameKind.serializeFirst at h
  obtain ⟨x, h1, h2⟩ := Option.bind_eq_some_iff.1 h
  have c1 := encodeBits_cost h2
  have c2 : cost (interKind.writeHeader f.header) ≤ _ := cost_interHeader f.header
  have key (j : Nat) (m : MBModes) (hj : f.modes[j]? = some m) (b : Bits)
      (hb : interKind.writeMB f.header t (gridContext (macroblockDimension f.width) (macroblockDimension f.height) f.modes (0 + j)) m = some b) :
      cost b ≤ 224 + (if m.yMode = SPLITMV then 3045 else 0) + if f.header.updateSegmentation.isSome then 14 else 0 := by
    rw [Nat.zero_add] at hb
    exact cost_interMB (hf.modes j m hj) hb
  rw [cost_append] at c1
  refine ⟨?_, fun hs hn => ?_⟩
  · have c3 := cost_MBs (c := 3283) f.modes 0 x (fun j m hj b hb => (key j m hj b hb).trans (by split <;> split <;> omega)) h1
    have : (if f.header.updateSegmentation.isSome then 98 else 0) ≤ 98 := by split <;> omega
    rw [show f.modes.length = _ from hf.count] at c3
    generalize (f.width + 15) / 16 * ((f.height + 15) / 16) = n at *
    omega
  · rw [hs] at c2 key
    have c3 := cost_MBs (c := 224) f.modes 0 x (fun j m hj b hb => (key j m hj b hb).trans
      (by rw [if_neg (hn m (List.mem_of_getElem? hj))]; exact Nat.le_refl _)) h1
    have c2 : _ ≤ 17000 := c2
    rw [show f.modes.length = _ from hf.count] at c3
    generalize (f.width + 15) / 16 * ((f.height + 15) / 16) = n at *
    omega

/-- **C68** (coefficients): the other partitions take together at most 50975 bits for each macroblock, and 32 each for the flush. -/
theorem C68_coefficients {H : Type} {K : FrameKind H} {headerOk : H → Prop} {mbOk : H → MBContext → MBModes → Prop} {f : Frame H}
    (hf : f.Ok headerOk mbOk) {t : ProbabilityTables} {bs : List (List UInt8)} (h : K.serializeTokens t f = some bs) :
    ∀ b ∈ bs, 8 * b.length ≤ 32 + 50975 * ((f.width + 15) / 16 * ((f.height + 15) / 16)) := by
  unfold FrameKind.serializeTokens at h
  obtain ⟨parts, h1, h2⟩ := Option.bind_eq_some_iff.1 h
  intro b hb
  have c1 := cost_residues _ _ _ _ parts 0 h1 (fun p hp => by rw [List.eq_of_mem_replicate hp]; exact Nat.le_refl _)
  obtain ⟨p, hp, e⟩ : ∃ p ∈ parts, encodeBits p = some b := by
    clear h1 c1 h
    induction parts generalizing bs with
    | nil => simp at h2; subst h2; exact absurd hb (by simp)
    | cons q parts ih =>
      rw [List.mapM_cons] at h2
      obtain ⟨x, e1, h2⟩ := Option.bind_eq_some_iff.1 h2
      obtain ⟨y, e2, h2⟩ := Option.bind_eq_some_iff.1 h2
      cases h2
      rcases List.mem_cons.1 hb with rfl | hb
      · exact ⟨q, by simp, e1⟩
      · obtain ⟨p, h3, h4⟩ := ih e2 hb
        exact ⟨p, by simp [h3], h4⟩
  have c2 := c1 p hp
  have c3 := encodeBits_cost e
  have c4 : (f.modes.zip (y2Links (macroblockDimension f.width) f.modes)).length ≤ (f.width + 15) / 16 * ((f.height + 15) / 16) := by
    rw [List.length_zip, ← show f.modes.length = _ from hf.count]
    exact Nat.min_le_left _ _
  have := Nat.mul_le_mul_right 50975 c4
  generalize (f.width + 15) / 16 * ((f.height + 15) / 16) = n at *
  omega

/-- **C68**: every frame with pictures of at most 1200 macroblocks (640 by 480 pixels) fits the container. -/
theorem C68_lengths_fit {width height : Nat} (h : (width + 15) / 16 * ((height + 15) / 16) ≤ 1200) :
    LengthsFit keyKind KeyFrameOk width height ∧ LengthsFit interKind InterFrameOk width height := by
  refine ⟨fun f t hf hw hh => ⟨fun b hb => ?_, fun bs hbs b hb => ?_⟩, fun f t hf hw hh => ⟨fun b hb => ?_, fun bs hbs b hb => ?_⟩⟩
  · have := (C68_key hf hb).1
    rw [hw, hh] at this
    generalize (width + 15) / 16 * ((height + 15) / 16) = n at *
    omega
  · have := C68_coefficients hf hbs b hb
    rw [hw, hh] at this
    generalize (width + 15) / 16 * ((height + 15) / 16) = n at *
    omega
  · have := (C68_inter hf hb).1
    rw [hw, hh] at this
    generalize (width + 15) / 16 * ((height + 15) / 16) = n at *
    omega
  · have := C68_coefficients hf hbs b hb
    rw [hw, hh] at this
    generalize (width + 15) / 16 * ((height + 15) / 16) = n at *
    omega

/-- **C68**: in pictures of at most 14400 macroblocks (2560 by 1440 pixels), the first partition of every frame that the encoder makes fits its
field. -/
theorem C68_fits :
    (∀ (f : Frame KeyFrameHeader) (t : ProbabilityTables) (b : List UInt8), KeyFrameOk f → f.header.updateSegmentation = none →
      (f.width + 15) / 16 * ((f.height + 15) / 16) ≤ 14400 → keyKind.serializeFirst t f = some b → b.length < 2 ^ 19) ∧
    (∀ (f : Frame InterFrameHeader) (t : ProbabilityTables) (b : List UInt8), InterFrameOk f → f.header.updateSegmentation = none →
      (∀ m ∈ f.modes, m.yMode ≠ SPLITMV) →
      (f.width + 15) / 16 * ((f.height + 15) / 16) ≤ 14400 → interKind.serializeFirst t f = some b → b.length < 2 ^ 19) := by
  refine ⟨fun f t b hf hs hn h => ?_, fun f t b hf hs hm hn h => ?_⟩
  · have := (C68_key hf h).2 hs
    generalize (f.width + 15) / 16 * ((f.height + 15) / 16) = n at *
    omega
  · have := (C68_inter hf h).2 hs hm
    generalize (f.width + 15) / 16 * ((f.height + 15) / 16) = n at *
    omega

/-- The frames of the example in Props/Encode (40 by 30 pixels, six macroblocks) have first partitions of at most 2221 and 2297 bytes. -/
example : (∃ f shown, encodeKey exampleKeyChoices emptyKeyHeader (uniformIndices 30) (grayRaster 40 30 77) 40 30 (grayRaster 40 30 0) = some (f, shown) ∧
      ∀ t b, keyKind.serializeFirst t f = some b → b.length ≤ 2221) ∧
    (∃ f shown, encodeInter exampleInterChoices ⟨{ width := 40, height := 30 }, ⟨grayRaster 40 30 9, grayRaster 40 30 8, grayRaster 40 30 7⟩⟩ emptyInterHeader
      (uniformIndices 30) (grayRaster 40 30 77) (grayRaster 40 30 0) = some (f, shown) ∧ ∀ t b, interKind.serializeFirst t f = some b → b.length ≤ 2297) := by
  obtain ⟨f, shown, h1, h2, hw, hh, -, hs, -⟩ := C67_key (width := 40) (height := 30) (by decide) (by decide) (exampleKeyChoices_ok 40 30) emptyKeyHeader_range rfl
    (uniformIndices_range (qi := 30) (by decide)) (grayRaster_ok 40 30 77) (grayRaster_ok 40 30 0)
  obtain ⟨g, shown', g1, g2, gw, gh, -, gs, -, -, -, -, -, gn, -⟩ := C67_inter (e := ⟨{ width := 40, height := 30 }, ⟨grayRaster 40 30 9, grayRaster 40 30 8, grayRaster 40 30 7⟩⟩)
    (by decide) (by decide) rfl ⟨grayRaster_ok .., grayRaster_ok .., grayRaster_ok ..⟩ (exampleInterChoices_ok (by decide) (by decide)) emptyInterHeader_range rfl
    (uniformIndices_range (qi := 30) (by decide)) (grayRaster_ok 40 30 77) (grayRaster_ok 40 30 0)
  refine ⟨⟨f, shown, h1, fun t b hb => ?_⟩, ⟨g, shown', g1, fun t b hb => ?_⟩⟩
  · have := (C68_key h2 hb).2 hs
    rw [hw, hh] at this
    omega
  · have := (C68_inter g2 hb).2 gs gn
    rw [gw, gh] at this
    dsimp only at this
    omega

end Alfalfa
