import Verif.Proof.SelfTest
import Verif.Props.BoolCoder
import Verif.Props.Tree
import Verif.Props.Decoder

/-! # The project's randomised tests, for everything they could draw, and the file of a saved decoder (C104) -/

namespace Alfalfa

/-- **C104**: the test of saving and restoring succeeds whatever the random engine gives, however many tests are asked for, whatever
the pictures of the pool hold, and for any hash. -/
theorem C104_serdes_test (mix : Nat → Nat → Nat) (blank : Raster) (n : Nat) (draws : Draws) : (serdesTest mix blank n draws).1 = some true := by
  have same (r : References) (h : r.golden = r.last ∧ r.alternative = r.last) : r.sameAs mix ⟨r.last, r.last, r.last⟩ = true := by
    rw [References.sameAs, h.1, h.2]; simp
  refine gens_inTurn (fun t ht => ?_) draws
  simp only [List.mem_cons, List.not_mem_nil, or_false] at ht
  rcases ht with ht | ht | ht | ht | ht | ht <;> subst ht
  · exact gens_repeat (gens_oneTest (Gens.true _) fun x _ => ⟨x, loads_all (loads_tables x), rfl⟩) n
  · exact gens_repeat (gens_oneTest (P := fun s => ∃ w h, w < 2 ^ 14 ∧ h < 2 ^ 14 ∧ Segmentation.Fits w h s)
      (gens_hwdist.bind fun w hw => gens_hwdist.bind fun h hh s => ⟨w, h, by omega, by omega, gens_segmentation w h s⟩)
      fun x ⟨w, h, hw, hh, hx⟩ => ⟨x, loads_all (fits_segmentation hw hh hx), rfl⟩) n
  · exact gens_repeat (gens_oneTest gens_filter fun x hx => ⟨x, loads_all (fits_filter hx), rfl⟩) n
  · exact gens_repeat (gens_oneTest (P := DecoderState.Fits)
      (gens_hwdist.bind fun w hw => gens_hwdist.bind fun h hh s => (gens_state hw hh s).1)
      fun x hx => ⟨x, loads_all (fits_state hx), rfl⟩) n
  · exact gens_repeat (gens_oneTest (P := fun r => ∃ w h, w < 2 ^ 14 ∧ h < 2 ^ 14 ∧ Raster.Ok w h r.last ∧ r.golden = r.last ∧ r.alternative = r.last)
      (gens_hwdist.bind fun w hw => gens_hwdist.bind fun h hh s => ⟨w, h, by omega, by omega, gens_references w h s⟩)
      fun x ⟨w, h, hw, hh, hx⟩ => ⟨_, loads_all (loads_references hw hh hx.1), same x hx.2⟩) n
  · exact gens_repeat (gens_oneTest gens_decoder fun x hx => ⟨_, fits_decoder hx.1 hx.2.1 blank, rfl, same _ hx.2.2⟩) n

/-- **C104**: the test of the arithmetic coder succeeds whatever the random engine gives, with any probabilities, zero
among them. -/
theorem C104_encode_loopback (draws : Draws) : (encodeLoopback draws).1 = some true := by
  refine gens_inTurn (fun t ht => ?_) draws
  simp only [List.mem_cons, List.not_mem_nil, or_false] at ht
  rcases ht with ht | ht <;> subst ht
  · refine gens_repeat (Gens.bind (Gens.true _) fun l _ => Gens.pure ?_) 200
    obtain ⟨bytes, h1, h2, h3⟩ := encode_reads (l.map fun x => (x.2, x.1))
    have h4 := reads_getAll h3
    rw [List.map_map, List.map_map] at h4
    rw [encodeBitlist, h1]
    show (loopbackDecoder bytes).bind _ = _
    rw [loopbackDecoder, if_neg h2]
    exact congrArg some (compareBits_eq l _ h4)
  · refine gens_repeat (gens_inTurn fun t ht => ?_) 200
    obtain ⟨i, hi, rfl⟩ := List.mem_map.1 ht
    refine (gens_list (Gens.true rngByte) 4).bind fun probs hp => Gens.pure ?_
    have hi : i ∈ [DC_PRED, V_PRED, H_PRED, TM_PRED, B_PRED] := hi
    obtain ⟨bits, h1, h2⟩ := C04_tree_round_trip (kfYModeTree, _) List.mem_cons_self i hi probs (by rw [hp.1]; rfl)
    obtain ⟨bytes, d', e1, e2, -⟩ := h2 [] []
    obtain ⟨bytes', f1, f2, -⟩ := encode_reads bits
    rw [List.nil_append, List.append_nil, f1] at e1
    cases e1
    rw [h1]
    show (encodeBits bits).bind _ = _
    rw [f1]
    show (loopbackDecoder bytes).bind _ = _
    rw [loopbackDecoder, if_neg f2]
    show (readTree kfYModeTree probs (BoolDecoder.init bytes)).bind _ = _
    rw [show readTree kfYModeTree probs (BoolDecoder.init bytes) = some (i, d') from e2]
    exact congrArg some (decide_eq_true rfl)

theorem oneTest_fails {d : Decoder} (hd : d.Ok) (mix : Nat → Nat → Nat) (blank : Raster) (draws : Draws) (h : d.references.last.hash mix ≠ d.references.golden.hash mix) :
    (runOneTest (pure d) saveDecoder (loadDecoder blank) (fun d e => d.state = e.state ∧ d.references.sameAs mix e.references = true) draws).1 = some false := by
  show ((loadDecoder blank (saveDecoder d)).map fun y => _) = _
  rw [C16_save_restore_partial _ hd]
  refine congrArg some (@decide_eq_false _ (_) fun hh => ?_)
  have := hh.2
  rw [References.sameAs, decide_eq_true_iff] at this
  exact h this.2.1.symm

/-- **C104**: what the test of saving and restoring cannot see.  Every decoder it draws has the same picture three times over; there is
a decoder, of the kind frames lead to, with which the test would fail, under any hash that tells its last picture from its golden one. -/
theorem C104_blind : (∀ draws, (randomDecoder draws).1.references.golden = (randomDecoder draws).1.references.last ∧
      (randomDecoder draws).1.references.alternative = (randomDecoder draws).1.references.last) ∧
    ∃ d : Decoder, d.Ok ∧ ∀ mix blank draws, d.references.last.hash mix ≠ d.references.golden.hash mix →
      (runOneTest (pure d) saveDecoder (loadDecoder blank) (fun d e => d.state = e.state ∧ d.references.sameAs mix e.references = true) draws).1 = some false := by
  exact ⟨fun draws => (gens_decoder draws).2.2, exampleDecoder, exampleDecoder_ok, fun mix blank draws h => oneTest_fails exampleDecoder_ok mix blank draws h⟩

/-- The hypothesis of the second part: a hash that adds up the pixels. -/
example : exampleDecoder.references.last.hash (· + ·) ≠ exampleDecoder.references.golden.hash (· + ·) := by decide +kernel

/-- **C104**: saving and restoring keeps whatever fits the fields of the file: adjustments from -128 to 127 and segment
numbers up to 255, more than a frame can set. -/
theorem C104_any_fields (d : Decoder) (h : d.state.Fits) (hr : d.references.last.Ok d.state.width d.state.height) (blank : Raster) :
    loadDecoder blank (saveDecoder d) = some ⟨d.state, ⟨d.references.last, d.references.last, d.references.last⟩⟩ := fits_decoder h hr blank

/-- **C104**: the file of a saved decoder, byte by byte: every part is a tag, the true number of bytes in it, and those bytes, in the
order and with the tags that `Spec/SaveLayout` gives. -/
theorem C104_layout (d : Decoder) (h : d.state.Fits) (hr : d.references.last.Ok d.state.width d.state.height) : saveDecoder d = savedFile d :=
  saveDecoder_layout h hr

theorem Segmentation.Ok.fits {w h : Nat} {s : Segmentation} (hs : s.Ok w h) : s.Fits w h :=
  ⟨hs.mapWidth, hs.mapHeight, hs.size, fun v hv => by have := hs.cells v hv; omega, fun i => by have := hs.quantizer i; omega,
    fun i => by have := hs.filter i; omega⟩

/-- The states that frames lead to fit. -/
theorem DecoderState.Ok.fits {st : DecoderState} (h : st.Ok) : st.Fits :=
  ⟨h.width.2, h.height.2, fun s hs => (h.segmentation s hs).fits,
    fun a ha => ⟨fun i => by have := (h.filterAdjustments a ha).ref i; omega, fun i => by have := (h.filterAdjustments a ha).mode i; omega⟩⟩

/-- **C104**: how long the file is: 1136 bytes, 17 more and one for every pixel with a segmentation, 13 more with loop-filter adjustments, and 384 for
every macroblock of the picture. -/
theorem C104_size (d : Decoder) (h : d.Ok) : (saveDecoder d).length = 1136 +
    (if d.state.segmentation.isSome then 17 + d.state.width * d.state.height else 0) + (if d.state.filterAdjustments.isSome then 13 else 0) +
    384 * ((d.state.width + 15) / 16) * ((d.state.height + 15) / 16) := by
  have h1 := fits_state_length h.state.fits
  have h2 := saveReferences_length h.references.last
  rw [saveDecoder, saveSection_length, List.length_append, h1, h2, rasterLen, h.references.last.yWidth, h.references.last.yHeight, stateLen]
  have e1 : (d.state.segmentation.map (segmentationLen · + 5)).getD 0 = if d.state.segmentation.isSome then 17 + d.state.width * d.state.height else 0 := by
    cases hs : d.state.segmentation with
    | none => rfl
    | some s =>
      have := h.state.segmentation s hs
      simp only [Option.map_some, Option.getD_some, Option.isSome_some, if_true, segmentationLen, this.mapWidth, this.mapHeight]
      omega
  have e2 : (d.state.filterAdjustments.map fun _ => 4 + 4 + 5).getD 0 = if d.state.filterAdjustments.isSome then 13 else 0 := by
    cases d.state.filterAdjustments <;> rfl
  rw [e1, e2, show tablesLen = 1101 from rfl]
  generalize (d.state.width + 15) / 16 = a
  generalize (d.state.height + 15) / 16 = b
  have m1 : a * 16 * (b * 16) = 256 * (a * b) := by
    rw [Nat.mul_assoc, Nat.mul_left_comm 16, Nat.mul_left_comm a b, Nat.mul_comm 256, Nat.mul_comm a b, Nat.mul_assoc b a]
  have m2 : 2 * (a * 16 / 2) * (b * 16 / 2) = 128 * (a * b) := by
    rw [show a * 16 / 2 = a * 8 by omega, show b * 16 / 2 = b * 8 by omega, ← Nat.mul_assoc, show 2 * (a * 8) = 16 * a by omega, Nat.mul_assoc 16, Nat.mul_assoc]
    omega
  rw [m1, m2, Nat.mul_assoc]
  omega

/-- A state that fits although no frame leads to it: adjustments of -128 and 127, segment number 255. -/
def extremeState : DecoderState where
  width := 2
  height := 1
  segmentation := some { absolute := true, quantizer := fun _ => -128, filter := fun _ => 127, mapWidth := 2, mapHeight := 1, map := [255, 0] }
  filterAdjustments := some { ref := fun _ => -128, mode := fun _ => 127 }

example : extremeState.Fits ∧ ¬ extremeState.Ok :=
  ⟨⟨by decide, by decide, fun s hs => by
      cases hs
      exact ⟨rfl, rfl, rfl, by decide, fun i => by show -128 ≤ (-128 : Int) ∧ (-128 : Int) ≤ 127; decide, fun i => by show -128 ≤ (127 : Int) ∧ (127 : Int) ≤ 127; decide⟩,
    fun a ha => by
      cases ha
      exact ⟨fun i => by show -128 ≤ (-128 : Int) ∧ (-128 : Int) ≤ 127; decide, fun i => by show -128 ≤ (127 : Int) ∧ (127 : Int) ≤ 127; decide⟩⟩,
   fun h => absurd ((h.segmentation _ rfl).cells 255 List.mem_cons_self) (by decide)⟩

/-- The end of a file, for this state without its tables: present, absolute, its length and size, the adjustments, the map. -/
example : savedOptional savedSegmentation extremeState.segmentation =
    [6, 2, 14, 0, 0, 0, 2, 0, 1, 0, 128, 128, 128, 128, 127, 127, 127, 127, 255, 0] := by decide +kernel

end Alfalfa
