import Verif.Model.SelfTest
import Verif.Spec.SaveLayout
import Verif.Proof.SaveState

namespace Alfalfa

/-! ### Values that fit -/

theorem fits_filter {a : FilterAdjustments} (h : a.Fits) : Loads loadFilter (saveFilter a) a := by
  unfold loadFilter saveFilter saveSection
  refine (loads_tag _ (by decide)).bind' (c := UInt8.ofNat TAG_FILT_ADJ :: _) ?_ (List.singleton_append).symm
  refine (loads_assert (by decide)).bind' ?_ (List.nil_append _).symm
  refine (loads_LE 4 8 (by decide)).bind ?_
  refine (loads_assert (by decide)).bind' ?_ (List.nil_append _).symm
  refine Loads.bind (x := a.ref) (loads_fn 4 _ fun i => loads_int8 (h.ref i)) ?_
  exact Loads.bind' (x := a.mode) (loads_fn 4 _ fun i => loads_int8 (h.mode i)) (Loads.pure _) (List.append_nil _).symm

theorem fits_segmentation {w h : Nat} {s : Segmentation} (hw : w < 2 ^ 14) (hh : h < 2 ^ 14) (hs : s.Fits w h) :
    Loads loadSegmentation (saveSegmentation s) s := by
  have b1 : s.mapWidth < 256 ^ 2 := by rw [hs.mapWidth]; omega
  have b2 : s.mapHeight < 256 ^ 2 := by rw [hs.mapHeight]; omega
  unfold loadSegmentation saveSegmentation saveSection
  refine (loads_tag (if s.absolute then TAG_SEGM_ABS else TAG_SEGM_REL) (by split <;> decide)).bind'
    (c := UInt8.ofNat (if s.absolute then TAG_SEGM_ABS else TAG_SEGM_REL) :: _) ?_ (List.singleton_append).symm
  refine (loads_assert (by cases s.absolute <;> decide)).bind' ?_ (List.nil_append _).symm
  refine (loads_LE_mod 4 (segmentationLen s)).bind ?_
  refine (loads_LE 2 _ b1).bind ?_
  refine (loads_LE 2 _ b2).bind ?_
  refine (loads_assert (by rw [segmentationLen]; exact decide_eq_true rfl)).bind' ?_ (List.nil_append _).symm
  refine Loads.bind (x := s.quantizer) (loads_fn 4 _ fun i => loads_int8 (hs.quantizer i)) ?_
  refine Loads.bind (x := s.filter) (loads_fn 4 _ fun i => loads_int8 (hs.filter i)) ?_
  have hmap := loads_list (p := do pure (← loadByte).toNat) (enc := fun v => [UInt8.ofNat v]) s.map (fun v hv => by
    exact loads_tag v (hs.cells v hv))
  rw [flatten_singletons, show s.map.length = s.mapWidth * s.mapHeight from by rw [hs.size, hs.mapWidth, hs.mapHeight]] at hmap
  refine Loads.bind' (b := []) hmap ?_ (List.append_nil _).symm
  have e : (decide ((if s.absolute then TAG_SEGM_ABS else TAG_SEGM_REL) = TAG_SEGM_ABS)) = s.absolute := by
    cases s.absolute <;> decide
  show Loads (Pure.pure _) [] s
  rw [e]
  exact Loads.pure s

theorem fits_segmentation_length {w h : Nat} {s : Segmentation} (hs : s.Fits w h) : (saveSegmentation s).length = segmentationLen s + 5 := by
  rw [saveSegmentation, saveSection_length, segmentationLen]
  simp only [List.length_append, putLE_length, putInt8s_length, List.length_map]
  rw [hs.size, hs.mapWidth, hs.mapHeight]; omega

theorem fits_state_length {st : DecoderState} (h : st.Fits) : (saveState st).length = stateLen st + 5 := by
  rw [saveState, saveSection_length, stateLen]
  simp only [List.length_append, putLE_length, saveTables_length]
  have e1 : (saveOption saveSegmentation st.segmentation).length =
      (st.segmentation.map (segmentationLen · + 5)).getD 0 + 1 := by
    cases hs : st.segmentation with
    | none => rfl
    | some s => simp only [saveOption, List.length_cons, Option.map_some, Option.getD_some]; rw [fits_segmentation_length (h.segmentation s hs)]
  have e2 : (saveOption saveFilter st.filterAdjustments).length = (st.filterAdjustments.map fun _ => 4 + 4 + 5).getD 0 + 1 := by
    cases hs : st.filterAdjustments with
    | none => rfl
    | some s => simp only [saveOption, List.length_cons, Option.map_some, Option.getD_some]; rw [saveFilter_length]
  rw [e1, e2]; omega

theorem fits_stateLen_lt {st : DecoderState} (h : st.Fits) : stateLen st < 2 ^ 29 := by
  unfold stateLen
  have e2 : (st.filterAdjustments.map fun _ => 4 + 4 + 5).getD 0 ≤ 13 := by
    cases st.filterAdjustments <;> simp
  have e1 : (st.segmentation.map (segmentationLen · + 5)).getD 0 ≤ 2 ^ 28 + 17 := by
    cases hs : st.segmentation with
    | none => simp
    | some s =>
      simp only [segmentationLen, Option.map_some, Option.getD_some]
      rw [(h.segmentation s hs).mapWidth, (h.segmentation s hs).mapHeight]
      have := Nat.mul_le_mul (Nat.le_of_lt h.width) (Nat.le_of_lt h.height)
      omega
  have : tablesLen = 1101 := rfl
  omega

theorem fits_state {st : DecoderState} (h : st.Fits) : Loads loadState (saveState st) st := by
  have hl := fits_state_length h
  have h28 := fits_stateLen_lt h
  have hw := h.width; have hh := h.height
  rw [saveState, saveSection_length] at hl
  unfold loadState saveState saveSection
  refine (loads_tag _ (by decide)).bind' (c := UInt8.ofNat TAG_DECODER_STATE :: _) ?_ (List.singleton_append).symm
  refine (loads_assert (by decide)).bind' ?_ (List.nil_append _).symm
  refine (loads_LE 4 _ (by omega)).bind ?_
  refine loads_fits (by omega) ?_
  refine (loads_LE 2 _ (by omega)).bind ?_
  refine (loads_LE 2 _ (by omega)).bind ?_
  refine (loads_tables _).bind ?_
  refine Loads.bind (loads_option fun s hs => fits_segmentation h.width h.height (h.segmentation s hs)) ?_
  exact Loads.bind' (loads_option fun a ha => fits_filter (h.filterAdjustments a ha)) (Loads.pure _) (List.append_nil _).symm

theorem fits_decoder {d : Decoder} (h : d.state.Fits) (hr : d.references.last.Ok d.state.width d.state.height) (blank : Raster) :
    loadDecoder blank (saveDecoder d) = some ⟨d.state, ⟨d.references.last, d.references.last, d.references.last⟩⟩ := by
  have h1 := fits_state_length h
  have h2 := saveReferences_length hr
  have h3 := rasterLen_lt h.width h.height hr
  have h4 := fits_stateLen_lt h
  have hlt : (stateLen d.state + 5) + (4 + (rasterLen d.references.last.y.width d.references.last.y.height + 5) + 5) < 256 ^ 4 := by omega
  have k0 := loads_tag TAG_DECODER (by decide) (putLE 4 ((stateLen d.state + 5) +
    (4 + (rasterLen d.references.last.y.width d.references.last.y.height + 5) + 5)) ++ (saveState d.state ++ saveReferences d.references))
  have k1 := loads_LE 4 _ hlt (saveState d.state ++ saveReferences d.references)
  have k2 := fits_state h (saveReferences d.references)
  have k3 := loads_references (blank := blank) h.width h.height hr []
  rw [List.append_nil] at k3
  have k4 : loadDecoderBody blank (saveState d.state ++ saveReferences d.references) =
      some (⟨d.state, ⟨d.references.last, d.references.last, d.references.last⟩⟩, []) := by
    unfold loadDecoderBody
    show (loadState _).bind _ = _
    rw [k2]
    show (loadReferences blank _).bind _ = _
    rw [k3]
    rfl
  unfold loadDecoder saveDecoder saveSection
  rw [List.singleton_append] at k0
  rw [k0, Option.bind_some]
  simp only
  rw [if_neg (fun h => h rfl), k1, Option.bind_some]
  simp only
  rw [if_neg (by rw [List.length_append, h1, h2]; omega), k4]
  rfl

/-! ### The layout -/

theorem putLE_two (v : Nat) : putLE 2 v = le16 v := by
  have e (x : Nat) : x &&& 0xff = x % 256 := Nat.and_two_pow_sub_one_eq_mod x 8
  simp only [putLE, le16, e, Nat.shiftRight_eq_div_pow]

theorem putLE_four (v : Nat) : putLE 4 v = le32 v := by
  have e (x : Nat) : x &&& 0xff = x % 256 := Nat.and_two_pow_sub_one_eq_mod x 8
  simp only [putLE, le32, e, Nat.shiftRight_eq_div_pow, Nat.div_div_eq_div_mul]

theorem saveSection_part {tag len : Nat} {body body' : List UInt8} (hl : len = body.length) (hb : body = body') :
    saveSection tag len body = savedPart (UInt8.ofNat tag) body' := by
  rw [saveSection, savedPart, hl, putLE_four, ← hb]; rfl

theorem putInt8_signed {n : Nat} (f : Fin n → Int) (h : ∀ i, -128 ≤ f i ∧ f i ≤ 127) :
    (List.ofFn fun i => putInt8 (f i)).flatten = (List.finRange n).map fun i => signedByte (f i) := by
  have e (i : Fin n) : putInt8 (f i) = [signedByte (f i)] := by
    have := h i
    rw [putInt8, signedByte]
    congr 3
    split <;> omega
  rw [show (fun i => putInt8 (f i)) = fun i => [signedByte (f i)] from funext e, List.ofFn_eq_map, flatten_singletons]

theorem saveTables_layout (t : ProbabilityTables) : saveTables t = savedTables t := by
  have hl := saveTables_length t
  rw [saveTables, saveSection_length] at hl
  refine saveSection_part (by omega) ?_
  simp only [List.ofFn_eq_map, List.flatMap_def, List.append_assoc]

theorem saveFilter_layout {a : FilterAdjustments} (h : a.Fits) : saveFilter a = savedFilter a := by
  have hl := saveFilter_length a
  rw [saveFilter, saveSection_length] at hl
  refine saveSection_part (by omega) ?_
  rw [putInt8_signed _ h.ref, putInt8_signed _ h.mode]

theorem saveSegmentation_layout {w h : Nat} {s : Segmentation} (hs : s.Fits w h) : saveSegmentation s = savedSegmentation s := by
  have hl := fits_segmentation_length hs
  rw [saveSegmentation, saveSection_length] at hl
  rw [savedSegmentation, show (if s.absolute = true then (2 : UInt8) else 3) = UInt8.ofNat (if s.absolute = true then TAG_SEGM_ABS else TAG_SEGM_REL) from by
    cases s.absolute <;> rfl]
  refine saveSection_part (by omega) ?_
  rw [putInt8_signed _ hs.quantizer, putInt8_signed _ hs.filter, putLE_two, putLE_two]
  simp only [List.append_assoc]

theorem saveState_layout {st : DecoderState} (h : st.Fits) : saveState st = savedState st := by
  have hl := fits_state_length h
  rw [saveState, saveSection_length] at hl
  refine saveSection_part (by omega) ?_
  have e1 : saveOption saveSegmentation st.segmentation = savedOptional savedSegmentation st.segmentation := by
    cases hs : st.segmentation with
    | none => rfl
    | some s => rw [saveOption, savedOptional, saveSegmentation_layout (h.segmentation s hs)]; rfl
  have e2 : saveOption saveFilter st.filterAdjustments = savedOptional savedFilter st.filterAdjustments := by
    cases hs : st.filterAdjustments with
    | none => rfl
    | some s => rw [saveOption, savedOptional, saveFilter_layout (h.filterAdjustments s hs)]; rfl
  rw [e1, e2, putLE_two, putLE_two, saveTables_layout]
  simp only [List.append_assoc]

theorem saveReferences_layout {w h : Nat} {r : References} (hr : r.last.Ok w h) : saveReferences r = savedReferences r := by
  have hl := saveReferences_length hr
  have hl2 := saveRaster_length (tag := TAG_REF_LAST) hr
  rw [saveReferences, saveSection_length] at hl
  rw [saveRaster, saveSection_length] at hl2
  refine saveSection_part (by omega) ?_
  rw [putLE_two, putLE_two, saveRaster, saveSection_part (by omega) (List.append_assoc _ _ _).symm]
  simp only [List.append_assoc]
  rfl

theorem saveDecoder_layout {d : Decoder} (h : d.state.Fits) (hr : d.references.last.Ok d.state.width d.state.height) : saveDecoder d = savedFile d := by
  refine saveSection_part ?_ ?_
  · rw [List.length_append, fits_state_length h, saveReferences_length hr]
  · rw [saveState_layout h, saveReferences_layout hr]

/-! ### What is drawn -/

/-- Whatever the engine gives, the value drawn satisfies `P`. -/
def Gens {α : Type} (g : Gen α) (P : α → Prop) : Prop := ∀ s, P (g s).1

theorem Gens.pure {α : Type} {P : α → Prop} {a : α} (h : P a) : Gens (Pure.pure a) P := fun _ => h

theorem Gens.bind {α β : Type} {g : Gen α} {f : α → Gen β} {P : α → Prop} {Q : β → Prop} (hg : Gens g P) (hf : ∀ a, P a → Gens (f a) Q) :
    Gens (g >>= f) Q := fun s => hf _ (hg s) _

theorem Gens.true {α : Type} (g : Gen α) : Gens g fun _ => True := fun _ => trivial

theorem gens_int8 : Gens rngInt8 fun v => -128 ≤ v ∧ v ≤ 127 := by
  intro s
  show -128 ≤ (((s 0 + 128) % 256 : Nat) : Int) - 128 ∧ (((s 0 + 128) % 256 : Nat) : Int) - 128 ≤ 127
  omega

theorem gens_hwdist : Gens hwdist fun v => 1 ≤ v ∧ v ≤ 512 := by
  intro s
  show 1 ≤ 1 + s 0 % 512 ∧ 1 + s 0 % 512 ≤ 512
  omega

theorem gens_fn {α : Type} {g : Gen α} {P : α → Prop} (h : Gens g P) : ∀ n, Gens (genFn g n) fun f => ∀ i, P (f i)
  | 0 => Gens.pure fun i => i.elim0
  | n + 1 => h.bind fun _ ha => (gens_fn h n).bind fun _ hf => Gens.pure fun i => by
    cases i using Fin.cases with
    | zero => exact ha
    | succ i => exact hf i

theorem gens_list {α : Type} {g : Gen α} {P : α → Prop} (h : Gens g P) : ∀ n, Gens (genList g n) fun l => l.length = n ∧ ∀ a ∈ l, P a
  | 0 => Gens.pure ⟨rfl, fun _ h => nomatch h⟩
  | n + 1 => h.bind fun _ ha => (gens_list h n).bind fun _ hl => Gens.pure ⟨congrArg (· + 1) hl.1, List.forall_mem_cons.2 ⟨ha, hl.2⟩⟩

theorem gens_segmentation (w h : Nat) : Gens (randomSegmentation w h) (Segmentation.Fits w h) := by
  refine (Gens.true _).bind fun absolute _ => ?_
  refine (gens_fn (gens_int8.bind fun q hq => gens_int8.bind fun f hf => Gens.pure (P := fun (x : Int × Int) =>
    (-128 ≤ x.1 ∧ x.1 ≤ 127) ∧ (-128 ≤ x.2 ∧ x.2 ≤ 127)) ⟨hq, hf⟩) 4).bind fun a ha => ?_
  refine (gens_list (g := do pure (← rngByte).toNat) (P := (· < 256)) (fun s => UInt8.toNat_lt _) (w * h)).bind fun m hm => ?_
  exact Gens.pure ⟨rfl, rfl, hm.1, hm.2, fun i => (ha i).1, fun i => (ha i).2⟩

theorem gens_filter : Gens randomFilter FilterAdjustments.Fits :=
  (gens_fn gens_int8 4).bind fun _ hr => (gens_fn gens_int8 4).bind fun _ hm => Gens.pure ⟨hr, hm⟩

theorem gens_optional {α : Type} {g : Gen α} {P : α → Prop} (h : Gens g P) : Gens (genOptional g) fun o => ∀ a, o = some a → P a := by
  refine (Gens.true _).bind fun b _ => ?_
  cases b with
  | false => exact Gens.pure fun a ha => nomatch ha
  | true => exact fun s a ha => by cases ha; exact h s

theorem gens_state {w h : Nat} (hw : 1 ≤ w ∧ w ≤ 512) (hh : 1 ≤ h ∧ h ≤ 512) :
    Gens (randomState w h) fun st => st.Fits ∧ st.width = w ∧ st.height = h := by
  refine (gens_optional (gens_segmentation w h)).bind fun seg hseg => ?_
  refine (gens_optional gens_filter).bind fun fil hfil => ?_
  exact (Gens.true _).bind fun t _ => Gens.pure ⟨⟨show w < 2 ^ 14 by omega, show h < 2 ^ 14 by omega, hseg, hfil⟩, rfl, rfl⟩

theorem gens_raster (w h : Nat) : Gens (randomRaster w h) (Raster.Ok w h) := by
  refine (gens_list (Gens.true rngByte) _).bind fun y hy => ?_
  refine (gens_list (Gens.true rngByte) _).bind fun u hu => ?_
  refine (gens_list (Gens.true rngByte) _).bind fun v hv => ?_
  refine Gens.pure ⟨rfl, rfl, ?_, ?_, ?_, ?_, ?_, ?_, hy.1, hu.1, hv.1⟩ <;> simp only [macroblockDimension] <;> omega

theorem gens_references (w h : Nat) : Gens (randomReferences w h) fun r => r.last.Ok w h ∧ r.golden = r.last ∧ r.alternative = r.last :=
  (gens_raster w h).bind fun _ hr => Gens.pure ⟨hr, rfl, rfl⟩

theorem gens_decoder : Gens randomDecoder fun d =>
    d.state.Fits ∧ d.references.last.Ok d.state.width d.state.height ∧ d.references.golden = d.references.last ∧ d.references.alternative = d.references.last :=
  gens_hwdist.bind fun _ hw => gens_hwdist.bind fun _ hh => (gens_state hw hh).bind fun _ hst => (gens_references _ _).bind fun _ hr =>
    Gens.pure ⟨hst.1, by rw [hst.2.1, hst.2.2]; exact hr.1, hr.2⟩

/-! ### The tests -/

theorem gens_repeat {t : Gen (Option Bool)} (h : Gens t (· = some true)) : ∀ n, Gens (repeatTest t n) (· = some true)
  | 0 => Gens.pure rfl
  | n + 1 => h.bind fun a ha => by
    subst ha
    exact gens_repeat h n

theorem gens_inTurn : ∀ {ts : List (Gen (Option Bool))}, (∀ t ∈ ts, Gens t (· = some true)) → Gens (testsInTurn ts) (· = some true)
  | [], _ => Gens.pure rfl
  | _ :: _, h => (h _ List.mem_cons_self).bind fun a ha => by
    subst ha
    exact gens_inTurn fun t ht => h t (List.mem_cons_of_mem _ ht)

theorem gens_oneTest {α : Type} {gen : Gen α} {save : α → List UInt8} {load : List UInt8 → Option α} {same : α → α → Prop}
    {P : α → Prop} (hg : Gens gen P) (h : ∀ x, P x → ∃ y, load (save x) = some y ∧ same x y) : Gens (runOneTest gen save load same) (· = some true) :=
  hg.bind fun x hx => Gens.pure (by
    obtain ⟨y, h1, h2⟩ := h x hx
    rw [h1, Option.map_some]
    exact congrArg some (@decide_eq_true _ (_) h2))

theorem loads_all {α : Type} {p : Load α} {bytes : List UInt8} {x : α} (h : Loads p bytes x) : (p bytes).map (·.1) = some x := by
  have := h []
  rw [List.append_nil] at this
  rw [this]; rfl

theorem compareBits_eq : ∀ (l : List (Prob × Bool)) (d : BoolDecoder), d.getAll (l.map (·.1)) = l.map (·.2) → compareBits l d = true
  | [], _, _ => rfl
  | x :: xs, d, h => by
    simp only [List.map_cons, BoolDecoder.getAll, List.cons.injEq] at h
    rw [compareBits, if_neg (fun hne => hne h.1)]
    exact compareBits_eq xs _ h.2

end Alfalfa
