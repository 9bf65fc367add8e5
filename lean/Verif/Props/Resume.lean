import Verif.Spec.Resume
import Verif.Proof.Resume
import Verif.Props.Bundle

/-! C103: an encoder that goes on from a saved state. -/

namespace Alfalfa

/-! ### The loop -/

theorem xcEncWriting_spec {σ Q : Type} [LinearOrder Q] {next : σ → Except XcEncError (Option Raster × σ)} {R : Renderer} {M : Meter Q} {mode : XcEncMode Q}
    {inside : Nat → Inside} {info : IvfInfo} (hfour : info.fourcc.length = 4) {i : σ} {xs : List Raster} {e : Option XcEncError}
    (h : (e = none ∧ Gives next i xs) ∨ ∃ e', e = some e' ∧ GivesThen next i xs e') :
    ∀ {n k : Nat} {s s' : Session} {w : IVFWriter} {written : List (List UInt8)} {frames : List (List UInt8 × Raster)}, xs.length < n →
      s.calls R M (mode.asks inside k xs) = .ok (s', frames) → w.Wrote info written → written.length + xs.length < 2 ^ 32 →
      ∃ w', xcEncWriting next R M mode inside n i k s w = (w', e) ∧ w'.Wrote info (written ++ frames.map (·.1)) := by
  induction xs generalizing i with
  | nil =>
    intro n k s s' w written frames hn hc hw _
    cases hc
    obtain ⟨n, rfl⟩ := Nat.exists_eq_succ_of_ne_zero (Nat.ne_of_gt hn)
    refine ⟨w, ?_, by rw [List.map_nil, List.append_nil]; exact hw⟩
    rcases h with ⟨rfl, h⟩ | ⟨e', rfl, h⟩
    · cases h with | done h => rw [xcEncWriting, h]
    · cases h with | failed h => rw [xcEncWriting, h]
  | cons x xs ih =>
    intro n k s s' w written frames hn hc hw hl
    obtain ⟨i', hi, h'⟩ : ∃ i', next i = .ok (some x, i') ∧ ((e = none ∧ Gives next i' xs) ∨ ∃ e', e = some e' ∧ GivesThen next i' xs e') := by
      rcases h with ⟨rfl, h⟩ | ⟨e', rfl, h⟩
      · cases h with | more h1 h2 => exact ⟨_, h1, .inl ⟨rfl, h2⟩⟩
      · cases h with | more h1 h2 => exact ⟨_, h1, .inr ⟨e', rfl, h2⟩⟩
    obtain ⟨n, rfl⟩ := Nat.exists_eq_succ_of_ne_zero (Nat.ne_of_gt (Nat.lt_of_le_of_lt (Nat.zero_le _) hn))
    rw [List.length_cons] at hn hl
    unfold XcEncMode.asks Session.calls at hc
    cases h1 : s.call R M (mode.ask inside k x) with
    | error e => rw [h1] at hc; exact nomatch hc
    | ok y =>
      obtain ⟨s1, bytes, shown⟩ := y
      rw [h1] at hc
      change (Session.calls R M s1 _).bind _ = _ at hc
      cases h2 : Session.calls R M s1 (mode.asks inside (k + 1) xs) with
      | error e => rw [h2] at hc; exact nomatch hc
      | ok z =>
        rw [h2] at hc
        cases hc
        obtain ⟨w1, a1, a2⟩ := hw.append hfour (by omega) bytes
        obtain ⟨w', b1, b2⟩ := ih h' (n := n) (by omega) h2 a2 (by rw [List.length_append, List.length_singleton]; omega)
        refine ⟨w', ?_, by rw [List.map_cons]; rw [List.append_assoc] at b2; exact b2⟩
        rw [xcEncWriting, hi]
        dsimp only
        rw [h1]
        dsimp only
        rw [a1]
        exact b1

theorem frames_fit {width height : Nat} (hf : Fits width height) {frames : List (List UInt8 × Raster)} (h : ∀ x ∈ frames, EncodedFrame width height x.1) :
    ∀ f ∈ frames.map (·.1), f.length < 2 ^ 32 := fun f hfm => by
  obtain ⟨x, x1, rfl⟩ := List.mem_map.1 hfm
  have := (h x x1).small
  have h3 := hf.macroblocks
  change (width + 15) / 16 * ((height + 15) / 16) ≤ 14400 at h3
  change _ ≤ 4194408 + 50975 * ((width + 15) / 16 * ((height + 15) / 16)) at this
  generalize (width + 15) / 16 * ((height + 15) / 16) = n at this h3
  omega

theorem minihash_lt (mix : Nat → Nat → Nat) (d : Decoder) : d.minihash mix < 2 ^ 32 := Nat.mod_lt _ (by decide)

/-! ### Going on -/

/-- The encoder made from a decoder without segments. -/
theorem resumed {d : Decoder} {width height : Nat} (hd : d.Ok) (hw : d.state.width = width) (hh : d.state.height = height) (hbig : 4 ≤ width ∧ 4 ≤ height)
    (hseg : d.state.segmentation = none) (realtime : Bool) :
    ∃ t, Session.resume d realtime = some t ∧ t.encoder.exportDecoder = d ∧ t.hasState = true ∧ t.Follows width height ∧ t.interHeader = emptyInterHeader ∧ t.realtime = realtime ∧
      t.lastQi = none := by
  have hdim : ¬ (macroblockDimension (d.state.width / 4) = 0 ∨ macroblockDimension (d.state.height / 4) = 0) := by
    unfold macroblockDimension
    omega
  unfold Session.resume
  rw [if_neg hdim]
  refine ⟨_, rfl, rfl, rfl, ⟨⟨hw, hh, emptyKeyHeader_reusable, emptyInterHeader_reusable, fun _ h => nomatch h⟩, hseg, ?_⟩, rfl, rfl, rfl⟩
  rw [← hw, ← hh]
  exact hd.references

/-- What the calls on such an encoder give. -/
theorem goes_on {Q : Type} [LinearOrder Q] (M : Meter Q) {width height : Nat} (hf : Fits width height) (hbig : 4 ≤ width ∧ 4 ≤ height) {d : Decoder} (hd : d.Ok)
    (hw : d.state.width = width) (hh : d.state.height = height) (hseg : d.state.segmentation = none) (realtime : Bool) {calls : List (Call Q)}
    (hc : ∀ c ∈ calls, c.Ok width height ∧ c.last.key.TypesKept) {t : Session} (ht : Session.resume d realtime = some t) :
    ∃ (t' : Session) (frames : List (List UInt8 × Raster)) (indices : List Nat), t.calls codeRenderer M calls = .ok (t', frames) ∧
      (∀ x ∈ frames, EncodedFrame width height x.1) ∧ EachNear M.zero realtime false none calls indices (frames.map (·.2)) ∧ frames.length = calls.length ∧
      (d.run codeRenderer (frames.map (·.1))).1.state.segmentation = none ∧
      ∀ d', d'.Ok → SameLast d d' → (d'.run codeRenderer (frames.map (·.1))).2 = frames.map (fun x => .ok (true, x.2)) ∧
        SameLast (d.run codeRenderer (frames.map (·.1))).1 (d'.run codeRenderer (frames.map (·.1))).1 := by
  obtain ⟨t0, k1, k2, k3, k4, k5, k6, k7⟩ := resumed hd hw hh hbig hseg realtime
  rw [ht] at k1
  cases k1
  have hc' : ∀ c ∈ calls, c.Ok width height := fun c h => (hc c h).1
  let s : Session := { t with encoder := { t.encoder with state := { t.encoder.state with filterAdjustments := some {} } } }
  have hs : s.Underway width height := ⟨⟨k4.wide, k4.high, k4.key, k4.inter, k4.last⟩, k4.segmentation, rfl, k4.references⟩
  obtain ⟨s', frames, l1, l2, l3, l4, -⟩ := laterCalls M hf hs k3 hc'
  have twin : Twin s t := ⟨rfl, rfl, rfl, rfl, ⟨t.encoder.state.filterAdjustments, rfl⟩, rfl⟩
  obtain ⟨t', m1, m2, m3, m4⟩ := twinCalls M hf hs k4 twin k3 hc' l1
  obtain ⟨indices, n1⟩ := laterCalls_near M hf hs k3 hc l1
  have n1' : EachNear M.zero realtime false none calls indices (frames.map (·.2)) := by
    have : EachNear M.zero t.realtime false t.lastQi calls indices (frames.map (·.2)) := n1
    rw [k6, k7] at this
    exact this
  rw [k2] at m4
  refine ⟨t', frames, indices, m1, laterCalls_encoded M hf hs k3 hc' l1, n1', l2, by rw [m4]; exact m2.segmentation, fun d' hd' hsame => ?_⟩
  obtain ⟨a, ha⟩ := hsame.state
  have ed : t.encoder = ⟨d.state, d.references⟩ := by
    rw [← k2]
    rfl
  let u : Session := { t with encoder := ⟨d'.state, d'.references⟩ }
  have hwd : d'.state.width = width := by rw [ha]; exact hw
  have hhd : d'.state.height = height := by rw [ha]; exact hh
  have hu : u.Follows width height := ⟨⟨hwd, hhd, k4.key, k4.inter, k4.last⟩, by show d'.state.segmentation = none; rw [ha]; exact hseg, by
    show d'.references.Ok width height
    rw [← hwd, ← hhd]
    exact hd'.references⟩
  have twin' : Twin s u := ⟨rfl, rfl, rfl, rfl, ⟨a, by show d'.state = { { t.encoder.state with filterAdjustments := some {} } with filterAdjustments := a }; rw [ha, ed]⟩, by
    show d'.references.last = t.encoder.references.last
    rw [ed]
    exact hsame.last⟩
  obtain ⟨u', v1, v2, v3, v4⟩ := twinCalls M hf hs hu twin' k3 hc' l1
  change d'.run codeRenderer _ = _ at v4
  rw [m4, v4]
  obtain ⟨b, hb⟩ := m3.state
  obtain ⟨b', hb'⟩ := v3.state
  exact ⟨rfl, ⟨b', by show u'.encoder.state = { t'.encoder.state with filterAdjustments := b' }; rw [hb, hb']⟩, v3.last.trans m3.last.symm⟩

/-- Encoding from a state, for an input that ends well or fails after some pictures. -/
theorem primary_goes_on {σ Q : Type} [LinearOrder Q] (M : Meter Q) (mix : Nat → Nat → Nat) {width height : Nat} (hf : Fits width height) (hbig : 4 ≤ width ∧ 4 ≤ height)
    {next : σ → Except XcEncError (Option Raster × σ)} {mode : XcEncMode Q} (hm : mode.Ok) {inside : Nat → Inside} (hi : ∀ k, (inside k).Ok width height)
    (realtime : Bool) (references : References) {blank : Raster} {state : List UInt8} {d : Decoder} (hload : loadDecoder blank state = some d) (hd : d.Ok)
    (hw : d.state.width = width) (hh : d.state.height = height) (hseg : d.state.segmentation = none) (outputState : Bool) {rounds : Nat} {i : σ} {xs : List Raster}
    {e : Option XcEncError} (h : (e = none ∧ Gives next i xs) ∨ ∃ e', e = some e' ∧ GivesThen next i xs e') (hx : ∀ x ∈ xs, x.Ok width height) (hr : xs.length < rounds)
    (hl : xs.length < 2 ^ 32) :
    ∃ (file : List UInt8) (frames : List (List UInt8)) (shown : List Raster),
      xcEncPrimary mix next codeRenderer M mode inside realtime references (some (blank, state)) outputState rounds width height i =
        (some file, match e with | some e => some (.encoding e) | none => if outputState then some .outputState else none) ∧
      Chunk.InFile (⟨vp80, width, height, 1, 1, d.minihash mix⟩, frames) file ∧ frames.length = xs.length ∧ NearChunk M.zero mode inside realtime xs shown ∧
      (d.run codeRenderer frames).1.state.segmentation = none ∧
      ∀ d', d'.Ok → SameLast d d' → (d'.run codeRenderer frames).2 = shown.map (fun x => .ok (true, x)) ∧
        SameLast (d.run codeRenderer frames).1 (d'.run codeRenderer frames).1 := by
  obtain ⟨t, k1, k2, -⟩ := resumed hd hw hh hbig hseg realtime
  have hc : ∀ c ∈ mode.asks inside 0 xs, c.Ok width height ∧ c.last.key.TypesKept := by
    intro c h
    obtain ⟨j, x, h1, rfl⟩ := asks_mem h
    obtain ⟨h2, h3, -⟩ := ask_ok hm hi j (hx x h1)
    exact ⟨h2, h3 ▸ (hi j).kept⟩
  obtain ⟨t', frames, indices, g1, g2, g3, g4, g5, g6⟩ := goes_on M hf hbig hd hw hh hseg realtime hc k1
  obtain ⟨n1, n2, n3⟩ := g3.get
  have hask := (asks_get mode inside xs 0).1
  obtain ⟨w, w1, w2⟩ := create_wrote vp80 width height 1 1 rfl
  obtain ⟨w', l1, l2⟩ := xcEncWriting_spec (R := codeRenderer) (info := ⟨vp80, width, height, 1, 1, d.minihash mix⟩) rfl h hr g1 (w2.hash rfl (d.minihash mix))
    (by rw [List.length_nil]; omega)
  rw [List.nil_append] at l2
  obtain ⟨ivf, o1, o2⟩ := C33_reads_layout ⟨vp80, width, height, 1, 1, d.minihash mix⟩
    ⟨rfl, by have := hf.wide.2; show width < _; omega, by have := hf.high.2; show height < _; omega, by show 1 < 2 ^ 32; decide, by show 1 < 2 ^ 32; decide, minihash_lt mix d⟩
    (frames.map (·.1)) (by rw [List.length_map, g4, hask]; exact hl) (frames_fit hf g2) []
  rw [List.append_nil, ← l2.file] at o1
  refine ⟨w'.file, frames.map (·.1), frames.map (·.2), ?_, ⟨ivf, o1, o2⟩, by rw [List.length_map, g4, hask], ⟨by rw [n2, hask], indices, by rw [n1, hask], ?_⟩, g5, ?_⟩
  · unfold xcEncPrimary xcEncEncoder
    rw [w1]
    dsimp only
    rw [hload]
    dsimp only
    rw [k1]
    dsimp only [Option.isSome_some]
    rw [if_pos rfl, k2, l1]
    cases e <;> rfl
  · intro k x y hxk hyk
    have hcall := (asks_get mode inside xs 0).2 k x hxk
    rw [Nat.zero_add] at hcall
    have hxm : x ∈ xs := List.mem_of_getElem? hxk
    obtain ⟨q, q0, q1, q2, q3⟩ := n3 k _ _ hcall hyk
    rw [(ask_ok hm hi k (hx x hxm)).2.2] at q3
    refine ⟨q, q0, q1, ?_, q3⟩
    exact ask_mayUse q2
  · intro d' hd' hs
    rw [List.map_map]
    exact g6 d' hd' hs

/-- **C103, going on.** From the state of a decoder without segments, the program encodes any number of pictures of the decoder's size.  The file names the state, and any
decoder with the same last picture and the same state, whatever its other two pictures and its adjustments of the loop filter, shows a picture for each one given, near it; no
frame is a key frame coded in two passes.  With `--output-state` the program fails, with the file complete. -/
theorem C103_goes_on {σ Q : Type} [LinearOrder Q] (M : Meter Q) (mix : Nat → Nat → Nat) {width height : Nat} (hf : Fits width height) (hbig : 4 ≤ width ∧ 4 ≤ height)
    {next : σ → Except XcEncError (Option Raster × σ)} {mode : XcEncMode Q} (hm : mode.Ok) {inside : Nat → Inside} (hi : ∀ k, (inside k).Ok width height)
    (realtime : Bool) (references : References) {blank : Raster} {state : List UInt8} {d : Decoder} (hload : loadDecoder blank state = some d) (hd : d.Ok)
    (hw : d.state.width = width) (hh : d.state.height = height) (hseg : d.state.segmentation = none) (outputState : Bool) {rounds : Nat} {i : σ} {xs : List Raster}
    (h : Gives next i xs) (hx : ∀ x ∈ xs, x.Ok width height) (hr : xs.length < rounds) (hl : xs.length < 2 ^ 32) :
    ∃ (file : List UInt8) (frames : List (List UInt8)) (shown : List Raster),
      xcEncPrimary mix next codeRenderer M mode inside realtime references (some (blank, state)) outputState rounds width height i =
        (some file, if outputState then some .outputState else none) ∧
      Chunk.InFile (⟨vp80, width, height, 1, 1, d.minihash mix⟩, frames) file ∧ frames.length = xs.length ∧ NearChunk M.zero mode inside realtime xs shown ∧
      ∀ d', d'.Ok → SameLast d d' → (d'.run codeRenderer frames).2 = shown.map (fun x => .ok (true, x)) := by
  obtain ⟨file, frames, shown, h1, h2, h3, h4, -, h6⟩ := primary_goes_on M mix hf hbig hm hi realtime references hload hd hw hh hseg outputState (.inl ⟨rfl, h⟩) hx hr hl
  exact ⟨file, frames, shown, h1, h2, h3, h4, fun d' a b => (h6 d' a b).1⟩

/-- **C103, an input that fails.** The pictures before the failure are in the file, which can be read. -/
theorem C103_cut_short {σ Q : Type} [LinearOrder Q] (M : Meter Q) (mix : Nat → Nat → Nat) {width height : Nat} (hf : Fits width height) (hbig : 4 ≤ width ∧ 4 ≤ height)
    {next : σ → Except XcEncError (Option Raster × σ)} {mode : XcEncMode Q} (hm : mode.Ok) {inside : Nat → Inside} (hi : ∀ k, (inside k).Ok width height)
    (realtime : Bool) (references : References) {blank : Raster} {state : List UInt8} {d : Decoder} (hload : loadDecoder blank state = some d) (hd : d.Ok)
    (hw : d.state.width = width) (hh : d.state.height = height) (hseg : d.state.segmentation = none) (outputState : Bool) {rounds : Nat} {i : σ} {xs : List Raster}
    {e : XcEncError} (h : GivesThen next i xs e) (hx : ∀ x ∈ xs, x.Ok width height) (hr : xs.length < rounds) (hl : xs.length < 2 ^ 32) :
    ∃ (file : List UInt8) (frames : List (List UInt8)) (shown : List Raster),
      xcEncPrimary mix next codeRenderer M mode inside realtime references (some (blank, state)) outputState rounds width height i = (some file, some (.encoding e)) ∧
      Chunk.InFile (⟨vp80, width, height, 1, 1, d.minihash mix⟩, frames) file ∧ frames.length = xs.length ∧ NearChunk M.zero mode inside realtime xs shown ∧
      ∀ d', d'.Ok → SameLast d d' → (d'.run codeRenderer frames).2 = shown.map (fun x => .ok (true, x)) := by
  obtain ⟨file, frames, shown, h1, h2, h3, h4, -, h6⟩ := primary_goes_on M mix hf hbig hm hi realtime references hload hd hw hh hseg outputState (.inr ⟨e, rfl, h⟩) hx hr hl
  exact ⟨file, frames, shown, h1, h2, h3, h4, fun d' a b => (h6 d' a b).1⟩

/-- **C103, chunks in turn.** Any number of chunks, each encoded from the state that the dump program has made of the chunk before: every program succeeds, and a decoder that
begins with the same last picture and the same state shows, for all the frames of all the chunks, a picture for each one given, near it. -/
theorem C103_in_turn {σ Q : Type} [LinearOrder Q] (M : Meter Q) (mix : Nat → Nat → Nat) {width height : Nat} (hf : Fits width height) (hbig : 4 ≤ width ∧ 4 ≤ height)
    {next : σ → Except XcEncError (Option Raster × σ)} {mode : XcEncMode Q} (hm : mode.Ok) {inside : Nat → Inside} (hi : ∀ k, (inside k).Ok width height)
    (realtime : Bool) (references fresh : References) (blank : Raster) {rounds : Nat} :
    ∀ {is : List σ} {xss : List (List Raster)}, List.Forall₂ (Gives next) is xss → (∀ xs ∈ xss, xs ≠ [] ∧ xs.length < rounds ∧ xs.length < 2 ^ 32 ∧ ∀ x ∈ xs, x.Ok width height) →
    ∀ {state : List UInt8} {d d' : Decoder}, loadDecoder blank state = some d → d.Ok → d.state.width = width → d.state.height = height → d.state.segmentation = none →
      d'.Ok → SameLast d d' →
    ∃ (files : List (List UInt8)) (framess : List (List (List UInt8))) (showns : List (List Raster)),
      InTurn (fun state i file after =>
        xcEncPrimary mix next codeRenderer M mode inside realtime references (some (blank, state)) false rounds width height i = (some file, none) ∧
        xcDump codeRenderer mix fresh (some (blank, state)) file none = .ok after) state is files ∧
      List.Forall₂ (fun frames file => ∃ hash, Chunk.InFile (⟨vp80, width, height, 1, 1, hash⟩, frames) file) framess files ∧
      List.Forall₂ (NearChunk M.zero mode inside realtime) xss showns ∧
      (d'.run codeRenderer framess.flatten).2 = showns.flatten.map (fun x => .ok (true, x)) := by
  intro is xss hgives
  induction hgives with
  | nil => intro _ state d d' _ _ _ _ _ _ _; exact ⟨[], [], [], .done, .nil, .nil, rfl⟩
  | @cons i xs is xss h _ ih =>
    intro hx state d d' hload hd hw hh hseg hd' hsame
    obtain ⟨x1, x2, x3, x4⟩ := hx xs (List.mem_cons_self ..)
    obtain ⟨file, frames, shown, h1, h2, h3, h4, h5, h6⟩ := primary_goes_on M mix hf hbig hm hi realtime references hload hd hw hh hseg false (.inl ⟨rfl, h⟩) x4 x2 x3
    obtain ⟨v1, v2⟩ := h6 d' hd' hsame
    obtain ⟨u1, -⟩ := h6 d hd ⟨⟨d.state.filterAdjustments, rfl⟩, rfl⟩
    have hpos : 0 < frames.length := by rw [h3]; exact List.length_pos_of_ne_nil x1
    obtain ⟨a1, a2, a3⟩ := C18_any_history codeRenderer C63_renderer frames d hd
    obtain ⟨after, e1, e2⟩ := C79_dump C63_renderer mix (fresh := fresh) (start := some (blank, state)) h2 (by show frames.length < _; omega) hd ⟨hload, hw, hh⟩ (.inr rfl)
      (frameNumber := none) (k := frames.length - 1) rfl (show _ < frames.length by omega) (by
        show ∀ out ∈ (d.run codeRenderer (frames.take _)).2, _
        rw [Nat.sub_add_cancel hpos, List.take_length, u1]
        intro out ho
        obtain ⟨y, -, rfl⟩ := List.mem_map.1 ho
        exact ⟨_, rfl⟩)
    have e2 := e2 blank
    dsimp only at e2
    rw [Nat.sub_add_cancel hpos, List.take_length] at e2
    obtain ⟨files, framess, showns, i1, i2, i3, i4⟩ := ih (fun xs h => hx xs (List.mem_cons_of_mem _ h)) e2 ⟨a1.state, a1.references.last, a1.references.last, a1.references.last⟩
      (a2.trans hw) (a3.trans hh) h5 (C18_any_history codeRenderer C63_renderer frames d' hd').1 ⟨v2.state, v2.last⟩
    refine ⟨file :: files, frames :: framess, shown :: showns, .more ⟨h1, e1⟩ i1, .cons ⟨_, h2⟩ i2, .cons h4 i3, ?_⟩
    rw [List.flatten_cons, List.flatten_cons, run_append, v1, List.map_append]
    dsimp only
    rw [i4]

/-! ### From nothing -/

/-- Encoding from nothing. -/
theorem primary_begins {σ Q : Type} [LinearOrder Q] (M : Meter Q) (mix : Nat → Nat → Nat) {width height : Nat} (hf : Fits width height) (hbig : 4 ≤ width ∧ 4 ≤ height)
    {next : σ → Except XcEncError (Option Raster × σ)} {mode : XcEncMode Q} (hm : mode.Ok) {inside : Nat → Inside} (hi : ∀ k, (inside k).Ok width height)
    (realtime : Bool) (references : References) {rounds : Nat} {i : σ} {xs : List Raster} (h : Gives next i xs) (hne : xs ≠ []) (hx : ∀ x ∈ xs, x.Ok width height)
    (hr : xs.length < rounds) (hl : xs.length < 2 ^ 32) :
    ∃ (file : List UInt8) (f : List UInt8) (fs : List (List UInt8)) (shown : List Raster) (indices : List Nat),
      xcEncPrimary mix next codeRenderer M mode inside realtime references none false rounds width height i = (some file, none) ∧
      Chunk.InFile (⟨vp80, width, height, 1, 1, 0⟩, f :: fs) file ∧ (f :: fs).length = xs.length ∧
      (SaysKey f ∧ ∃ c, splitFrame f width height false = .ok c) ∧ shown.length = xs.length ∧ indices.length = xs.length ∧
      (∀ (k : Nat) (x y : Raster), xs[k]? = some x → shown[k]? = some y → ∃ q, indices[k]? = some q ∧ q ≤ 127 ∧
        mode.MayUse M.zero inside k (indexBefore realtime indices k) q ∧ FidelitySpec.FaithfulIn (k == 0 && (inside k).work.twoPasses) q x y) ∧
      ∀ d : Decoder, d.state.width = width → d.state.height = height → (d.run codeRenderer (f :: fs)).2 = shown.map (fun x => .ok (true, x)) ∧
        (d.run codeRenderer (f :: fs)).1.state.segmentation = none := by
  have hdim : ¬ (macroblockDimension (width / 4) = 0 ∨ macroblockDimension (height / 4) = 0) := by
    unfold macroblockDimension
    omega
  obtain ⟨s, hcreate, hready, hnew⟩ : ∃ s, Session.create width height realtime references = some s ∧ s.Ready width height ∧ s.hasState = false := by
    unfold Session.create
    rw [if_neg hdim]
    exact ⟨_, rfl, ⟨rfl, rfl, emptyKeyHeader_reusable, emptyInterHeader_reusable, fun _ h => nomatch h⟩, rfl⟩
  have hc : ∀ c ∈ mode.asks inside 0 xs, c.Ok width height ∧ c.last.key.TypesKept := by
    intro c h
    obtain ⟨j, x, h1, rfl⟩ := asks_mem h
    obtain ⟨h2, h3, -⟩ := ask_ok hm hi j (hx x h1)
    exact ⟨h2, h3 ▸ (hi j).kept⟩
  let blank := blankRaster width height
  obtain ⟨s', frames, shown, indices, c1, c2, c3, c4, c5⟩ := C77_calls M hf emptyKeyHeader_reusable emptyInterHeader_reusable hcreate hc
    (d := Decoder.new ⟨blank, blank, blank⟩ width height) rfl rfl
  obtain ⟨e1, e2⟩ := calls_encoded M hf hready hnew (fun c h => (hc c h).1) c1
  obtain ⟨w, w1, w2⟩ := create_wrote vp80 width height 1 1 rfl
  obtain ⟨w', l1, l2⟩ := xcEncWriting_spec (R := codeRenderer) (info := ⟨vp80, width, height, 1, 1, 0⟩) rfl (.inl ⟨rfl, h⟩) hr c1 w2 (by rw [List.length_nil]; omega)
  rw [List.nil_append] at l2
  have hask := (asks_get mode inside xs 0).1
  have hlen : frames.length = xs.length := by
    have := c4
    rw [hask] at this
    have h2 := congrArg List.length c2
    rw [run_length, List.length_map, List.length_map] at h2
    omega
  obtain ⟨ivf, o1, o2⟩ := C33_reads_layout ⟨vp80, width, height, 1, 1, 0⟩
    ⟨rfl, by have := hf.wide.2; show width < _; omega, by have := hf.high.2; show height < _; omega, by show 1 < 2 ^ 32; decide, by show 1 < 2 ^ 32; decide, by show 0 < 2 ^ 32; decide⟩
    (frames.map (·.1)) (by rw [List.length_map, hlen]; exact hl) (frames_fit hf e1) []
  rw [List.append_nil, ← l2.file] at o1
  have hruns : ∀ d : Decoder, d.state.width = width → d.state.height = height → (d.run codeRenderer (frames.map (·.1))).2 = frames.map (fun x => .ok (true, x.2)) ∧
      (d.run codeRenderer (frames.map (·.1))).1.state.segmentation = none := by
    intro d hw hh
    cases hcalls : mode.asks inside 0 xs with
    | nil =>
      rw [hcalls] at hask
      exact absurd (List.length_eq_zero_iff.1 hask.symm) hne
    | cons c rest =>
      rw [hcalls] at hc c1
      obtain ⟨s1, bytes, sh, j1, j2, j3, -, -, j6⟩ := firstCall M hf hready hnew (hc c (List.mem_cons_self ..)).1
      obtain ⟨s2, fr, m1, m2, m3, m4, m5⟩ := laterCalls M hf j3 j2 (fun c h => (hc c (List.mem_cons_of_mem _ h)).1)
      unfold Session.calls at c1
      rw [j1] at c1
      change (Session.calls codeRenderer M s1 rest).bind _ = _ at c1
      rw [m1] at c1
      cases c1
      rw [List.map_cons, List.map_cons, Decoder.run, j6 d hw hh]
      dsimp only
      rw [m5]
      exact ⟨rfl, m3.segmentation⟩
  cases frames with
  | nil => exact absurd (List.length_eq_zero_iff.1 hlen.symm) hne
  | cons x rest =>
    have hshown : shown = (x :: rest).map (·.2) := by
      have h1 := (hruns (Decoder.new ⟨blank, blank, blank⟩ width height) rfl rfl).1
      rw [c2, show (x :: rest).map (fun x => Except.ok (ε := FrameError) (true, x.2)) = ((x :: rest).map (·.2)).map (fun x => .ok (true, x)) by rw [List.map_map]; rfl] at h1
      exact List.map_injective_iff.2 (fun a b h => by cases h; rfl) h1
    have hin : Chunk.InFile (⟨vp80, width, height, 1, 1, 0⟩, x.1 :: rest.map (fun x => x.1)) w'.file := ⟨ivf, o1, o2⟩
    refine ⟨w'.file, x.1, rest.map (fun x => x.1), shown, indices, ?_, hin, by rw [List.length_cons, List.length_map]; exact hlen, ?_, by rw [c4, hask], by rw [c3, hask], ?_, ?_⟩
    · unfold xcEncPrimary xcEncEncoder
      rw [w1]
      dsimp only
      rw [hcreate]
      dsimp only [Option.isSome_none]
      rw [if_neg (by decide), l1]
      rfl
    · obtain ⟨c, s1, s2⟩ := e2 x rfl
      refine ⟨?_, c, s1⟩
      obtain ⟨b, tl, b1, b2, -⟩ := C11_accepted_frame_start _ _ _ _ s1
      refine ⟨b, by rw [b1]; rfl, ?_⟩
      rw [s2] at b2
      simpa using b2.symm
    · intro k x y hxk hyk
      have hcall := (asks_get mode inside xs 0).2 k x hxk
      rw [Nat.zero_add] at hcall
      have hxm : x ∈ xs := List.mem_of_getElem? hxk
      obtain ⟨q, q0, q1, q2, q3⟩ := c5 k _ _ hcall hyk
      rw [(ask_ok hm hi k (hx x hxm)).2.2, (ask_ok hm hi k (hx x hxm)).2.1] at q3
      exact ⟨q, q0, q1, ask_mayUse q2, q3⟩
    · intro d hw hh
      obtain ⟨h1, h2⟩ := hruns d hw hh
      refine ⟨?_, h2⟩
      rw [hshown, List.map_map]
      exact h1

theorem merge_all {width height : Nat} : ∀ {files : List (List UInt8)} {framess : List (List (List UInt8))},
    List.Forall₂ (fun frames file => ∃ hash, Chunk.InFile (⟨vp80, width, height, 1, 1, hash⟩, frames) file) framess files →
    ∀ {file : List UInt8} {frames : List (List UInt8)} {hash : Nat}, Chunk.InFile (⟨vp80, width, height, 1, 1, hash⟩, frames) file →
    frames.length + framess.flatten.length < 2 ^ 32 →
    ∃ merged hash, files.foldlM xcMerge file = .ok merged ∧ Chunk.InFile (⟨vp80, width, height, 1, 1, hash⟩, frames ++ framess.flatten) merged := by
  intro files framess h
  induction h with
  | nil => intro file frames hash h _; exact ⟨file, hash, rfl, by rw [List.flatten_nil, List.append_nil]; exact h⟩
  | @cons frames2 file2 framess files h2 _ ih =>
    intro file frames hash h1 hl
    obtain ⟨hash2, ivf2, a1, a2⟩ := h2
    obtain ⟨ivf1, b1, b2⟩ := h1
    rw [List.flatten_cons, List.length_append] at hl
    obtain ⟨out, ivf, c1, c2, c3⟩ := (C53_merge file file2 ivf1 ivf2 b1 a1 frames frames2 b2.frameCount a2.frameCount b2.contents a2.contents (by omega)).1
      ⟨b2.width.trans a2.width.symm, b2.height.trans a2.height.symm⟩
    rw [show "VP80".toUTF8.toList = vp80 by decide +kernel, b2.width, b2.height] at c3
    obtain ⟨merged, hash', d1, d2⟩ := ih (file := out) (hash := 0) ⟨ivf, c2, c3⟩ (by rw [List.length_append]; omega)
    refine ⟨merged, hash', ?_, ?_⟩
    · rw [List.foldlM_cons, c1]
      exact d1
    · rw [List.flatten_cons, ← List.append_assoc]
      exact d2

theorem lengths_same {Q : Type} [LinearOrder Q] {zero : Q} {mode : XcEncMode Q} {inside : Nat → Inside} {realtime : Bool} {xss yss : List (List Raster)}
    (h : List.Forall₂ (NearChunk zero mode inside realtime) xss yss) : yss.map List.length = xss.map List.length := by
  induction h with
  | nil => rfl
  | cons h _ ih => rw [List.map_cons, List.map_cons, ih, h.1]

/-- **C103, a video in chunks.** A first chunk is encoded from nothing, the dump program makes a state of it, and any number of further chunks are encoded in turn.  The files,
merged into one, play with any fresh memory as one video that shows a picture for each one given, near it. -/
theorem C103_video_in_chunks {σ Q : Type} [LinearOrder Q] (M : Meter Q) (mix : Nat → Nat → Nat) {width height : Nat} (hf : Fits width height) (hbig : 4 ≤ width ∧ 4 ≤ height)
    {next : σ → Except XcEncError (Option Raster × σ)} {mode : XcEncMode Q} (hm : mode.Ok) {inside : Nat → Inside} (hi : ∀ k, (inside k).Ok width height)
    (realtime : Bool) (references : References) {fresh : References} (hfresh : fresh.Ok width height) (blank : Raster) {rounds : Nat} {i : σ} {xs : List Raster} (h : Gives next i xs)
    {is : List σ} {xss : List (List Raster)} (hs : List.Forall₂ (Gives next) is xss)
    (hx : ∀ ys ∈ xs :: xss, ys ≠ [] ∧ ys.length < rounds ∧ ∀ y ∈ ys, y.Ok width height) (hl : (xs :: xss).flatten.length < 2 ^ 32) :
    ∃ (file state : List UInt8) (files : List (List UInt8)) (merged : List UInt8) (shown : List Raster) (showns : List (List Raster)) (indices : List Nat),
      xcEncPrimary mix next codeRenderer M mode inside realtime references none false rounds width height i = (some file, none) ∧
      xcDump codeRenderer mix fresh none file none = .ok state ∧
      InTurn (fun state i file after =>
        xcEncPrimary mix next codeRenderer M mode inside realtime references (some (blank, state)) false rounds width height i = (some file, none) ∧
        xcDump codeRenderer mix fresh (some (blank, state)) file none = .ok after) state is files ∧
      files.foldlM xcMerge file = .ok merged ∧ (∀ memory, vp8decode codeRenderer memory merged = (shown ++ showns.flatten, none)) ∧
      shown.length = xs.length ∧ (∀ (k : Nat) (x y : Raster), xs[k]? = some x → shown[k]? = some y → ∃ q, indices[k]? = some q ∧ q ≤ 127 ∧
        mode.MayUse M.zero inside k (indexBefore realtime indices k) q ∧ FidelitySpec.FaithfulIn (k == 0 && (inside k).work.twoPasses) q x y) ∧
      List.Forall₂ (NearChunk M.zero mode inside realtime) xss showns := by
  rw [List.flatten_cons, List.length_append] at hl
  obtain ⟨x1, x2, x4⟩ := hx xs (List.mem_cons_self ..)
  obtain ⟨file, f, fs, shown, indices, p1, p2, p3, p4, p5, p6, p7, p8⟩ := primary_begins M mix hf hbig hm hi realtime references h x1 x4 x2 (by omega)
  let d := Decoder.new fresh width height
  have hd : d.Ok := ⟨⟨hf.wide, hf.high, fun _ h => (nomatch h), fun _ h => (nomatch h)⟩, hfresh⟩
  obtain ⟨r1, r2⟩ := p8 d rfl rfl
  obtain ⟨a1, a2, a3⟩ := C18_any_history codeRenderer C63_renderer (f :: fs) d hd
  obtain ⟨state, e1, e2⟩ := C79_dump C63_renderer mix (fresh := fresh) (start := none) p2 (by show (f :: fs).length < _; omega) hd rfl (.inl rfl)
      (frameNumber := none) (k := fs.length) rfl (Nat.lt_succ_self _) (by
        show ∀ out ∈ (d.run codeRenderer ((f :: fs).take _)).2, _
        rw [← List.length_cons (a := f), List.take_length, r1]
        intro out ho
        obtain ⟨y, -, rfl⟩ := List.mem_map.1 ho
        exact ⟨_, rfl⟩)
  have e2 := e2 blank
  dsimp only at e2
  rw [← List.length_cons (a := f), List.take_length] at e2
  have hmem : ∀ ys ∈ xss, ys.length ≤ xss.flatten.length := fun ys h => by
    rw [List.length_flatten]
    exact List.le_sum_of_mem (List.mem_map_of_mem h)
  obtain ⟨files, framess, showns, i1, i2, i3, i4⟩ := C103_in_turn M mix hf hbig hm hi realtime references fresh blank hs
    (fun ys h => by
      obtain ⟨z1, z2, z3⟩ := hx ys (List.mem_cons_of_mem _ h)
      have := hmem ys h
      exact ⟨z1, z2, by omega, z3⟩)
    e2 ⟨a1.state, a1.references.last, a1.references.last, a1.references.last⟩ a2 a3 r2 a1 ⟨⟨(d.run codeRenderer (f :: fs)).1.state.filterAdjustments, rfl⟩, rfl⟩
  have hcount : framess.flatten.length = xss.flatten.length := by
    have h1 := congrArg List.length i4
    rw [run_length, List.length_map] at h1
    rw [h1, List.length_flatten, List.length_flatten]
    congr 1
    exact lengths_same i3
  obtain ⟨merged, hash, m1, ivf, m2, m3⟩ := merge_all i2 p2 (by rw [p3, hcount]; exact hl)
  refine ⟨file, state, files, merged, shown, showns, indices, p1, e1, i1, m1, fun memory => ?_, p5, p7, i3⟩
  have := C55_playback codeRenderer fresh merged ivf m2 _ [] (f :: fs ++ framess.flatten) m3 (show vp80 = _ by decide +kernel) (fun _ h => nomatch h) (fun g hg => by
    cases hg
    rw [m3.width, m3.height]
    exact p4)
  rw [this.2 memory, this.1]
  dsimp only
  rw [run_append, r1]
  dsimp only
  rw [i4, ← List.map_append, show (shown ++ showns.flatten).map (fun x => Except.ok (ε := FrameError) (true, x)) = ((shown ++ showns.flatten).map (fun x => (true, x))).map .ok by
      rw [List.map_map]; rfl,
    C55_reel_of_sound_stream _ (fun x hxm => by
        obtain ⟨y, -, rfl⟩ := List.mem_map.1 (List.mem_of_getLast? hxm)
        rfl)]
  rw [List.filter_eq_self.2 (fun x hxm => by
        obtain ⟨y, -, rfl⟩ := List.mem_map.1 hxm
        rfl), List.map_map]
  simp

/-! ### Failures -/

/-- **C103, a state that cannot be read.** The file has a header and no frames. -/
theorem C103_unreadable_state {σ Q : Type} [LinearOrder Q] (M : Meter Q) (mix : Nat → Nat → Nat) (R : Renderer) {width height : Nat} (hw : width < 2 ^ 16) (hh : height < 2 ^ 16)
    (next : σ → Except XcEncError (Option Raster × σ)) (mode : XcEncMode Q) (inside : Nat → Inside) (realtime : Bool) (references : References) {blank : Raster} {state : List UInt8}
    (hload : loadDecoder blank state = none) (outputState : Bool) (rounds : Nat) (i : σ) :
    ∃ file, xcEncPrimary mix next R M mode inside realtime references (some (blank, state)) outputState rounds width height i = (some file, some .state) ∧
      Chunk.InFile (⟨vp80, width, height, 1, 1, 0⟩, []) file := by
  obtain ⟨w, w1, w2⟩ := create_wrote vp80 width height 1 1 rfl
  obtain ⟨ivf, o1, o2⟩ := C33_reads_layout ⟨vp80, width, height, 1, 1, 0⟩ ⟨rfl, hw, hh, by show 1 < 2 ^ 32; decide, by show 1 < 2 ^ 32; decide, by show 0 < 2 ^ 32; decide⟩ []
    (by decide) (fun _ h => nomatch h) []
  rw [List.append_nil, ← w2.file] at o1
  refine ⟨w.file, ?_, ivf, o1, o2⟩
  unfold xcEncPrimary xcEncEncoder
  rw [w1]
  dsimp only
  rw [hload]

/-- **C103, a state of another size.** The first picture is refused, and the file has a header, which names the state, and no frames. -/
theorem C103_wrong_size {σ Q : Type} [LinearOrder Q] (M : Meter Q) (mix : Nat → Nat → Nat) (R : Renderer) {width height : Nat} (hw : width < 2 ^ 16) (hh : height < 2 ^ 16)
    {next : σ → Except XcEncError (Option Raster × σ)} {mode : XcEncMode Q} (inside : Nat → Inside) (realtime : Bool) (references : References) {blank : Raster} {state : List UInt8}
    {d : Decoder} (hload : loadDecoder blank state = some d) (hbig : 4 ≤ d.state.width ∧ 4 ≤ d.state.height) (outputState : Bool) {rounds : Nat} (hr : 0 < rounds) {i i' : σ}
    {x : Raster} (hi : next i = .ok (some x, i')) (hx : x.Ok width height) (hsize : ¬ (d.state.width = width ∧ d.state.height = height)) :
    ∃ file, xcEncPrimary mix next R M mode inside realtime references (some (blank, state)) outputState rounds width height i = (some file, some (.encoding (.encode .scaling))) ∧
      Chunk.InFile (⟨vp80, width, height, 1, 1, d.minihash mix⟩, []) file := by
  have hdim : ¬ (macroblockDimension (d.state.width / 4) = 0 ∨ macroblockDimension (d.state.height / 4) = 0) := by
    unfold macroblockDimension
    omega
  obtain ⟨w, w1, w2⟩ := create_wrote vp80 width height 1 1 rfl
  have w3 := w2.hash rfl (d.minihash mix)
  obtain ⟨ivf, o1, o2⟩ := C33_reads_layout ⟨vp80, width, height, 1, 1, d.minihash mix⟩ ⟨rfl, hw, hh, by show 1 < 2 ^ 32; decide, by show 1 < 2 ^ 32; decide, minihash_lt mix d⟩ []
    (by decide) (fun _ h => nomatch h) []
  rw [List.append_nil, ← w3.file] at o1
  refine ⟨_, ?_, ivf, o1, o2⟩
  obtain ⟨n, rfl⟩ := Nat.exists_eq_succ_of_ne_zero (Nat.ne_of_gt hr)
  unfold xcEncPrimary xcEncEncoder
  rw [w1]
  dsimp only
  rw [hload]
  dsimp only
  unfold Session.resume
  rw [if_neg hdim]
  dsimp only [Option.isSome_some]
  rw [if_pos rfl, xcEncWriting, hi]
  dsimp only
  rw [(C69_scaling R M _ _).2 (fun h => by
    have hp : (mode.ask inside 0 x).picture = x := by cases mode <;> rfl
    rw [hp, hx.displayWidth, hx.displayHeight] at h
    exact hsize ⟨h.1.symm, h.2.symm⟩)]
  rfl

/-! ### The options -/

theorem settings_spec {Q : Type} (options : List (XcEncOption Q)) : ∀ (v : XcEncSettings Q),
    let v' := options.foldl XcEncSettings.set v
    v'.realtime = (v.realtime || options.any fun o => match o with | .quality n => n == "rt" | _ => false) ∧
    match (options.filterMap XcEncOption.mode).getLast? with
    | none => v'.mode = v.mode ∧ v'.ssim = v.ssim ∧ v'.yAcQi = v.yAcQi ∧ v'.sizes = v.sizes
    | some (.minimumSsim x) => v'.mode = .minimumSsim ∧ v'.ssim = x
    | some (.constantQuantizer n) => v'.mode = .constantQuantizer ∧ v'.yAcQi = some n
    | some (.targetFrameSize l) => v'.mode = .targetFrameSize ∧ v'.sizes = l := by
  induction options with
  | nil => intro v; exact ⟨(Bool.or_false _).symm, rfl, rfl, rfl, rfl⟩
  | cons o options ih =>
    intro v
    obtain ⟨h1, h2⟩ := ih (v.set o)
    dsimp only [List.foldl_cons]
    refine ⟨?_, ?_⟩
    · rw [h1, List.any_cons, ← Bool.or_assoc]
      congr 1
      cases o with
      | quality n =>
        unfold XcEncSettings.set
        dsimp only
        by_cases h : n = "rt"
        · rw [if_pos h, h]; simp
        · rw [if_neg h, beq_false_of_ne h, Bool.or_false]
      | _ => exact (Bool.or_false _).symm
    · cases ho : o.mode with
      | none =>
        rw [List.filterMap_cons_none ho]
        cases o with
        | quality n =>
          have hv : (v.set (.quality n)).mode = v.mode ∧ (v.set (.quality n)).ssim = v.ssim ∧ (v.set (.quality n)).yAcQi = v.yAcQi ∧ (v.set (.quality n)).sizes = v.sizes := by
            unfold XcEncSettings.set
            dsimp only
            split <;> exact ⟨rfl, rfl, rfl, rfl⟩
          rw [hv.1, hv.2.1, hv.2.2.1, hv.2.2.2] at h2
          exact h2
        | _ => cases ho
      | some m =>
        rw [List.filterMap_cons_some ho]
        cases hl : (options.filterMap XcEncOption.mode).getLast? with
        | some m' =>
          rw [hl] at h2
          rw [List.getLast?_cons, hl]
          cases m' <;> exact h2
        | none =>
          rw [hl] at h2
          rw [List.getLast?_cons, hl]
          obtain ⟨a1, a2, a3, a4⟩ := h2
          cases o with
          | ssim x => cases ho; exact ⟨a1, a2⟩
          | yAcQi n => cases ho; exact ⟨a1, a3⟩
          | frameSizes l => cases ho; exact ⟨a1, a4⟩
          | quality n => cases ho

/-- **C103, the options.** The last of the options that ask for a mode decides, whatever the others say; without one, it is the default quality.  Real-time encoding is asked for
by any of the options. -/
theorem C103_options {Q : Type} (default : Q) (options : List (XcEncOption Q)) :
    xcEncMode default options = some ((options.filterMap XcEncOption.mode).getLast?.getD (.minimumSsim default),
      options.any fun o => match o with | .quality n => n == "rt" | _ => false) := by
  obtain ⟨h1, h2⟩ := settings_spec options { ssim := default }
  unfold xcEncMode
  dsimp only at h1 h2 ⊢
  rw [Bool.false_or] at h1
  rw [← h1]
  cases hl : (options.filterMap XcEncOption.mode).getLast? with
  | none =>
    rw [hl] at h2
    rw [h2.1, h2.2.1]
    rfl
  | some m =>
    rw [hl] at h2
    cases m with
    | minimumSsim x => rw [h2.1, h2.2]; rfl
    | constantQuantizer n => rw [h2.1, h2.2]; rfl
    | targetFrameSize l => rw [h2.1, h2.2]; rfl

/-- **C103, an index that is too large** is not refused: it is taken modulo 256. -/
theorem C103_index_wraps {Q : Type} (default : Q) (before after : List (XcEncOption Q)) (n : Nat) :
    xcEncMode default (before ++ .yAcQi n :: after) = xcEncMode default (before ++ .yAcQi (n + 256) :: after) := by
  have h : (XcEncOption.yAcQi (Q := Q) (n + 256)).mode = (XcEncOption.yAcQi (Q := Q) n).mode := by
    show some (XcEncMode.constantQuantizer ((n + 256) % 256)) = some (.constantQuantizer (n % 256))
    rw [Nat.add_mod_right]
  rw [C103_options, C103_options, List.filterMap_append, List.filterMap_append, List.filterMap_cons, List.filterMap_cons, h, List.any_append, List.any_append, List.any_cons,
    List.any_cons]

/-! ### Example -/

/-- An input that is a list of pictures. -/
def pictureList (l : List Raster) : Except XcEncError (Option Raster × List Raster) := .ok (l.head?, l.tail)

theorem pictureList_gives : ∀ xs, Gives pictureList xs xs
  | [] => .done rfl
  | _ :: xs => .more rfl (pictureList_gives xs)

/-- Three chunks of two, one and three pictures. -/
example : ∃ (file state : List UInt8) (files : List (List UInt8)) (merged : List UInt8) (shown : List Raster) (showns : List (List Raster)),
    xcEncPrimary (fun a b => a + 3 * b) pictureList codeRenderer (⟨0, fun _ _ => 3⟩ : Meter Int) (.constantQuantizer 20) exampleInside true
      ⟨grayRaster 40 30 9, grayRaster 40 30 8, grayRaster 40 30 7⟩ none false 10 40 30 [grayRaster 40 30 1, grayRaster 40 30 100] = (some file, none) ∧
    xcDump codeRenderer (fun a b => a + 3 * b) ⟨grayRaster 40 30 9, grayRaster 40 30 8, grayRaster 40 30 7⟩ none file none = .ok state ∧
    InTurn (fun state i file after =>
      xcEncPrimary (fun a b => a + 3 * b) pictureList codeRenderer (⟨0, fun _ _ => 3⟩ : Meter Int) (.constantQuantizer 20) exampleInside true
        ⟨grayRaster 40 30 9, grayRaster 40 30 8, grayRaster 40 30 7⟩ (some (grayRaster 40 30 5, state)) false 10 40 30 i = (some file, none) ∧
      xcDump codeRenderer (fun a b => a + 3 * b) ⟨grayRaster 40 30 9, grayRaster 40 30 8, grayRaster 40 30 7⟩ (some (grayRaster 40 30 5, state)) file none = .ok after) state
      [[grayRaster 40 30 50], [grayRaster 40 30 60, grayRaster 40 30 200, grayRaster 40 30 61]] files ∧
    files.foldlM xcMerge file = .ok merged ∧ (∀ memory, vp8decode codeRenderer memory merged = (shown ++ showns.flatten, none)) ∧ (shown ++ showns.flatten).length = 6 := by
  obtain ⟨file, state, files, merged, shown, showns, indices, h1, h2, h3, h4, h5, h6, -, h8⟩ := C103_video_in_chunks (⟨0, fun _ _ => 3⟩ : Meter Int) (fun a b => a + 3 * b)
    (width := 40) (height := 30) ⟨by decide, by decide, by decide⟩ (by decide) (mode := .constantQuantizer 20) (show 20 ≤ 127 by decide) exampleInside_ok true
    ⟨grayRaster 40 30 9, grayRaster 40 30 8, grayRaster 40 30 7⟩ (fresh := ⟨grayRaster 40 30 9, grayRaster 40 30 8, grayRaster 40 30 7⟩)
    ⟨grayRaster_ok .., grayRaster_ok .., grayRaster_ok ..⟩ (grayRaster 40 30 5) (rounds := 10) (pictureList_gives [grayRaster 40 30 1, grayRaster 40 30 100])
    (xss := [[grayRaster 40 30 50], [grayRaster 40 30 60, grayRaster 40 30 200, grayRaster 40 30 61]])
    (.cons (pictureList_gives _) (.cons (pictureList_gives _) .nil))
    (by
      intro ys h
      simp only [List.mem_cons, List.not_mem_nil, or_false] at h
      rcases h with rfl | rfl | rfl <;> refine ⟨List.cons_ne_nil _ _, by simp only [List.length_cons, List.length_nil]; omega, fun y h => ?_⟩ <;>
        (simp only [List.mem_cons, List.not_mem_nil, or_false] at h; rcases h with rfl | rfl | rfl <;> exact grayRaster_ok ..))
    (by simp only [List.flatten_cons, List.flatten_nil, List.cons_append, List.nil_append, List.length_cons, List.length_nil]; omega)
  refine ⟨file, state, files, merged, shown, showns, h1, h2, h3, h4, h5, ?_⟩
  rw [List.length_append, h6, List.length_flatten, lengths_same h8]
  rfl

end Alfalfa
