import Verif.Props.Faithful

/-! Encoders that go on from the state of a decoder: what they make depends on the last picture only. -/

namespace Alfalfa

theorem codeInter_selects {q : Quantizer} {rows : List (List UInt8)} {reference : Raster} {c : MBContext} {mode : Nat} {mv : MotionVector} {mb : Nat} {o s : Raster} {m : MBModes}
    {r : Residue} (h : codeInter q rows reference c mode mv mb o s = some (m, r)) : m.reference = some 1 := by
  unfold codeInter at h
  simp only [Option.bind_eq_bind, Option.bind_eq_some_iff, Option.pure_def, Option.some.injEq, Prod.mk.injEq] at h
  obtain ⟨_, -, _, -, _, -, _, -, _, -, _, -, _, -, rfl, -⟩ := h
  rfl

theorem reconstructInter_last (q : Quantizer) {references references' : References} (h : references'.last = references.last) {m : MBModes} (hm : m.reference = some 1) (r : Residue)
    (column row : Nat) (s : Raster) : reconstructInter q references' m r column row s = reconstructInter q references m r column row s := by
  unfold reconstructInter
  rw [hm]
  have : references'.at? 1 = references.at? 1 := congrArg some h
  dsimp only [Option.bind_eq_bind, Option.bind_some]
  rw [this]

theorem interStep_last (trials : Trials) (q : Quantizer) (choices : Nat → InterChoice) (rows : List (List UInt8)) {references references' : References}
    (h : references'.last = references.last) (o : Raster) (w hh : Nat) (s : Coded) (k : Nat) :
    interStep trials q choices rows references' o w hh s k = interStep trials q choices rows references o w hh s k := by
  have step (choice : InterChoice) :
      (do
        let (mode, mv) ← interVector rows (gridContext w hh s.modes k) choice
        let (m, r) ← codeInter q rows references'.last (gridContext w hh s.modes k) mode mv k o (trials.early k s.raster)
        let raster ← reconstructInter q references' m r (k % w) (k / w) (trials.late k s.raster)
        pure ({ raster, modes := s.modes ++ [m], residues := s.residues ++ [r] } : Coded)) =
      (do
        let (mode, mv) ← interVector rows (gridContext w hh s.modes k) choice
        let (m, r) ← codeInter q rows references.last (gridContext w hh s.modes k) mode mv k o (trials.early k s.raster)
        let raster ← reconstructInter q references m r (k % w) (k / w) (trials.late k s.raster)
        pure ({ raster, modes := s.modes ++ [m], residues := s.residues ++ [r] } : Coded)) := by
    rw [h]
    cases interVector rows (gridContext w hh s.modes k) choice with
    | none => rfl
    | some x =>
      obtain ⟨mode, mv⟩ := x
      show (codeInter q rows references.last (gridContext w hh s.modes k) mode mv k o (trials.early k s.raster)).bind _ =
        (codeInter q rows references.last (gridContext w hh s.modes k) mode mv k o (trials.early k s.raster)).bind _
      cases hc : codeInter q rows references.last (gridContext w hh s.modes k) mode mv k o (trials.early k s.raster) with
      | none => rfl
      | some y =>
        obtain ⟨m, r⟩ := y
        show (reconstructInter q references' m r (k % w) (k / w) (trials.late k s.raster)).bind _ = (reconstructInter q references m r (k % w) (k / w) (trials.late k s.raster)).bind _
        rw [reconstructInter_last q h (codeInter_selects hc)]
  unfold interStep
  cases choices k with
  | intra choice => rfl
  | zero => exact step .zero
  | nearest => exact step .nearest
  | near => exact step .near
  | new cost => exact step (.new cost)

theorem interPass_last (trials : Trials) (q : Quantizer) (choices : Nat → InterChoice) {references references' : References} (h : references'.last = references.last) (o : Raster)
    (width height : Nat) (s : Raster) : interPass trials q choices references' o width height s = interPass trials q choices references o width height s := by
  unfold interPass
  rw [h]
  have (rows : List (List UInt8)) : interStep trials q choices rows references' o (macroblockDimension width) (macroblockDimension height) =
      interStep trials q choices rows references o (macroblockDimension width) (macroblockDimension height) := by
    funext s k
    exact interStep_last trials q choices rows h ..
  simp only [this]

/-- Two encoders that differ only in the golden and the alternate picture and in the adjustments of the loop filter. -/
structure Twin (s t : Session) : Prop where
  hasState : t.hasState = s.hasState
  interHeader : t.interHeader = s.interHeader
  realtime : t.realtime = s.realtime
  lastQi : t.lastQi = s.lastQi
  state : ∃ a, t.encoder.state = { s.encoder.state with filterAdjustments := a }
  last : t.encoder.references.last = s.encoder.references.last

theorem encodeInter_twin {e e' : Encoder} (hs : ∃ a, e'.state = { e.state with filterAdjustments := a }) (hl : e'.references.last = e.references.last) (d : InterChoices)
    (h : InterFrameHeader) (i : QuantIndices) (o s : Raster) : encodeInter d e' h i o s = encodeInter d e h i o s := by
  obtain ⟨a, ha⟩ := hs
  unfold encodeInter
  rw [ha]
  simp only [interPass_last d.trials _ d.modes hl]

/-- An encoder that can go on: as `Session.Underway`, with any adjustments of the loop filter. -/
structure Session.Follows (width height : Nat) (s : Session) : Prop extends s.Ready width height where
  segmentation : s.encoder.state.segmentation = none
  references : s.encoder.references.Ok width height

theorem Session.Underway.follows {width height : Nat} {s : Session} (h : s.Underway width height) : s.Follows width height := ⟨h.toReady, h.segmentation, h.references⟩

/-- What `encode_raster` gives. -/
theorem encodes {width height : Nat} (hf : Fits width height) {s : Session} (hs : s.Follows width height) {w : Work} (hw : w.Ok width height) {o : Raster}
    (ho : o.Ok width height) {qi : Nat} (hq : qi ≤ 127) :
    ∃ f shown, encodeInter w.inter s.encoder s.interHeader (uniformIndices qi) o w.scratch = some (f, shown) ∧ ReusableInter f.header ∧ f.header.quantIndices = uniformIndices qi ∧
      f.show' = true ∧ f.header.modeLfAdjustments = zeroAdjustments ∧ shown.Ok width height ∧ f.header.refreshLast = true ∧ InterEmittable s.encoder f ∧
      codeRenderer.inter none (some {}) s.encoder.references { frame := f, segmentIds := f.modes.map fun _ => 0 } = shown := by
  have w1 := hs.wide
  have w2 := hs.high
  subst w1 w2
  obtain ⟨f, shown, f1, f2, f3, f4, f5, f6, f7, f8, f9, -, f12, f13, f11, f10⟩ := C67_inter hf.wide hf.high hs.segmentation hs.references hw.inter hs.inter.range
    hs.inter.segmentation (uniformIndices_range hq) ho hw.scratch
  refine ⟨f, shown, f1, ⟨f2.header, f6, f8.trans hs.inter.partitions⟩, f7, f5, f9, f11, f12, ?_, ?_⟩
  · exact { ok := f2, width := f3, height := f4, segmentation := f6
            first := fun b hb => C68_fits.2 f _ b f2 f6 f13 (by rw [f3, f4]; exact hf.macroblocks) hb
            tokens := fun bs hb b hm => by
              rw [one_partition (K := interKind) (f8.trans hs.inter.partitions) hb] at hm
              exact nomatch hm }
  · show settled f.width f.height (renderInter _ _ _ _ (blankRaster f.width f.height)) = _
    rw [f3, f4, f10 _ (blank_ok _ _), settled_eq f11]

theorem updateStateInter_any {e e' : Encoder} (hs : ∃ a, e'.state = { e.state with filterAdjustments := a }) {h : InterFrameHeader} (hz : h.modeLfAdjustments = zeroAdjustments) :
    e'.updateStateInter h = e.updateStateInter h := by
  obtain ⟨a, ha⟩ := hs
  unfold Encoder.updateStateInter
  rw [ha, hz]
  rfl

/-- The frame that an encoder which can go on makes in the end. -/
theorem finishes {width height : Nat} (hf : Fits width height) {s : Session} (hs : s.Follows width height) {w : Work} (hw : w.Ok width height) {o : Raster}
    (ho : o.Ok width height) {qi : Nat} (hq : qi ≤ 127) :
    ∃ (f : Frame InterFrameHeader) (shown : Raster) (bytes : List UInt8) (s' : Session),
      encodeInter w.inter s.encoder s.interHeader (uniformIndices qi) o w.scratch = some (f, shown) ∧ f.header.modeLfAdjustments = zeroAdjustments ∧
      interKind.serialize (s.encoder.updateStateInter f.header).tables f = some bytes ∧ s.finishInter codeRenderer w o qi = some (s', bytes, shown) ∧
      s' = { s with interHeader := f.header, encoder := ⟨s.encoder.updateStateInter f.header, s.encoder.references.copyInter f.header shown⟩,
                    lastQi := if s.realtime then some f.header.quantIndices.yAcQi else s.lastQi } ∧
      s'.Underway width height ∧ s'.encoder.references.last = shown ∧
      s.encoder.exportDecoder.getFrameOutput codeRenderer bytes = (s'.encoder.exportDecoder, .ok (true, shown)) := by
  obtain ⟨f, shown, r0, r1, r2, r3, r4, r5, r6, em, r9⟩ := encodes hf hs hw ho hq
  obtain ⟨e', bytes, new, k1, k2, k3, k4, k5, k6⟩ := inter_step codeRenderer s.encoder f em hs.segmentation
  obtain ⟨u1, u2, u3⟩ := updateStateInter_filter s.encoder r4
  have hnew : new = shown := by
    rw [k6, k3, k4, u1]
    exact r9
  subst hnew
  have he : e' = ⟨s.encoder.updateStateInter f.header, s.encoder.references.copyInter f.header new⟩ := by
    rw [← k4, ← k5]
  have hb : interKind.serialize (s.encoder.updateStateInter f.header).tables f = some bytes := by
    unfold Encoder.writeInter at k1
    obtain ⟨b, b1, b2⟩ := Option.bind_eq_some_iff.1 k1
    cases b2
    exact b1
  have hlast : e'.references.last = new := by
    rw [k5]
    unfold References.copyInter
    dsimp only
    rw [if_pos r6]
  refine ⟨f, new, bytes, { s with interHeader := f.header, encoder := e', lastQi := if s.realtime then some f.header.quantIndices.yAcQi else s.lastQi }, r0, r4, hb, ?_,
    by rw [he], ?_, hlast, ?_⟩
  · unfold Session.finishInter Session.writeInter Session.rasterInter
    rw [r0]
    show ((s.encoder.writeInter codeRenderer f).bind _).bind _ = _
    rw [k1]
    rfl
  · refine { wide := ?_, high := ?_, key := hs.key, inter := r1, last := fun q hl => ?_, segmentation := k3, filterAdjustments := ?_, references := ?_ }
    · show e'.state.width = width
      rw [k4, u2]; exact hs.wide
    · show e'.state.height = height
      rw [k4, u3]; exact hs.high
    · change (if s.realtime then some f.header.quantIndices.yAcQi else s.lastQi) = some q at hl
      split at hl
      · rw [r2] at hl; cases hl; exact hq
      · exact hs.last q hl
    · show e'.state.filterAdjustments = _
      rw [k4, u1]
    · show e'.references.Ok width height
      rw [k5]
      exact copyInter_ok hs.references r5
  · rw [r3] at k2
    exact k2

/-- The frames of twins are the same. -/
theorem finishes_twin {width height : Nat} (hf : Fits width height) {s t : Session} (hs : s.Follows width height) (ht : t.Follows width height) (h : Twin s t) {w : Work}
    (hw : w.Ok width height) {o : Raster} (ho : o.Ok width height) {qi : Nat} (hq : qi ≤ 127) {s' : Session} {bytes : List UInt8} {shown : Raster}
    (e : s.finishInter codeRenderer w o qi = some (s', bytes, shown)) :
    ∃ t', t.finishInter codeRenderer w o qi = some (t', bytes, shown) ∧ t'.Underway width height ∧ Twin s' t' ∧ t'.hasState = t.hasState ∧
      t'.encoder = ⟨s'.encoder.state, t.encoder.references.copyInter s'.interHeader shown⟩ ∧
      t.encoder.exportDecoder.getFrameOutput codeRenderer bytes = (t'.encoder.exportDecoder, .ok (true, shown)) := by
  obtain ⟨f, x, b, s1, a1, a2, a3, a4, a5, a6, a7, a8⟩ := finishes hf hs hw ho hq
  rw [e] at a4
  cases a4
  obtain ⟨g, y, c, t1, b1, b2, b3, b4, b5, b6, b7, b8⟩ := finishes hf ht hw ho hq
  rw [encodeInter_twin h.state h.last, h.interHeader, a1] at b1
  cases b1
  rw [updateStateInter_any h.state a2, a3] at b3
  cases b3
  refine ⟨t1, b4, b6, ?_, by rw [b5], by rw [b5, a5]; dsimp only; rw [updateStateInter_any h.state a2], b8⟩
  refine { hasState := by rw [b5, a5]; exact h.hasState, interHeader := by rw [b5, a5], realtime := by rw [b5, a5]; exact h.realtime, lastQi := ?_, state := ⟨some {}, ?_⟩,
           last := b7.trans a7.symm }
  · rw [b5, a5]
    show (if t.realtime then _ else t.lastQi) = _
    rw [h.realtime, h.lastQi]
  · rw [b5, a5]
    show t.encoder.updateStateInter f.header = { s.encoder.updateStateInter f.header with filterAdjustments := some {} }
    rw [updateStateInter_any h.state a2]
    exact DecoderState.ext rfl rfl rfl rfl (updateStateInter_filter s.encoder a2).1

/-! ### The search for a quality -/

/-- The search with two encoders, of which the trials measure the same. -/
theorem searchLoop_both {Q : Type} [LinearOrder Q] {trial : Session → Nat → Option (Session × Q)} {P : Session → Session → Prop} {z : Q}
    (ht : ∀ s t q, P s t → q ≤ 127 → ∃ s' t', trial s q = some (s', z) ∧ trial t q = some (t', z) ∧ P s' t') (minimum : Q) (lo hi : Int) (h127 : hi ≤ 127) (found : Bool)
    (best : Nat) (s t : Session) (hs : P s t) :
    ∃ s' t' i, searchLoop trial minimum lo hi found best s = some (s', i) ∧ searchLoop trial minimum lo hi found best t = some (t', i) ∧
      i = qualityLoop (fun _ => z) minimum lo hi found best ∧ P s' t' := by
  rw [searchLoop, searchLoop, qualityLoop]
  split
  · next h =>
    obtain ⟨s1, t1, k1, k2, k3⟩ := ht s t ((lo + hi) / 2).toNat hs (by omega)
    dsimp only
    rw [k1, k2]
    dsimp only [Option.bind_eq_bind, Option.bind_some, Option.pure_def]
    split
    · exact ⟨s1, t1, _, rfl, rfl, rfl, k3⟩
    · split
      · exact searchLoop_both ht minimum lo _ (by omega) _ _ s1 t1 k3
      · exact searchLoop_both ht minimum _ hi h127 _ _ s1 t1 k3
  · exact ⟨s, t, _, rfl, rfl, rfl, hs⟩
termination_by (hi - lo + 1).toNat
decreasing_by all_goals omega

/-- What the trials keep: `s` and `t` are the encoders before. -/
structure Trying (width height : Nat) (s t a b : Session) : Prop where
  underway : a.Underway width height
  follows : b.Follows width height
  twin : Twin a b
  encoder : a.encoder = s.encoder
  references : b.encoder.references = t.encoder.references
  state : ∃ x, b.encoder.state = { t.encoder.state with filterAdjustments := x }
  hasState : a.hasState = true

theorem trial_both {Q : Type} (M : Meter Q) {width height : Nat} (hf : Fits width height) {s t a b : Session} (h : Trying width height s t a b) {work : Nat → Work} {q : Nat}
    (hw : (work q).Ok width height) {o : Raster} (ho : o.Ok width height) (hq : q ≤ 127) :
    ∃ a' b', a.trialInter M work o q = some (a', M.zero) ∧ b.trialInter M work o q = some (b', M.zero) ∧ Trying width height s t a' b' := by
  obtain ⟨f, shown, r1, -, -, -, -, -, r8, -⟩ := rasterInter_ok hf h.underway hw ho hq
  obtain ⟨g, y, g0, g1, -⟩ := encodes hf h.follows hw ho hq
  have e0 : encodeInter (work q).inter a.encoder a.interHeader (uniformIndices q) o (work q).scratch = some (g, y) := by
    rw [← encodeInter_twin h.twin.state h.twin.last, ← h.twin.interHeader]
    exact g0
  have hfg : f = g := by
    have := r8 false
    unfold Session.rasterInter at this
    rw [e0] at this
    exact ((Prod.mk.inj (Prod.mk.inj (Option.some.inj this)).2).1).symm
  subst hfg
  refine ⟨{ a with interHeader := f.header }, { b with interHeader := f.header, encoder := { b.encoder with state := { b.encoder.state with filterAdjustments := some {} } } }, ?_, ?_, ?_⟩
  · unfold Session.trialInter
    rw [r8 true]
    rfl
  · unfold Session.trialInter Session.rasterInter
    rw [g0]
    rfl
  · obtain ⟨x, hx⟩ := h.state
    obtain ⟨z, hz⟩ := h.twin.state
    refine { underway := { h.underway with inter := r1 }, follows := { h.follows with inter := r1 }, twin := { h.twin with interHeader := rfl, state := ⟨some {}, ?_⟩ }, encoder := h.encoder,
             references := h.references, state := ⟨some {}, ?_⟩, hasState := h.hasState }
    · show { b.encoder.state with filterAdjustments := some {} } = _
      rw [hz]
    · show { b.encoder.state with filterAdjustments := some {} } = _
      rw [hx]

/-! ### Calls -/

theorem twinCall {Q : Type} [LinearOrder Q] (M : Meter Q) {width height : Nat} (hf : Fits width height) {s t : Session} (hs : s.Underway width height) (ht : t.Follows width height)
    (h : Twin s t) (hn : s.hasState = true) {c : Call Q} (hc : c.Ok width height) {s' : Session} {bytes : List UInt8} {shown : Raster}
    (e : s.call codeRenderer M c = .ok (s', bytes, shown)) :
    ∃ t', t.call codeRenderer M c = .ok (t', bytes, shown) ∧ t'.Underway width height ∧ Twin s' t' ∧
      t.encoder.exportDecoder.getFrameOutput codeRenderer bytes = (t'.encoder.exportDecoder, .ok (true, shown)) := by
  have hle := Call.index_le M.zero hs.last hc
  have hnt : t.hasState = true := h.hasState.trans hn
  have byIndex (o : Raster) (ho : o.Ok width height) (w : Work) (hw : w.Ok width height) (q : Nat) (hq : q ≤ 127)
      (e : s.encodeWithQuantizer codeRenderer w o q = .ok (s', bytes, shown)) :
      ∃ t', t.encodeWithQuantizer codeRenderer w o q = .ok (t', bytes, shown) ∧ t'.Underway width height ∧ Twin s' t' ∧
        t.encoder.exportDecoder.getFrameOutput codeRenderer bytes = (t'.encoder.exportDecoder, .ok (true, shown)) := by
    unfold Session.encodeWithQuantizer at e ⊢
    rw [hs.fits ho, hn, Bool.not_true, if_neg Bool.false_ne_true, if_pos rfl] at e
    rw [ht.fits ho, hnt, Bool.not_true, if_neg Bool.false_ne_true, if_pos rfl]
    cases e1 : s.finishInter codeRenderer w o q with
    | none => rw [e1] at e; exact nomatch e
    | some x =>
      rw [e1] at e
      cases e
      obtain ⟨t', k1, k2, k3, -, -, k6⟩ := finishes_twin hf hs.follows ht h hw ho hq e1
      exact ⟨t', by rw [k1], k2, k3, k6⟩
  cases c with
  | quantizer o qi w => exact byIndex o hc.1 w hc.2.2 qi hc.2.1 e
  | target o size estimate w =>
    change s.encodeWithTarget codeRenderer estimate w o size = _ at e
    unfold Session.encodeWithTarget at e
    rw [hs.fits hc.1, Bool.not_true, if_neg Bool.false_ne_true] at e
    obtain ⟨t', k⟩ := byIndex o hc.1 w hc.2 _ hle e
    refine ⟨t', ?_, k.2⟩
    show t.encodeWithTarget codeRenderer estimate w o size = _
    unfold Session.encodeWithTarget
    rw [ht.fits hc.1, Bool.not_true, if_neg Bool.false_ne_true, h.lastQi]
    exact k.1
  | minimum o m work last =>
    obtain ⟨x, hx⟩ := h.state
    obtain ⟨s1, t1, i, l1, l2, l3, l4⟩ := searchLoop_both (trial := Session.trialInter M work o) (z := M.zero) (P := Trying width height s t)
      (fun a b q h hq => trial_both M hf h (hc.2.1 q) hc.1 hq) m 0 127 (by decide) false 0 s t
      ⟨hs, ht, h, rfl, rfl, ⟨t.encoder.state.filterAdjustments, rfl⟩, hn⟩
    rw [unmeasuredLoop] at l3
    have hi : i ≤ 127 := by rw [l3]; exact hle
    obtain ⟨f, y, b, s2, -, -, -, e1, -⟩ := finishes hf l4.underway.follows hc.2.2 hc.1 hi
    have e2 := minimum_later (R := codeRenderer) (hs.fits hc.1) hn l1 e1
    change s.encodeWithMinimum codeRenderer M work last o m = _ at e
    rw [e] at e2
    cases e2
    obtain ⟨t2, k1, k2, k3, -, k5, -⟩ := finishes_twin hf l4.underway.follows l4.follows l4.twin hc.2.2 hc.1 hi e1
    obtain ⟨z, hz⟩ := l4.twin.state
    have hu : Session.Follows width height { t1 with encoder := t.encoder } :=
      ⟨⟨ht.wide, ht.high, l4.follows.key, l4.follows.inter, l4.follows.last⟩, ht.segmentation, ht.references⟩
    have hu2 : Twin s1 { t1 with encoder := t.encoder } := { l4.twin with state := ⟨x, by rw [l4.encoder]; exact hx⟩, last := by rw [l4.encoder]; exact h.last }
    obtain ⟨u2, u3, -, -, -, u4, u5⟩ := finishes_twin hf l4.underway.follows hu hu2 hc.2.2 hc.1 hi e1
    refine ⟨t2, minimum_later (ht.fits hc.1) hnt l2 k1, k2, k3, ?_⟩
    change t.encoder.exportDecoder.getFrameOutput codeRenderer bytes = _ at u5
    rw [u5, u4, k5, l4.references]

theorem twinCalls {Q : Type} [LinearOrder Q] (M : Meter Q) {width height : Nat} (hf : Fits width height) : ∀ {calls : List (Call Q)} {s t s' : Session}
    {frames : List (List UInt8 × Raster)}, s.Underway width height → t.Follows width height → Twin s t → s.hasState = true → (∀ c ∈ calls, c.Ok width height) →
    s.calls codeRenderer M calls = .ok (s', frames) →
    ∃ t', t.calls codeRenderer M calls = .ok (t', frames) ∧ t'.Follows width height ∧ Twin s' t' ∧
      t.encoder.exportDecoder.run codeRenderer (frames.map (·.1)) = (t'.encoder.exportDecoder, frames.map fun x => .ok (true, x.2))
  | [], s, t, s', frames, hs, ht, h, hn, _, e => by
    cases e
    exact ⟨t, rfl, ht, h, rfl⟩
  | c :: rest, s, t, s', frames, hs, ht, h, hn, hc, e => by
    obtain ⟨s1, bytes, shown, k1, k2, k3, -⟩ := laterCall M hf hs hn (hc c (List.mem_cons_self ..))
    unfold Session.calls at e
    rw [k1] at e
    change (Session.calls codeRenderer M s1 rest).bind _ = _ at e
    cases hr : Session.calls codeRenderer M s1 rest with
    | error e' => rw [hr] at e; exact nomatch e
    | ok x =>
      rw [hr] at e
      cases e
      obtain ⟨t1, j1, j2, j3, j4⟩ := twinCall M hf hs ht h hn (hc c (List.mem_cons_self ..)) k1
      obtain ⟨t', l1, l2, l3, l4⟩ := twinCalls M hf k3 j2.follows j3 k2 (fun c h => hc c (List.mem_cons_of_mem _ h)) hr
      refine ⟨t', ?_, l2, l3, ?_⟩
      · unfold Session.calls
        rw [j1]
        show (Session.calls codeRenderer M t1 rest).bind _ = _
        rw [l1]
        rfl
      · rw [List.map_cons, List.map_cons, Decoder.run, j4]
        dsimp only
        rw [l4]

end Alfalfa
