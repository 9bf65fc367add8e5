import Verif.Props.Session

/-! C94: the frames that an encoder gets from the pool, where other encoders left them, do not show in its pictures. -/

namespace Alfalfa

/-! ### What may be in the pool -/

/-- The header of a key frame in the pool: a new one, or one that an encoder has coded a picture with, of any size, with any quantizer index, whatever it decided, and so on. -/
inductive LeftKey : KeyFrameHeader → Prop
  | new : LeftKey emptyKeyHeader
  | used {width height qi : Nat} {d : KeyChoices} {h : KeyFrameHeader} {o s : Raster} {f : Frame KeyFrameHeader} {shown : Raster} :
      Fits width height → d.Ok width height → qi ≤ 127 → o.Ok width height → s.Ok width height → LeftKey h →
      encodeKey d h (uniformIndices qi) o width height s = some (f, shown) → LeftKey f.header

/-- The same for inter frames; `e` is the encoder. -/
inductive LeftInter : InterFrameHeader → Prop
  | new : LeftInter emptyInterHeader
  | used {qi : Nat} {d : InterChoices} {e : Encoder} {h : InterFrameHeader} {o s : Raster} {f : Frame InterFrameHeader} {shown : Raster} :
      Fits e.state.width e.state.height → d.Ok e.state.width e.state.height → qi ≤ 127 → o.Ok e.state.width e.state.height → s.Ok e.state.width e.state.height →
      e.state.segmentation = none → e.references.Ok e.state.width e.state.height → LeftInter h →
      encodeInter d e h (uniformIndices qi) o s = some (f, shown) → LeftInter f.header

/-! ### What is in it -/

theorem encodeKey_keeps {d : KeyChoices} {h : KeyFrameHeader} {i : QuantIndices} {o s : Raster} {width height : Nat} {f : Frame KeyFrameHeader} {shown : Raster}
    (he : encodeKey d h i o width height s = some (f, shown)) : f.header.filterType = h.filterType ∧ f.header.sharpnessLevel = h.sharpnessLevel := by
  unfold encodeKey at he
  obtain ⟨q, -, he⟩ := Option.bind_eq_some_iff.1 he
  obtain ⟨⟨c, u⟩, -, he⟩ := Option.bind_eq_some_iff.1 he
  obtain ⟨p, -, he⟩ := Option.bind_eq_some_iff.1 he
  obtain ⟨r, -, he⟩ := Option.bind_eq_some_iff.1 he
  cases he
  exact ⟨rfl, rfl⟩

theorem encodeInter_keeps {d : InterChoices} {e : Encoder} {h : InterFrameHeader} {i : QuantIndices} {o s : Raster} {f : Frame InterFrameHeader} {shown : Raster}
    (he : encodeInter d e h i o s = some (f, shown)) : f.header.filterType = h.filterType ∧ f.header.sharpnessLevel = h.sharpnessLevel ∧
      f.header.refreshGoldenFrame = h.refreshGoldenFrame ∧ f.header.refreshAlternateFrame = h.refreshAlternateFrame ∧
      f.header.copyBufferToGolden = h.copyBufferToGolden ∧ f.header.copyBufferToAlternate = h.copyBufferToAlternate := by
  unfold encodeInter at he
  obtain ⟨q, -, he⟩ := Option.bind_eq_some_iff.1 he
  obtain ⟨c, -, he⟩ := Option.bind_eq_some_iff.1 he
  obtain ⟨p, -, he⟩ := Option.bind_eq_some_iff.1 he
  obtain ⟨pr, -, he⟩ := Option.bind_eq_some_iff.1 he
  obtain ⟨u, -, he⟩ := Option.bind_eq_some_iff.1 he
  obtain ⟨r, -, he⟩ := Option.bind_eq_some_iff.1 he
  cases he
  exact ⟨rfl, rfl, rfl, rfl, rfl, rfl⟩

theorem LeftKey.filter {h : KeyFrameHeader} (hl : LeftKey h) : h.filterType = false ∧ h.sharpnessLevel = 0 := by
  induction hl with
  | new => exact ⟨rfl, rfl⟩
  | used _ _ _ _ _ _ he ih =>
    obtain ⟨a, b⟩ := encodeKey_keeps he
    rw [a, b]; exact ih

theorem LeftInter.flags {h : InterFrameHeader} (hl : LeftInter h) : h.filterType = false ∧ h.sharpnessLevel = 0 ∧ h.refreshGoldenFrame = false ∧ h.refreshAlternateFrame = false ∧
    h.copyBufferToGolden = some 0 ∧ h.copyBufferToAlternate = some 0 := by
  induction hl with
  | new => exact ⟨rfl, rfl, rfl, rfl, rfl, rfl⟩
  | used _ _ _ _ _ _ _ _ he ih =>
    obtain ⟨a, b, c, d, e, f⟩ := encodeInter_keeps he
    rw [a, b, c, d, e, f]; exact ih

theorem LeftKey.reusable {h : KeyFrameHeader} (hl : LeftKey h) : ReusableKey h := by
  induction hl with
  | new => exact emptyKeyHeader_reusable
  | used hf hd hq ho hs _ he ih =>
    obtain ⟨f, shown, f1, f2, -, -, -, f6, -, f8, -⟩ := C67_key hf.wide hf.high hd ih.range ih.segmentation (uniformIndices_range hq) ho hs
    rw [f1] at he
    cases he
    exact ⟨f2.header, f6, f8.trans ih.partitions⟩

theorem LeftInter.reusable {h : InterFrameHeader} (hl : LeftInter h) : ReusableInter h := by
  induction hl with
  | new => exact emptyInterHeader_reusable
  | used hf hd hq ho hs hseg hr _ he ih =>
    obtain ⟨f, shown, f1, f2, -, -, -, f6, -, f8, -⟩ := C67_inter hf.wide hf.high hseg hr hd ih.range ih.segmentation (uniformIndices_range hq) ho hs
    rw [f1] at he
    cases he
    exact ⟨f2.header, f6, f8.trans ih.partitions⟩

/-! ### The pictures do not depend on it -/

theorem keyPasses_same {d : KeyChoices} {q : Quantizer} {u u' v v' : TokenProbUpdate} {o s : Raster} {width height : Nat} {c c' : Coded}
    (h : keyPasses d q u o width height s = some (c, v)) (h' : keyPasses d q u' o width height s = some (c', v')) : c = c' := by
  unfold keyPasses at h h'
  obtain ⟨one, e1, h⟩ := Option.bind_eq_some_iff.1 h
  obtain ⟨one', e1', h'⟩ := Option.bind_eq_some_iff.1 h'
  rw [e1] at e1'
  cases e1'
  obtain ⟨w, -, h⟩ := Option.bind_eq_some_iff.1 h
  obtain ⟨w', -, h'⟩ := Option.bind_eq_some_iff.1 h'
  cases hd : d.second with
  | none =>
    rw [hd] at h h'
    cases h; cases h'; rfl
  | some e =>
    rw [hd] at h h'
    obtain ⟨two, e2, h⟩ := Option.bind_eq_some_iff.1 h
    obtain ⟨two', e2', h'⟩ := Option.bind_eq_some_iff.1 h'
    rw [e2] at e2'
    cases e2'
    obtain ⟨w, -, h⟩ := Option.bind_eq_some_iff.1 h
    obtain ⟨w', -, h'⟩ := Option.bind_eq_some_iff.1 h'
    cases h; cases h'; rfl

theorem encodeKey_same {d : KeyChoices} {h h' : KeyFrameHeader} {i : QuantIndices} {o s : Raster} {width height : Nat} {f f' : Frame KeyFrameHeader} {shown shown' : Raster}
    (hf : h.filterType = h'.filterType) (hs : h.sharpnessLevel = h'.sharpnessLevel) (he : encodeKey d h i o width height s = some (f, shown))
    (he' : encodeKey d h' i o width height s = some (f', shown')) : shown = shown' := by
  unfold encodeKey at he he'
  obtain ⟨q, hq, he⟩ := Option.bind_eq_some_iff.1 he
  obtain ⟨q', hq', he'⟩ := Option.bind_eq_some_iff.1 he'
  rw [hq] at hq'; cases hq'
  obtain ⟨⟨c, u⟩, k, he⟩ := Option.bind_eq_some_iff.1 he
  obtain ⟨⟨c', u'⟩, k', he'⟩ := Option.bind_eq_some_iff.1 he'
  cases keyPasses_same k k'
  obtain ⟨p, -, he⟩ := Option.bind_eq_some_iff.1 he
  obtain ⟨p', -, he'⟩ := Option.bind_eq_some_iff.1 he'
  obtain ⟨r, hr, he⟩ := Option.bind_eq_some_iff.1 he
  obtain ⟨r', hr', he'⟩ := Option.bind_eq_some_iff.1 he'
  cases he; cases he'
  dsimp only at hr hr'
  rw [hf, hs] at hr
  exact Option.some.inj (hr.symm.trans hr')

theorem encodeInter_same {d : InterChoices} {e e' : Encoder} {h h' : InterFrameHeader} {i : QuantIndices} {o s : Raster} {f f' : Frame InterFrameHeader} {shown shown' : Raster}
    (hf : h.filterType = h'.filterType) (hs : h.sharpnessLevel = h'.sharpnessLevel) (hr : e.references = e'.references) (hw : e.state.width = e'.state.width)
    (hh : e.state.height = e'.state.height) (hg : e.state.segmentation = e'.state.segmentation) (he : encodeInter d e h i o s = some (f, shown))
    (he' : encodeInter d e' h' i o s = some (f', shown')) : shown = shown' := by
  unfold encodeInter at he he'
  obtain ⟨q, hq, he⟩ := Option.bind_eq_some_iff.1 he
  obtain ⟨q', hq', he'⟩ := Option.bind_eq_some_iff.1 he'
  rw [hq] at hq'; cases hq'
  obtain ⟨c, k, he⟩ := Option.bind_eq_some_iff.1 he
  obtain ⟨c', k', he'⟩ := Option.bind_eq_some_iff.1 he'
  rw [hr, hw, hh, k'] at k
  cases k
  obtain ⟨p, -, he⟩ := Option.bind_eq_some_iff.1 he
  obtain ⟨p', -, he'⟩ := Option.bind_eq_some_iff.1 he'
  obtain ⟨pr, -, he⟩ := Option.bind_eq_some_iff.1 he
  obtain ⟨pr', -, he'⟩ := Option.bind_eq_some_iff.1 he'
  obtain ⟨u, -, he⟩ := Option.bind_eq_some_iff.1 he
  obtain ⟨u', -, he'⟩ := Option.bind_eq_some_iff.1 he'
  obtain ⟨r, hr, he⟩ := Option.bind_eq_some_iff.1 he
  obtain ⟨r', hr', he'⟩ := Option.bind_eq_some_iff.1 he'
  cases he; cases he'
  dsimp only at hr hr'
  rw [hf, hs, hg, hw, hh] at hr
  exact Option.some.inj (hr.symm.trans hr')

/-! ### Calls -/

/-- What is used for the encoding whose frame a call gives. -/
def Call.work {Q : Type} : Call Q → Work
  | .quantizer _ _ w => w
  | .minimum _ _ _ last => last
  | .target _ _ _ w => w

/-- The frames of an encoder are such that come from the pool. -/
structure Session.Pooled (s : Session) : Prop where
  key : LeftKey s.keyHeader
  inter : LeftInter s.interHeader

theorem rasterKey_left {width height : Nat} (hf : Fits width height) {s s' : Session} (hs : s.Ready width height) (hp : s.Pooled) {w : Work} (hw : w.Ok width height) {o : Raster}
    (ho : o.Ok width height) {qi : Nat} (hq : qi ≤ 127) {u : Bool} {f : Frame KeyFrameHeader} {shown : Raster}
    (h : s.rasterKey w u o (uniformIndices qi) = some (s', f, shown)) :
    s'.Pooled ∧ s'.realtime = s.realtime ∧ s'.lastQi = s.lastQi ∧ s'.hasState = s.hasState ∧
      encodeKey w.key s.keyHeader (uniformIndices qi) o width height w.scratch = some (f, shown) := by
  unfold Session.rasterKey at h
  rw [hs.wide, hs.high] at h
  obtain ⟨⟨g, r⟩, e, h⟩ := Option.bind_eq_some_iff.1 h
  cases h
  exact ⟨⟨.used hf hw.key hq ho hw.scratch hp.key e, hp.inter⟩, rfl, rfl, rfl, e⟩

theorem finishKey_left {width height : Nat} (hf : Fits width height) {s s' : Session} (hs : s.Ready width height) (hp : s.Pooled) {w : Work} (hw : w.Ok width height) {o : Raster}
    (ho : o.Ok width height) {qi : Nat} (hq : qi ≤ 127) {bytes : List UInt8} {shown : Raster} (h : s.finishKey codeRenderer w o qi = some (s', bytes, shown)) :
    s'.Pooled ∧ s'.realtime = s.realtime ∧ s'.lastQi = (if s.realtime then some qi else s.lastQi) ∧
      ∃ f, encodeKey w.key s.keyHeader (uniformIndices qi) o width height w.scratch = some (f, shown) ∧
        s'.encoder.state.tables = (s.encoder.updateStateKey f.header).tables := by
  unfold Session.finishKey at h
  obtain ⟨⟨s1, f, r⟩, e, h⟩ := Option.bind_eq_some_iff.1 h
  obtain ⟨a, b, c, -, d⟩ := rasterKey_left hf hs hp hw ho hq e
  have hqi : f.header.quantIndices = uniformIndices qi := by
    obtain ⟨g, sh, g1, -, -, -, -, -, g7, -⟩ := C67_key hf.wide hf.high hw.key hp.key.reusable.range hp.key.reusable.segmentation (uniformIndices_range hq) ho hw.scratch
    rw [d] at g1
    cases g1
    exact g7
  have hstate : s1.encoder.state = s.encoder.state := by
    unfold Session.rasterKey at e
    obtain ⟨⟨g, r⟩, -, e⟩ := Option.bind_eq_some_iff.1 e
    cases e
    rfl
  obtain ⟨⟨s2, b2⟩, e2, h⟩ := Option.bind_eq_some_iff.1 h
  cases h
  unfold Session.writeKey at e2
  obtain ⟨⟨en, b3⟩, e3, e2⟩ := Option.bind_eq_some_iff.1 e2
  cases e2
  refine ⟨⟨a.key, a.inter⟩, b, ?_, f, d, ?_⟩
  · show (if s1.realtime then some f.header.quantIndices.yAcQi else s1.lastQi) = _
    rw [hqi, b, c]; rfl
  · unfold Encoder.writeKey at e3
    obtain ⟨b4, -, e3⟩ := Option.bind_eq_some_iff.1 e3
    cases e3
    show (s1.encoder.updateStateKey f.header).tables = _
    unfold Encoder.updateStateKey
    rw [hstate]

theorem rasterInter_left {width height : Nat} (hf : Fits width height) {s s' : Session} (hs : s.Underway width height) (hp : s.Pooled) {w : Work} (hw : w.Ok width height) {o : Raster}
    (ho : o.Ok width height) {qi : Nat} (hq : qi ≤ 127) {u : Bool} {f : Frame InterFrameHeader} {shown : Raster}
    (h : s.rasterInter w u o (uniformIndices qi) = some (s', f, shown)) :
    s'.Pooled ∧ s'.realtime = s.realtime ∧ s'.lastQi = s.lastQi ∧ s'.hasState = s.hasState ∧ s'.encoder.references = s.encoder.references ∧
      encodeInter w.inter s.encoder s.interHeader (uniformIndices qi) o w.scratch = some (f, shown) := by
  have w1 := hs.wide
  have w2 := hs.high
  subst w1 w2
  unfold Session.rasterInter at h
  obtain ⟨⟨g, r⟩, e, h⟩ := Option.bind_eq_some_iff.1 h
  cases h
  exact ⟨⟨hp.key, .used hf hw.inter hq ho hw.scratch hs.segmentation hs.references hp.inter e⟩, rfl, rfl, rfl, rfl, e⟩

theorem finishInter_left {width height : Nat} (hf : Fits width height) {s s' : Session} (hs : s.Underway width height) (hp : s.Pooled) {w : Work} (hw : w.Ok width height) {o : Raster}
    (ho : o.Ok width height) {qi : Nat} (hq : qi ≤ 127) {bytes : List UInt8} {shown : Raster} (h : s.finishInter codeRenderer w o qi = some (s', bytes, shown)) :
    s'.Pooled ∧ s'.realtime = s.realtime ∧ s'.lastQi = (if s.realtime then some qi else s.lastQi) ∧
      s'.encoder.references.golden = s.encoder.references.golden ∧ s'.encoder.references.alternative = s.encoder.references.alternative ∧
      ∃ f, encodeInter w.inter s.encoder s.interHeader (uniformIndices qi) o w.scratch = some (f, shown) := by
  unfold Session.finishInter at h
  obtain ⟨⟨s1, f, r⟩, e, h⟩ := Option.bind_eq_some_iff.1 h
  obtain ⟨a, b, c, -, hr, d⟩ := rasterInter_left hf hs hp hw ho hq e
  have hqi : f.header.quantIndices = uniformIndices qi := by
    have w1 := hs.wide
    have w2 := hs.high
    subst w1 w2
    obtain ⟨g, sh, g1, -, -, -, -, -, g7, -⟩ := C67_inter hf.wide hf.high hs.segmentation hs.references hw.inter hp.inter.reusable.range hp.inter.reusable.segmentation (uniformIndices_range hq) ho hw.scratch
    rw [d] at g1
    cases g1
    exact g7
  obtain ⟨-, -, k3, k4, k5, k6⟩ := encodeInter_keeps d
  obtain ⟨-, -, l3, l4, l5, l6⟩ := hp.inter.flags
  obtain ⟨⟨s2, b2⟩, e2, h⟩ := Option.bind_eq_some_iff.1 h
  cases h
  unfold Session.writeInter at e2
  obtain ⟨⟨en, b3⟩, e3, e2⟩ := Option.bind_eq_some_iff.1 e2
  cases e2
  unfold Encoder.writeInter at e3
  obtain ⟨b4, -, e3⟩ := Option.bind_eq_some_iff.1 e3
  cases e3
  refine ⟨⟨a.key, a.inter⟩, b, ?_, ?_, ?_, f, d⟩
  · show (if s1.realtime then some f.header.quantIndices.yAcQi else s1.lastQi) = _
    rw [hqi, b, c]; rfl
  · show (s1.encoder.references.copyInter f.header _).golden = _
    unfold References.copyInter
    rw [k3, k4, k5, k6, l3, l4, l5, l6, hr]
    dsimp only
    simp only [Bool.false_eq_true, if_false]
    split <;> rfl
  · show (s1.encoder.references.copyInter f.header _).alternative = _
    unfold References.copyInter
    rw [k3, k4, k5, k6, l3, l4, l5, l6, hr]
    dsimp only
    simp only [Bool.false_eq_true, if_false]
    split <;> rfl

/-- The first call. -/
theorem firstCall_left {Q : Type} [LinearOrder Q] (M : Meter Q) {width height : Nat} (hf : Fits width height) {s s' : Session} (hs : s.Ready width height) (hp : s.Pooled)
    (hn : s.hasState = false) {c : Call Q} (hc : c.Ok width height) {bytes : List UInt8} {shown : Raster} (h : s.call codeRenderer M c = .ok (s', bytes, shown)) :
    s'.Pooled ∧ s'.realtime = s.realtime ∧ s'.lastQi = (if s.realtime then some (c.index M.zero s.lastQi) else s.lastQi) ∧
      ∃ h f, LeftKey h ∧ encodeKey c.work.key h (uniformIndices (c.index M.zero s.lastQi)) c.picture width height c.work.scratch = some (f, shown) := by
  have hle := Call.index_le M.zero hs.last hc
  have hs' : Session.Ready width height { s with hasState := true } := ⟨hs.wide, hs.high, hs.key, hs.inter, hs.last⟩
  have hp' : Session.Pooled { s with hasState := true } := ⟨hp.key, hp.inter⟩
  have byIndex (o : Raster) (ho : o.Ok width height) (w : Work) (hw : w.Ok width height) (q : Nat) (hq : q ≤ 127) (h : s.encodeWithQuantizer codeRenderer w o q = .ok (s', bytes, shown)) :
      s'.Pooled ∧ s'.realtime = s.realtime ∧ s'.lastQi = (if s.realtime then some q else s.lastQi) ∧
      ∃ h f, LeftKey h ∧ encodeKey w.key h (uniformIndices q) o width height w.scratch = some (f, shown) := by
    obtain ⟨s1, b1, sh1, k1, -⟩ := finishKey_ok hf hs' hw ho hq
    unfold Session.encodeWithQuantizer at h
    rw [hs.fits ho, hn] at h
    simp only [Bool.not_true, Bool.false_eq_true, if_false] at h
    rw [k1] at h
    cases h
    obtain ⟨l1, l2, l3, f, l4, -⟩ := finishKey_left hf hs' hp' hw ho hq k1
    exact ⟨l1, l2, l3, _, f, hp.key, l4⟩
  cases c with
  | quantizer o qi w => exact byIndex o hc.1 w hc.2.2 qi hc.2.1 h
  | target o size estimate w =>
    refine byIndex o hc.1 w hc.2 _ hle ?_
    change s.encodeWithTarget codeRenderer estimate w o size = _ at h
    unfold Session.encodeWithTarget at h
    rw [hs.fits hc.1, Bool.not_true, if_neg Bool.false_ne_true] at h
    exact h
  | minimum o m work last =>
    obtain ⟨s1, l1, ⟨l2, l3, l4, l5⟩, l6⟩ := searchLoop_ok (trial := Session.trialKey M work o) (z := M.zero)
      (P := fun t => (t.Ready width height ∧ t.Pooled ∧ t.realtime = s.realtime ∧ t.lastQi = s.lastQi) ∧ t.hasState = true)
      (fun t q h hq => by
        obtain ⟨t', t1, t2, t3⟩ := trialKey_ok M hf ⟨h.1.1, h.2⟩ (hc.2.1 q) hc.1 hq
        refine ⟨t', t1, ⟨t2, ?_⟩, t3⟩
        unfold Session.trialKey at t1
        obtain ⟨⟨t1', f, sh⟩, e, t1⟩ := Option.bind_eq_some_iff.1 t1
        cases t1
        obtain ⟨a, b, c, -⟩ := rasterKey_left hf h.1.1 h.1.2.1 (hc.2.1 q) hc.1 hq e
        exact ⟨a, b.trans h.1.2.2.1, c.trans h.1.2.2.2⟩) m 0 127 (by decide) false 0 { s with hasState := true } ⟨⟨hs', hp', rfl, rfl⟩, rfl⟩
    rw [unmeasuredLoop] at l1
    obtain ⟨s2, b2, sh2, k1, -⟩ := finishKey_ok hf l2 hc.2.2 hc.1 hle
    have := minimum_first (hs.fits hc.1) hn l1 k1
    change s.encodeWithMinimum codeRenderer M work last o m = _ at h
    rw [this] at h
    cases h
    obtain ⟨j1, j2, j3, f, j4, -⟩ := finishKey_left hf l2 l3 hc.2.2 hc.1 hle k1
    refine ⟨j1, j2.trans l4, ?_, _, f, l3.key, j4⟩
    rw [j3, l4, l5]

/-- The later calls. -/
theorem laterCall_left {Q : Type} [LinearOrder Q] (M : Meter Q) {width height : Nat} (hf : Fits width height) {s s' : Session} (hs : s.Underway width height) (hp : s.Pooled)
    (hn : s.hasState = true) {c : Call Q} (hc : c.Ok width height) {bytes : List UInt8} {shown : Raster} (h : s.call codeRenderer M c = .ok (s', bytes, shown)) :
    s'.Pooled ∧ s'.realtime = s.realtime ∧ s'.lastQi = (if s.realtime then some (c.index M.zero s.lastQi) else s.lastQi) ∧
      s'.encoder.references.golden = s.encoder.references.golden ∧ s'.encoder.references.alternative = s.encoder.references.alternative ∧
      ∃ h f, LeftInter h ∧ encodeInter c.work.inter s.encoder h (uniformIndices (c.index M.zero s.lastQi)) c.picture c.work.scratch = some (f, shown) := by
  have hle := Call.index_le M.zero hs.last hc
  have byIndex (o : Raster) (ho : o.Ok width height) (w : Work) (hw : w.Ok width height) (q : Nat) (hq : q ≤ 127) (h : s.encodeWithQuantizer codeRenderer w o q = .ok (s', bytes, shown)) :
      s'.Pooled ∧ s'.realtime = s.realtime ∧ s'.lastQi = (if s.realtime then some q else s.lastQi) ∧
      s'.encoder.references.golden = s.encoder.references.golden ∧ s'.encoder.references.alternative = s.encoder.references.alternative ∧
      ∃ h f, LeftInter h ∧ encodeInter w.inter s.encoder h (uniformIndices q) o w.scratch = some (f, shown) := by
    obtain ⟨s1, b1, sh1, k1, -⟩ := finishInter_ok hf hs hw ho hq
    unfold Session.encodeWithQuantizer at h
    rw [hs.fits ho, hn] at h
    simp only [Bool.not_true, Bool.false_eq_true, if_false, if_true] at h
    rw [k1] at h
    cases h
    obtain ⟨l1, l2, l3, l4, l5, f, l6⟩ := finishInter_left hf hs hp hw ho hq k1
    exact ⟨l1, l2, l3, l4, l5, _, f, hp.inter, l6⟩
  cases c with
  | quantizer o qi w => exact byIndex o hc.1 w hc.2.2 qi hc.2.1 h
  | target o size estimate w =>
    refine byIndex o hc.1 w hc.2 _ hle ?_
    change s.encodeWithTarget codeRenderer estimate w o size = _ at h
    unfold Session.encodeWithTarget at h
    rw [hs.fits hc.1, Bool.not_true, if_neg Bool.false_ne_true] at h
    exact h
  | minimum o m work last =>
    obtain ⟨s1, l1, ⟨l2, l3, l4, l5⟩, l6, l7⟩ := searchLoop_ok (trial := Session.trialInter M work o) (z := M.zero)
      (P := fun t => (t.Underway width height ∧ t.Pooled ∧ t.realtime = s.realtime ∧ t.lastQi = s.lastQi) ∧ t.hasState = true ∧ t.encoder = s.encoder)
      (fun t q h hq => by
        obtain ⟨t', t1, t2, t3⟩ := trialInter_ok M hf ⟨h.1.1, h.2⟩ (hc.2.1 q) hc.1 hq
        refine ⟨t', t1, ⟨t2, ?_⟩, t3⟩
        unfold Session.trialInter at t1
        obtain ⟨⟨t1', f, sh⟩, e, t1⟩ := Option.bind_eq_some_iff.1 t1
        cases t1
        obtain ⟨a, b, c, -⟩ := rasterInter_left hf h.1.1 h.1.2.1 (hc.2.1 q) hc.1 hq e
        exact ⟨a, b.trans h.1.2.2.1, c.trans h.1.2.2.2⟩) m 0 127 (by decide) false 0 s ⟨⟨hs, hp, rfl, rfl⟩, hn, rfl⟩
    rw [unmeasuredLoop] at l1
    obtain ⟨s2, b2, sh2, k1, -⟩ := finishInter_ok hf l2 hc.2.2 hc.1 hle
    have := minimum_later (hs.fits hc.1) hn l1 k1
    change s.encodeWithMinimum codeRenderer M work last o m = _ at h
    rw [this] at h
    cases h
    obtain ⟨j1, j2, j3, j4, j5, f, j6⟩ := finishInter_left hf l2 l3 hc.2.2 hc.1 hle k1
    rw [l7] at j4 j5 j6
    refine ⟨j1, j2.trans l4, ?_, j4, j5, _, f, l3.inter, j6⟩
    rw [j3, l4, l5]

/-! ### Two encoders -/

/-- Two encoders that have shown the same and differ in what the pool gave them. -/
structure Alike (width height : Nat) (s t : Session) : Prop where
  underway : s.Underway width height ∧ t.Underway width height
  pooled : s.Pooled ∧ t.Pooled
  state : s.hasState = true ∧ t.hasState = true
  references : s.encoder.references = t.encoder.references
  realtime : s.realtime = t.realtime
  last : s.lastQi = t.lastQi

theorem Alike.calls {Q : Type} [LinearOrder Q] (M : Meter Q) {width height : Nat} (hf : Fits width height) : ∀ {calls : List (Call Q)} {s t s' t' : Session} {xs ys : List (List UInt8 × Raster)},
    Alike width height s t → (∀ c ∈ calls, c.Ok width height) → s.calls codeRenderer M calls = .ok (s', xs) → t.calls codeRenderer M calls = .ok (t', ys) →
    xs.map (·.2) = ys.map (·.2)
  | [], _, _, _, _, _, _, _, _, h1, h2 => by cases h1; cases h2; rfl
  | c :: rest, s, t, s', t', xs, ys, ha, hc, h1, h2 => by
    have hc0 := hc c (List.mem_cons_self ..)
    obtain ⟨s1, b1, p1, a1, a2, a3, -, a5, -⟩ := laterCall M hf ha.underway.1 ha.state.1 hc0
    obtain ⟨t1, b2, p2, e1, e2, e3, -, e5, -⟩ := laterCall M hf ha.underway.2 ha.state.2 hc0
    obtain ⟨i1, i2, i3, i4, i5, hd, f, i6, i7⟩ := laterCall_left M hf ha.underway.1 ha.pooled.1 ha.state.1 hc0 a1
    obtain ⟨j1, j2, j3, j4, j5, hd', f', j6, j7⟩ := laterCall_left M hf ha.underway.2 ha.pooled.2 ha.state.2 hc0 e1
    have hp : p1 = p2 := by
      rw [← ha.last] at j7
      exact encodeInter_same (i6.flags.1.trans j6.flags.1.symm) (i6.flags.2.1.trans j6.flags.2.1.symm) ha.references (ha.underway.1.wide.trans ha.underway.2.wide.symm)
        (ha.underway.1.high.trans ha.underway.2.high.symm) (ha.underway.1.segmentation.trans ha.underway.2.segmentation.symm) i7 j7
    have ha' : Alike width height s1 t1 := ⟨⟨a3, e3⟩, ⟨i1, j1⟩, ⟨a2, e2⟩, by
        have hg := congrArg References.golden ha.references
        have hal := congrArg References.alternative ha.references
        rw [← i4, ← j4] at hg
        rw [← i5, ← j5] at hal
        have hla : s1.encoder.references.last = t1.encoder.references.last := by rw [a5, e5, hp]
        revert hg hal hla
        cases s1.encoder.references
        cases t1.encoder.references
        rintro rfl rfl rfl
        rfl, by rw [i2, j2, ha.realtime], by rw [i3, j3, ha.realtime, ha.last]⟩
    unfold Session.calls at h1 h2
    rw [a1] at h1
    rw [e1] at h2
    change (Session.calls codeRenderer M s1 rest).bind (fun x => .ok (x.1, (b1, p1) :: x.2)) = _ at h1
    change (Session.calls codeRenderer M t1 rest).bind (fun x => .ok (x.1, (b2, p2) :: x.2)) = _ at h2
    cases r1 : Session.calls codeRenderer M s1 rest with
    | error e => rw [r1] at h1; exact nomatch h1
    | ok x =>
      cases r2 : Session.calls codeRenderer M t1 rest with
      | error e => rw [r2] at h2; exact nomatch h2
      | ok y =>
        rw [r1] at h1
        rw [r2] at h2
        cases h1
        cases h2
        have := Alike.calls M hf ha' (fun c h => hc c (List.mem_cons_of_mem _ h)) r1 r2
        simp only [List.map_cons, hp, this]

/-- **C94.**  Two encoders of the same size get different frames and pictures from the pool, whatever other encoders have left in them, and then the same calls, with the same choices inside
them.  Every call of both gives a frame, and decoders, whatever their history, show the same pictures for the frames of the one as for those of the other. -/
theorem C94_same_pictures_partial {Q : Type} [LinearOrder Q] (M : Meter Q) {width height : Nat} (hf : Fits width height) {realtime : Bool} {references references' : References}
    {k k' : KeyFrameHeader} (hk : LeftKey k) (hk' : LeftKey k') {i i' : InterFrameHeader} (hi : LeftInter i) (hi' : LeftInter i') {s t : Session}
    (hs : Session.create width height realtime references k i = some s) (ht : Session.create width height realtime references' k' i' = some t)
    {calls : List (Call Q)} (hc : ∀ c ∈ calls, c.Ok width height) {d d' : Decoder} (hw : d.state.width = width) (hh : d.state.height = height)
    (hw' : d'.state.width = width) (hh' : d'.state.height = height) :
    ∃ s' t' xs ys, s.calls codeRenderer M calls = .ok (s', xs) ∧ t.calls codeRenderer M calls = .ok (t', ys) ∧ xs.length = calls.length ∧ xs.map (·.2) = ys.map (·.2) ∧
      (d.run codeRenderer (xs.map (·.1))).2 = (d'.run codeRenderer (ys.map (·.1))).2 ∧
      (d.run codeRenderer (xs.map (·.1))).2 = xs.map fun x => .ok (true, x.2) := by
  obtain ⟨s', xs, h1, h2, h3, -⟩ := C69_in_step M hf hk.reusable hi.reusable hs hc hw hh
  obtain ⟨t', ys, h1', h2', h3', -⟩ := C69_in_step M hf hk'.reusable hi'.reusable ht hc hw' hh'
  have key : xs.map (·.2) = ys.map (·.2) := by
    have created : ∀ {r : References} {k : KeyFrameHeader} {i : InterFrameHeader} {s : Session}, LeftKey k → LeftInter i → Session.create width height realtime r k i = some s →
        s.Ready width height ∧ s.Pooled ∧ s.hasState = false ∧ s.realtime = realtime ∧ s.lastQi = none := by
      intro r k i s hk hi hs
      unfold Session.create at hs
      split at hs
      · exact nomatch hs
      · cases hs
        exact ⟨⟨rfl, rfl, hk.reusable, hi.reusable, fun _ h => nomatch h⟩, ⟨hk, hi⟩, rfl, rfl, rfl⟩
    obtain ⟨s1, s2, s3, s4, s5⟩ := created hk hi hs
    obtain ⟨t1, t2, t3, t4, t5⟩ := created hk' hi' ht
    cases calls with
    | nil => cases h1; cases h1'; rfl
    | cons c rest =>
      have hc0 := hc c (List.mem_cons_self ..)
      obtain ⟨u, b1, p1, a1, a2, a3, -, a5, -⟩ := firstCall M hf s1 s3 hc0
      obtain ⟨v, b2, p2, e1, e2, e3, -, e5, -⟩ := firstCall M hf t1 t3 hc0
      obtain ⟨i1, i2, i3, h, f, i6, i7⟩ := firstCall_left M hf s1 s2 s3 hc0 a1
      obtain ⟨j1, j2, j3, h', f', j6, j7⟩ := firstCall_left M hf t1 t2 t3 hc0 e1
      have hp : p1 = p2 := by
        rw [s5] at i7
        rw [t5] at j7
        exact encodeKey_same (i6.filter.1.trans j6.filter.1.symm) (i6.filter.2.trans j6.filter.2.symm) i7 j7
      have ha : Alike width height u v := ⟨⟨a3, e3⟩, ⟨i1, j1⟩, ⟨a2, e2⟩, by rw [a5, e5, hp], by rw [i2, j2, s4, t4], by rw [i3, j3, s4, t4, s5, t5]⟩
      unfold Session.calls at h1 h1'
      rw [a1] at h1
      rw [e1] at h1'
      change (Session.calls codeRenderer M u rest).bind (fun x => .ok (x.1, (b1, p1) :: x.2)) = _ at h1
      change (Session.calls codeRenderer M v rest).bind (fun x => .ok (x.1, (b2, p2) :: x.2)) = _ at h1'
      cases r1 : Session.calls codeRenderer M u rest with
      | error e => rw [r1] at h1; exact nomatch h1
      | ok x =>
        cases r2 : Session.calls codeRenderer M v rest with
        | error e => rw [r2] at h1'; exact nomatch h1'
        | ok y =>
          rw [r1] at h1
          rw [r2] at h1'
          cases h1
          cases h1'
          have := ha.calls M hf (fun c h => hc c (List.mem_cons_of_mem _ h)) r1 r2
          simp only [List.map_cons, hp, this]
  refine ⟨s', t', xs, ys, h1, h1', h2, key, ?_, h3⟩
  rw [h3, h3']
  have := congrArg (List.map fun r : Raster => (Except.ok (true, r) : Except FrameError (Bool × Raster))) key
  simpa only [List.map_map, Function.comp_def] using this

/-! ### But the bytes do -/

/-- One pass, and counts that are the same everywhere. -/
def evenChoices (counts : Nat × Nat) : KeyChoices := { exampleKeyChoices with counts := fun _ _ _ _ => counts, second := none }

theorem evenChoices_ok {counts : Nat × Nat} (h : counts.1 + counts.2 < 2 ^ 32) (width height : Nat) : (evenChoices counts).Ok width height :=
  ⟨(exampleKeyChoices_ok width height).trials, fun _ _ _ _ => h, fun _ he => nomatch he⟩

theorem evenChoices_update {counts : Nat × Nat} {h : KeyFrameHeader} {i : QuantIndices} {o s : Raster} {width height : Nat} {f : Frame KeyFrameHeader} {shown : Raster}
    (he : encodeKey (evenChoices counts) h i o width height s = some (f, shown)) :
    optimizeEntry (h.tokenProbUpdate 0 0 0 0) 128 counts = some (f.header.tokenProbUpdate 0 0 0 0) ∧ f.header.refreshEntropyProbs = true := by
  unfold encodeKey at he
  obtain ⟨q, -, he⟩ := Option.bind_eq_some_iff.1 he
  obtain ⟨⟨c, u⟩, k, he⟩ := Option.bind_eq_some_iff.1 he
  obtain ⟨p, -, he⟩ := Option.bind_eq_some_iff.1 he
  obtain ⟨r, -, he⟩ := Option.bind_eq_some_iff.1 he
  cases he
  refine ⟨?_, rfl⟩
  unfold keyPasses at k
  obtain ⟨one, -, k⟩ := Option.bind_eq_some_iff.1 k
  obtain ⟨v, e, k⟩ := Option.bind_eq_some_iff.1 k
  cases k
  have h128 : ({} : ProbabilityTables).coeffProbs 0 0 0 0 = 128 := by decide
  have := optimizeTables_at e 0 0 0 0
  rw [h128] at this
  exact this

theorem keyTable {e : Encoder} {h : KeyFrameHeader} (hr : h.refreshEntropyProbs = true) :
    (e.updateStateKey h).tables.coeffProbs 0 0 0 0 = match h.tokenProbUpdate 0 0 0 0 with | some p => UInt8.ofNat p | none => 128 := by
  unfold Encoder.updateStateKey
  rw [hr]
  rfl

/-- **The code violates the full statement.**  Of two encoders that are given the same picture and make the same choices, one has got a new frame and the other one that an encoder has used
before.  They write different bytes: where the picture gives no reason to change a probability, the update of the earlier picture is sent again. -/
theorem C94_bytes_differ : ∃ (k : KeyFrameHeader) (c : Call Int) (s t s' t' : Session) (b b' : List UInt8) (shown shown' : Raster) (r : References) (M : Meter Int),
    LeftKey k ∧ c.Ok 40 30 ∧ Session.create 40 30 true r = some s ∧ Session.create 40 30 true r k = some t ∧
      s.call codeRenderer M c = .ok (s', b, shown) ∧ t.call codeRenderer M c = .ok (t', b', shown') ∧ b ≠ b' := by
  have hf : Fits 40 30 := ⟨by decide, by decide, by decide⟩
  have ho : (grayRaster 40 30 77).Ok 40 30 := grayRaster_ok ..
  have hsc : (grayRaster 40 30 0).Ok 40 30 := grayRaster_ok ..
  obtain ⟨g, sh, g1, -⟩ := C67_key (width := 40) (height := 30) (by decide) (by decide) (evenChoices_ok (counts := (3, 1)) (by decide) 40 30) emptyKeyHeader_range rfl
    (uniformIndices_range (qi := 30) (by decide)) ho hsc
  have hk : LeftKey g.header := .used hf (evenChoices_ok (by decide) 40 30) (by decide) ho hsc .new g1
  have hu : g.header.tokenProbUpdate 0 0 0 0 = some 192 := by
    have := (evenChoices_update g1).1
    have e : optimizeEntry (emptyKeyHeader.tokenProbUpdate 0 0 0 0) 128 (3, 1) = some (some 192) := by decide
    rw [e] at this
    exact (Option.some.inj this).symm
  let w : Work := ⟨evenChoices (0, 0), exampleInterChoices, grayRaster 40 30 0⟩
  have hw : w.Ok 40 30 := ⟨evenChoices_ok (by decide) 40 30, exampleInterChoices_ok (by decide) (by decide), hsc⟩
  let c : Call Int := .quantizer (grayRaster 40 30 77) 30 w
  have hc : c.Ok 40 30 := ⟨ho, by decide, hw⟩
  let r : References := ⟨grayRaster 40 30 9, grayRaster 40 30 8, grayRaster 40 30 7⟩
  let M : Meter Int := ⟨0, fun _ _ => 3⟩
  let s : Session := { encoder := ⟨{ width := 40, height := 30 }, r⟩, hasState := false, keyHeader := emptyKeyHeader, interHeader := emptyInterHeader, realtime := true, lastQi := none }
  have run : ∀ h : KeyFrameHeader, LeftKey h → ∃ s' b shown, Session.call codeRenderer M { s with keyHeader := h } c = .ok (s', b, shown) ∧
      (⟨{ width := 40, height := 30 }, r⟩ : Decoder).getFrameOutput codeRenderer b = (s'.encoder.exportDecoder, .ok (true, shown)) ∧
      s'.encoder.state.tables.coeffProbs 0 0 0 0 = match h.tokenProbUpdate 0 0 0 0 with | some p => UInt8.ofNat p | none => 128 := by
    intro h hl
    have hs : Session.Ready 40 30 { s with keyHeader := h, hasState := true } := ⟨rfl, rfl, hl.reusable, emptyInterHeader_reusable, fun _ h => nomatch h⟩
    obtain ⟨s', b, shown, k1, -, -, -, -, k6⟩ := finishKey_ok hf hs hw ho (qi := 30) (by decide)
    obtain ⟨-, -, -, f, l4, l5⟩ := finishKey_left hf hs ⟨hl, .new⟩ hw ho (by decide) k1
    refine ⟨s', b, shown, ?_, k6 _ rfl rfl, ?_⟩
    · show Session.encodeWithQuantizer codeRenderer w { s with keyHeader := h } (grayRaster 40 30 77) 30 = _
      unfold Session.encodeWithQuantizer
      have hfit : Session.fits { s with keyHeader := h } (grayRaster 40 30 77) = true := Session.Ready.fits (width := 40) (height := 30) ⟨rfl, rfl, hl.reusable, emptyInterHeader_reusable, fun _ h => by cases h⟩ ho
      rw [hfit]
      simp only [Bool.not_true, Bool.false_eq_true, if_false]
      rw [if_neg (by decide)]
      rw [k1]
    · obtain ⟨e1, e2⟩ := evenChoices_update l4
      rw [l5, keyTable e2]
      have e : optimizeEntry (h.tokenProbUpdate 0 0 0 0) 128 (0, 0) = some (h.tokenProbUpdate 0 0 0 0) := rfl
      change optimizeEntry (h.tokenProbUpdate 0 0 0 0) 128 (0, 0) = _ at e1
      rw [e] at e1
      rw [← Option.some.inj e1]
  obtain ⟨s1, b1, p1, a1, a2, a3⟩ := run _ .new
  obtain ⟨s2, b2, p2, e1, e2, e3⟩ := run _ hk
  refine ⟨g.header, c, s, { s with keyHeader := g.header }, s1, s2, b1, b2, p1, p2, r, M, hk, hc, rfl, rfl, a1, e1, ?_⟩
  rintro rfl
  rw [a2] at e2
  have hd : s1.encoder.exportDecoder = s2.encoder.exportDecoder := (Prod.mk.inj e2).1
  have ht : s1.encoder.state.tables.coeffProbs 0 0 0 0 = s2.encoder.state.tables.coeffProbs 0 0 0 0 := congrArg (fun d : Decoder => d.state.tables.coeffProbs 0 0 0 0) hd
  rw [a3, e3, hu] at ht
  exact absurd ht (by decide)

/-- A case in which the frames differ and the pictures do not. -/
example : ∃ k, LeftKey k ∧ k ≠ emptyKeyHeader := by
  obtain ⟨g, sh, g1, -, -, -, -, -, g7, -⟩ := C67_key (width := 40) (height := 30) (by decide) (by decide) (exampleKeyChoices_ok 40 30) emptyKeyHeader_range rfl
    (uniformIndices_range (qi := 30) (by decide)) (grayRaster_ok 40 30 77) (grayRaster_ok 40 30 0)
  refine ⟨g.header, .used ⟨by decide, by decide, by decide⟩ (exampleKeyChoices_ok 40 30) (by decide) (grayRaster_ok ..) (grayRaster_ok ..) .new g1, fun h => ?_⟩
  rw [h] at g7
  exact absurd (congrArg QuantIndices.yAcQi g7) (by decide)

end Alfalfa
