import Verif.Model.StateHash
import Verif.Proof.SaveState
import Verif.Props.Frame
import Mathlib.Data.Nat.Pairing

namespace Alfalfa

/-! ### Unfolding -/

theorem output_key {R : Renderer} {d : Decoder} {bytes : List UInt8} {c : FrameParts} {st : DecoderState} {f : ParsedFrame KeyFrameHeader}
    (h : splitFrame bytes d.state.width d.state.height false = .ok c) (hk : c.keyFrame = true) (ha : d.state.applyKey c = (st, .ok f)) :
    d.getFrameOutput R bytes = (⟨st, ⟨R.key st.segmentation st.filterAdjustments f, R.key st.segmentation st.filterAdjustments f,
      R.key st.segmentation st.filterAdjustments f⟩⟩, .ok (f.frame.show', R.key st.segmentation st.filterAdjustments f)) := by
  unfold Decoder.getFrameOutput
  rw [h]
  simp only
  rw [if_pos hk, ha]
  rfl

theorem output_inter {R : Renderer} {d : Decoder} {bytes : List UInt8} {c : FrameParts} {st : DecoderState} {f : ParsedFrame InterFrameHeader}
    (h : splitFrame bytes d.state.width d.state.height false = .ok c) (hk : c.keyFrame = false) (hx : c.experimental = false)
    (ha : d.state.applyInter c = (st, .ok f)) :
    d.getFrameOutput R bytes = (⟨st, d.references.copyInter f.frame.header (R.inter st.segmentation st.filterAdjustments d.references f)⟩,
      .ok (f.frame.show', R.inter st.segmentation st.filterAdjustments d.references f)) := by
  unfold Decoder.getFrameOutput
  rw [h]
  simp only
  rw [if_neg (by rw [hk]; decide), if_pos (by rw [hx]; decide), ha]
  rfl

/-- What `get_frame_output` can do. -/
theorem output_cases (R : Renderer) (d : Decoder) (bytes : List UInt8) :
    (∃ e, splitFrame bytes d.state.width d.state.height false = .error e ∧ d.getFrameOutput R bytes = (d, .error e)) ∨
    ∃ c, splitFrame bytes d.state.width d.state.height false = .ok c ∧
      ((c.keyFrame = true ∧ ∃ st e, d.state.applyKey c = (st, .error e) ∧ d.getFrameOutput R bytes = ({ d with state := st }, .error e)) ∨
       (c.keyFrame = true ∧ ∃ st f, d.state.applyKey c = (st, .ok f) ∧ (d.getFrameOutput R bytes).2 = .ok
          (f.frame.show', R.key st.segmentation st.filterAdjustments f)) ∨
       (c.keyFrame = false ∧ c.experimental = false ∧ ∃ st e, d.state.applyInter c = (st, .error e) ∧
          d.getFrameOutput R bytes = ({ d with state := st }, .error e)) ∨
       (c.keyFrame = false ∧ c.experimental = false ∧ ∃ st f, d.state.applyInter c = (st, .ok f) ∧
          (d.getFrameOutput R bytes).2 = .ok (f.frame.show', R.inter st.segmentation st.filterAdjustments d.references f)) ∨
       (c.keyFrame = false ∧ c.experimental = true ∧ d.getFrameOutput R bytes = (d, .error .unsupported))) := by
  cases hs : splitFrame bytes d.state.width d.state.height false with
  | error e => exact Or.inl ⟨e, rfl, by unfold Decoder.getFrameOutput; rw [hs]⟩
  | ok c =>
    refine Or.inr ⟨c, rfl, ?_⟩
    by_cases hk : c.keyFrame = true
    · rcases ha : d.state.applyKey c with ⟨st, e | f⟩
      · exact Or.inl ⟨hk, st, e, rfl, by unfold Decoder.getFrameOutput; rw [hs]; simp only; rw [if_pos hk, ha]⟩
      · exact Or.inr (Or.inl ⟨hk, st, f, rfl, by rw [output_key hs hk ha]⟩)
    · have hk' : c.keyFrame = false := by simpa using hk
      by_cases hx : c.experimental = true
      · exact Or.inr (Or.inr (Or.inr (Or.inr ⟨hk', hx, by
          unfold Decoder.getFrameOutput; rw [hs]; simp only; rw [if_neg hk, if_neg (by rw [hx]; decide)]⟩)))
      · have hx' : c.experimental = false := by simpa using hx
        rcases ha : d.state.applyInter c with ⟨st, e | f⟩
        · exact Or.inr (Or.inr (Or.inl ⟨hk', hx', st, e, rfl, by
            unfold Decoder.getFrameOutput; rw [hs]; simp only; rw [if_neg hk, if_pos (by rw [hx']; decide), ha]⟩))
        · exact Or.inr (Or.inr (Or.inr (Or.inl ⟨hk', hx', st, f, rfl, by rw [output_inter hs hk' hx' ha]⟩)))

/-- What a successful `parseBody` has read. -/
theorem parseBody_reads {H : Type} {K : FrameKind H} {st st' : DecoderState} {t : ProbabilityTables} {c : FrameParts} {h : H} {d : BoolDecoder}
    {p : ParsedFrame H} (hp : parseBody K st t c h d = (st', .ok p)) (hh : K.parseHeader (BoolDecoder.init c.firstPartition false) = some (h, d)) :
    p.frame.header = h ∧ ReadWith K t c p.frame ∧ st'.tables = st.tables ∧ st'.filterAdjustments = st.filterAdjustments := by
  unfold parseBody at hp
  cases e1 : K.parseModes h t st.width st.height d with
  | none => rw [e1] at hp; simp at hp
  | some x =>
    obtain ⟨modes, d'⟩ := x
    rw [e1] at hp
    simp only at hp
    cases e2 : applySegmentation st.width modes st.segmentation with
    | none => rw [e2] at hp; simp at hp
    | some x =>
      obtain ⟨seg, ids⟩ := x
      rw [e2] at hp
      simp only at hp
      cases e3 : dctPartitions c.rest (K.partitionCount h) with
      | error e => rw [e3] at hp; simp at hp
      | ok parts =>
        rw [e3] at hp
        simp only at hp
        cases e4 : parseFrameTokens t st.width modes parts with
        | none => rw [e4] at hp; simp at hp
        | some residues =>
          rw [e4] at hp
          simp only [Prod.mk.injEq, Except.ok.injEq] at hp
          obtain ⟨rfl, rfl⟩ := hp
          exact ⟨rfl, ⟨d, d', parts, hh, e1, by rw [← Nat.one_shiftLeft]; exact e3, e4⟩, rfl, rfl⟩

theorem applyInter_ok {st st' : DecoderState} {c : FrameParts} {p : ParsedFrame InterFrameHeader} (h : st.applyInter c = (st', .ok p)) :
    ∃ d, interKind.parseHeader (BoolDecoder.init c.firstPartition false) = some (p.frame.header, d) ∧
      parseBody interKind (st.applyInterHeader p.frame.header) (interKind.tables st.tables p.frame.header) c p.frame.header d = (st', .ok p) := by
  unfold DecoderState.applyInter at h
  cases hp : parseInterFrameHeader (BoolDecoder.init c.firstPartition false) with
  | none => rw [hp] at h; simp at h
  | some x =>
    obtain ⟨hd, d⟩ := x
    rw [hp] at h
    simp only at h
    have e := (parseBody_reads h hp).1
    subst e
    exact ⟨d, hp, h⟩

/-- The state of a decoder when the header of a key frame has been applied. -/
def keyStart (h : KeyFrameHeader) (width height : Nat) : DecoderState :=
  if h.refreshEntropyProbs then { DecoderState.ofKeyHeader h width height with tables := keyKind.tables {} h }
  else DecoderState.ofKeyHeader h width height

theorem applyKey_ok {st st' : DecoderState} {c : FrameParts} {p : ParsedFrame KeyFrameHeader} (h : st.applyKey c = (st', .ok p)) :
    ∃ d, keyKind.parseHeader (BoolDecoder.init c.firstPartition false) = some (p.frame.header, d) ∧
      parseBody keyKind (keyStart p.frame.header st.width st.height) (keyKind.tables {} p.frame.header) c p.frame.header d = (st', .ok p) := by
  unfold DecoderState.applyKey at h
  by_cases hx : c.experimental = true
  · rw [if_pos hx] at h; simp at h
  rw [if_neg hx] at h
  cases hp : parseKeyFrameHeader (BoolDecoder.init c.firstPartition false) with
  | none => rw [hp] at h; simp at h
  | some x =>
    obtain ⟨hd, d⟩ := x
    rw [hp] at h
    simp only at h
    have e := (parseBody_reads h hp).1
    subst e
    exact ⟨d, hp, h⟩

theorem keyTables_spec (h : KeyFrameHeader) : KeyTables h (keyKind.tables {} h) := by
  refine ⟨fun i j k l => ⟨fun p hp => ?_, fun hp => ?_⟩, rfl, rfl, rfl⟩ <;>
  · show (match h.tokenProbUpdate i j k l with | some p => UInt8.ofNat p | none => _) = _
    rw [hp]

theorem interTables_spec {h : InterFrameHeader} (hr : h.InRange) (t : ProbabilityTables) : InterTables h t (interKind.tables t h) := by
  refine ⟨fun i j k l => ⟨fun p hp => ?_, fun hp => ?_⟩, fun v hv i => ?_, fun hv => ?_, fun v hv i => ?_, fun hv => ?_, fun i j => ⟨fun p hp => ?_, fun hp => ?_⟩⟩
  · show (match h.tokenProbUpdate i j k l with | some p => UInt8.ofNat p | none => _) = _
    rw [hp]
  · show (match h.tokenProbUpdate i j k l with | some p => UInt8.ofNat p | none => _) = _
    rw [hp]
  · show (match h.intra16x16Prob with | some v => fun i => UInt8.ofNat (v i) | none => t.yModeProbs) i = _
    rw [hv]
  · show (match h.intra16x16Prob with | some v => fun i => UInt8.ofNat (v i) | none => t.yModeProbs) = _
    rw [hv]
  · show (match h.intraChromaProb with | some v => fun i => UInt8.ofNat (v i) | none => t.uvModeProbs) i = _
    rw [hv]
  · show (match h.intraChromaProb with | some v => fun i => UInt8.ofNat (v i) | none => t.uvModeProbs) = _
    rw [hv]
  · show (match h.mvProbUpdate i j with | some p => readHalfProb p | none => t.mvProbs i j).toNat = _
    rw [hp]
    simp only [readHalfProb]
    have := hr.mvProbUpdate i j p hp
    by_cases h0 : p = 0
    · subst h0; rfl
    · rw [if_pos h0, if_neg h0, Nat.shiftLeft_eq]
      simp
      omega
  · show (match h.mvProbUpdate i j with | some p => readHalfProb p | none => t.mvProbs i j) = _
    rw [hp]

/-! ### C13 -/

/-- **C13**, key frames.  When a key frame is decoded, its macroblocks are read with the default tables as changed by its
header, and those tables are kept exactly if the header says so; if not, the decoder is left with the defaults. -/
theorem C13_key_frame_tables (st st' : DecoderState) (c : FrameParts) (p : ParsedFrame KeyFrameHeader) (h : st.applyKey c = (st', .ok p)) :
    ∃ t, KeyTables p.frame.header t ∧ ReadWith keyKind t c p.frame ∧
      (p.frame.header.refreshEntropyProbs = true → st'.tables = t) ∧ (p.frame.header.refreshEntropyProbs = false → st'.tables = {}) := by
  obtain ⟨d, h1, h2⟩ := applyKey_ok h
  obtain ⟨-, h4, h5, -⟩ := parseBody_reads h2 h1
  refine ⟨_, keyTables_spec _, h4, fun hr => ?_, fun hr => ?_⟩
  · rw [h5, keyStart, if_pos hr]
  · rw [h5, keyStart, if_neg (by rw [hr]; decide)]; rfl

/-- **C13**, inter frames.  When an inter frame is decoded, its macroblocks are read with the decoder's tables as changed by its
header; those tables are kept if the header says so, and otherwise the decoder has the tables it had before. -/
theorem C13_inter_frame_tables (st st' : DecoderState) (c : FrameParts) (p : ParsedFrame InterFrameHeader) (h : st.applyInter c = (st', .ok p)) :
    ∃ t, InterTables p.frame.header st.tables t ∧ ReadWith interKind t c p.frame ∧
      (p.frame.header.refreshEntropyProbs = true → st'.tables = t) ∧ (p.frame.header.refreshEntropyProbs = false → st'.tables = st.tables) := by
  obtain ⟨d, h1, h2⟩ := applyInter_ok h
  obtain ⟨-, h4, h5, -⟩ := parseBody_reads h2 h1
  have hr : p.frame.header.InRange := yields_interHeader _ _ _ h1
  refine ⟨_, interTables_spec hr _, h4, fun hr => ?_, fun hr => ?_⟩
  · rw [h5]; show (if _ then _ else _) = _; rw [if_pos hr]
  · rw [h5]; show (if _ then _ else _) = _; rw [if_neg (by rw [hr]; decide)]

/-! ### C14 -/

theorem applyKey_dims (a b : DecoderState) (hw : a.width = b.width) (hh : a.height = b.height) (c : FrameParts) :
    (a.applyKey c).2 = (b.applyKey c).2 ∧ (∀ p, (a.applyKey c).2 = .ok p → a.applyKey c = b.applyKey c) := by
  unfold DecoderState.applyKey
  by_cases hx : c.experimental = true
  · rw [if_pos hx, if_pos hx]; exact ⟨rfl, fun p h => nomatch h⟩
  rw [if_neg hx, if_neg hx]
  cases parseKeyFrameHeader (BoolDecoder.init c.firstPartition false) with
  | none => exact ⟨rfl, fun p h => nomatch h⟩
  | some x => simp only; rw [hw, hh]; exact ⟨rfl, fun _ _ => rfl⟩

/-- **C14**.  Give the same key frame to two decoders of the same size, whatever their histories: both accept it or both refuse it
in the same way, and if they accept it they are equal afterwards, with the new picture as all three references, and
they give the same results on whatever follows. -/
theorem C14_key_frame_resets (R : Renderer) (d₁ d₂ : Decoder) (hw : d₁.state.width = d₂.state.width) (hh : d₁.state.height = d₂.state.height)
    (bytes : List UInt8) (b : UInt8) (hb : bytes.head? = some b) (hkey : b.toNat % 2 = 0) :
    (d₁.getFrameOutput R bytes).2 = (d₂.getFrameOutput R bytes).2 ∧
    ∀ shown picture, (d₁.getFrameOutput R bytes).2 = .ok (shown, picture) →
      (d₁.getFrameOutput R bytes).1 = (d₂.getFrameOutput R bytes).1 ∧
      (d₁.getFrameOutput R bytes).1.references = ⟨picture, picture, picture⟩ ∧
      ∀ rest, d₁.run R (bytes :: rest) = d₂.run R (bytes :: rest) := by
  have hrun : d₁.getFrameOutput R bytes = d₂.getFrameOutput R bytes → ∀ rest, d₁.run R (bytes :: rest) = d₂.run R (bytes :: rest) := by
    intro e rest
    unfold Decoder.run
    rw [e]
  cases hs : splitFrame bytes d₁.state.width d₁.state.height false with
  | error e =>
    have e1 : (d₁.getFrameOutput R bytes).2 = .error e := by unfold Decoder.getFrameOutput; rw [hs]
    have e2 : (d₂.getFrameOutput R bytes).2 = .error e := by unfold Decoder.getFrameOutput; rw [← hw, ← hh, hs]
    rw [e1, e2]
    exact ⟨rfl, fun _ _ h => nomatch h⟩
  | ok c =>
    have hs2 : splitFrame bytes d₂.state.width d₂.state.height false = .ok c := by rw [← hw, ← hh]; exact hs
    have hk : c.keyFrame = true := by
      obtain ⟨b', tl, rfl, h1, -⟩ := C11_accepted_frame_start _ _ _ _ hs
      rw [List.head?_cons, Option.some.injEq] at hb
      rw [h1, hb]; exact hkey
    obtain ⟨k1, k2⟩ := applyKey_dims d₁.state d₂.state hw hh c
    rcases ha : d₁.state.applyKey c with ⟨st, e | f⟩
    · rcases ha2 : d₂.state.applyKey c with ⟨st2, e2 | f2⟩
      · have e1 : (d₁.getFrameOutput R bytes).2 = .error e := by
          unfold Decoder.getFrameOutput; rw [hs]; simp only; rw [if_pos hk, ha]
        have e1' : (d₂.getFrameOutput R bytes).2 = .error e2 := by
          unfold Decoder.getFrameOutput; rw [hs2]; simp only; rw [if_pos hk, ha2]
        rw [ha, ha2] at k1
        injection k1 with k1
        rw [e1, e1', k1]
        exact ⟨rfl, fun _ _ h => nomatch h⟩
      · rw [ha, ha2] at k1; exact nomatch k1
    · have ha2 := (k2 f (by rw [ha])).symm.trans ha
      have o1 := output_key (R := R) hs hk ha
      have o2 := output_key (R := R) hs2 hk ha2
      refine ⟨by rw [o1, o2], fun shown picture h => ⟨by rw [o1, o2], ?_, hrun (by rw [o1, o2])⟩⟩
      rw [o1] at h ⊢
      simp only [Except.ok.injEq, Prod.mk.injEq] at h
      rw [← h.2]

/-! ### C15 -/

/-- **C15**, key frames: all three references become the new picture. -/
theorem C15_key_frame_references (R : Renderer) (d : Decoder) (bytes : List UInt8) (c : FrameParts)
    (hs : splitFrame bytes d.state.width d.state.height false = .ok c) (hk : c.keyFrame = true) (shown : Bool) (new : Raster)
    (ho : (d.getFrameOutput R bytes).2 = .ok (shown, new)) : (d.getFrameOutput R bytes).1.references = ⟨new, new, new⟩ := by
  rcases ha : d.state.applyKey c with ⟨st, e | f⟩
  · unfold Decoder.getFrameOutput at ho; rw [hs] at ho; simp only at ho; rw [if_pos hk, ha] at ho; exact nomatch ho
  · rw [output_key hs hk ha] at ho ⊢
    simp only [Except.ok.injEq, Prod.mk.injEq] at ho
    rw [ho.2]

theorem copyInter_spec (h : InterFrameHeader) (old : References) (new : Raster) :
    (old.copyInter h new).last = (if h.refreshLast then new else old.last) ∧ AlternatePrescribed h old new (old.copyInter h new).alternative ∧
    (h.copyBufferToGolden ≠ some 2 ∨ (h.copyBufferToAlternate ≠ some 1 ∧ h.copyBufferToAlternate ≠ some 2) ∨ h.refreshGoldenFrame = true →
      GoldenPrescribed h old new (old.copyInter h new).golden) ∧
    (h.copyBufferToGolden = some 2 → h.refreshGoldenFrame = false →
      (h.copyBufferToAlternate = some 1 → (old.copyInter h new).golden = old.last) ∧
      (h.copyBufferToAlternate = some 2 → (old.copyInter h new).golden = old.golden)) := by
  unfold References.copyInter AlternatePrescribed GoldenPrescribed
  generalize h.copyBufferToAlternate = ca
  generalize h.copyBufferToGolden = cg
  generalize h.refreshLast = rl
  generalize h.refreshGoldenFrame = rg
  generalize h.refreshAlternateFrame = ra
  match ca, cg with
  | none, none | none, some 0 | none, some 1 | none, some 2 | none, some (n + 3)
  | some 0, none | some 0, some 0 | some 0, some 1 | some 0, some 2 | some 0, some (n + 3)
  | some 1, none | some 1, some 0 | some 1, some 1 | some 1, some 2 | some 1, some (n + 3)
  | some 2, none | some 2, some 0 | some 2, some 1 | some 2, some 2 | some 2, some (n + 3)
  | some (m + 3), none | some (m + 3), some 0 | some (m + 3), some 1 | some (m + 3), some 2 | some (m + 3), some (n + 3) =>
    cases rl <;> cases rg <;> cases ra <;> simp

/-- **C15**, inter frames.  After an inter frame is decoded, the last picture is the new one if its flag is set and otherwise what it
was; the alternate and the golden picture are what the header prescribes.  One case is decided by the order in which the code
copies: when both are to be copied, and golden from alternate, the alternate picture is copied first, so golden
becomes a copy of the new alternate: the old last picture, or its own old content. -/
theorem C15_inter_frame_references (R : Renderer) (d : Decoder) (bytes : List UInt8) (c : FrameParts)
    (hs : splitFrame bytes d.state.width d.state.height false = .ok c) (hk : c.keyFrame = false) (st : DecoderState)
    (f : ParsedFrame InterFrameHeader) (hf : d.state.applyInter c = (st, .ok f)) (shown : Bool) (new : Raster)
    (ho : (d.getFrameOutput R bytes).2 = .ok (shown, new)) :
    (f.frame.header.refreshLast = true → (d.getFrameOutput R bytes).1.references.last = new) ∧
    (f.frame.header.refreshLast = false → (d.getFrameOutput R bytes).1.references.last = d.references.last) ∧
    AlternatePrescribed f.frame.header d.references new (d.getFrameOutput R bytes).1.references.alternative ∧
    (f.frame.header.copyBufferToGolden ≠ some 2 ∨
      (f.frame.header.copyBufferToAlternate ≠ some 1 ∧ f.frame.header.copyBufferToAlternate ≠ some 2) ∨ f.frame.header.refreshGoldenFrame = true →
      GoldenPrescribed f.frame.header d.references new (d.getFrameOutput R bytes).1.references.golden) ∧
    (f.frame.header.copyBufferToGolden = some 2 → f.frame.header.refreshGoldenFrame = false →
      (f.frame.header.copyBufferToAlternate = some 1 → (d.getFrameOutput R bytes).1.references.golden = d.references.last) ∧
      (f.frame.header.copyBufferToAlternate = some 2 → (d.getFrameOutput R bytes).1.references.golden = d.references.golden)) := by
  have hx : c.experimental = false := by
    by_contra hx
    have hx : c.experimental = true := by simpa using hx
    unfold Decoder.getFrameOutput at ho
    rw [hs] at ho
    simp only at ho
    rw [if_neg (by rw [hk]; decide), if_neg (by rw [hx]; decide)] at ho
    exact nomatch ho
  rw [output_inter hs hk hx hf] at ho ⊢
  simp only [Except.ok.injEq, Prod.mk.injEq] at ho
  rw [ho.2]
  obtain ⟨h1, h2, h3, h4⟩ := copyInter_spec f.frame.header d.references new
  refine ⟨fun h => ?_, fun h => ?_, h2, h3, h4⟩
  · show (d.references.copyInter _ _).last = _; rw [h1, if_pos h]
  · show (d.references.copyInter _ _).last = _; rw [h1, if_neg (by rw [h]; decide)]

/-- **C15**: a header that asks for the golden and the alternate picture to be exchanged does not exchange them. -/
theorem C15_exchange_is_not_simultaneous (h : InterFrameHeader) (hg : h.copyBufferToGolden = some 2) (ha : h.copyBufferToAlternate = some 2)
    (rg : h.refreshGoldenFrame = false) (ra : h.refreshAlternateFrame = false) (old : References) (new : Raster)
    (hne : old.golden ≠ old.alternative) : ¬ GoldenPrescribed h old new (old.copyInter h new).golden := by
  intro hp
  have := (copyInter_spec h old new).2.2.2 hg rg
  exact hne (by rw [← this.2 ha, (hp.2 rg).2.1 hg])

/-! ### C16 -/

/-- **C16** (all but the golden and alternate pictures).  Saving a decoder of any size in any state and loading the file
gives a decoder with the same dimensions, tables, segmentation, loop-filter adjustments and last picture.  Missing: the
golden and alternate pictures are not saved; both are replaced by the last picture. -/
theorem C16_save_restore_partial (d : Decoder) (h : d.Ok) (blank : Raster) :
    loadDecoder blank (saveDecoder d) = some ⟨d.state, ⟨d.references.last, d.references.last, d.references.last⟩⟩ := load_save h blank

/-- **C16**: a decoder is restored exactly if its three references are the same picture, as they are after a key frame. -/
theorem C16_restores_exactly_iff (d : Decoder) (h : d.Ok) (blank : Raster) :
    loadDecoder blank (saveDecoder d) = some d ↔ d.references.golden = d.references.last ∧ d.references.alternative = d.references.last := by
  rw [load_save h blank, Option.some.injEq]
  constructor
  · intro e
    rw [← e]
    exact ⟨rfl, rfl⟩
  · rintro ⟨h1, h2⟩
    refine Decoder.ext rfl (References.ext rfl h1.symm h2.symm)

/-! ### C17 -/

theorem serialize_congr {H : Type} (K : FrameKind H) {t t' : ProbabilityTables} {f : Frame H} (h : K.tables t f.header = K.tables t' f.header) :
    K.serialize t f = K.serialize t' f := by
  unfold FrameKind.serialize
  rw [h]

theorem keyTables_idem (h : KeyFrameHeader) (t : ProbabilityTables) : keyKind.tables (keyKind.tables t h) h = keyKind.tables t h := by
  refine ProbabilityTables.ext ?_ rfl rfl rfl
  funext i j k l
  cases hh : h.tokenProbUpdate i j k l <;> simp [keyKind, ProbabilityTables.coeffProbUpdate, hh]

theorem interTables_idem (h : InterFrameHeader) (t : ProbabilityTables) : interKind.tables (interKind.tables t h) h = interKind.tables t h := by
  refine ProbabilityTables.ext ?_ ?_ ?_ ?_
  · funext i j k l
    cases hh : h.tokenProbUpdate i j k l <;> simp [interKind, ProbabilityTables.update, ProbabilityTables.coeffProbUpdate, hh]
  · cases hh : h.intra16x16Prob <;> simp [interKind, ProbabilityTables.update, hh]
  · cases hh : h.intraChromaProb <;> simp [interKind, ProbabilityTables.update, hh]
  · funext i j
    cases hh : h.mvProbUpdate i j <;> simp [interKind, ProbabilityTables.update, hh]

theorem key_step (R : Renderer) (e : Encoder) (f : Frame KeyFrameHeader) (hf : KeyEmittable e f) :
    ∃ e' bytes, e.writeKey R f = some (e', bytes) ∧
      e.exportDecoder.getFrameOutput R bytes = (e'.exportDecoder, .ok (f.show', e'.references.last)) ∧ e'.state.segmentation = none ∧
      e'.state = e.updateStateKey f.header ∧ e'.references = e.references.copyKey e'.references.last ∧
      e'.references.last = R.key e'.state.segmentation e'.state.filterAdjustments { frame := f, segmentIds := f.modes.map fun _ => 0 } := by
  obtain ⟨bytes, parts, d, h1, h2, h3, -, h5, h6, h7⟩ := parse_serialized keyKind_lawful hf.ok {} hf.first hf.tokens
  have htab : keyKind.tables (e.updateStateKey f.header).tables f.header = keyKind.tables {} f.header := by
    unfold Encoder.updateStateKey
    by_cases hr : f.header.refreshEntropyProbs = true
    · rw [if_pos hr]; exact keyTables_idem _ _
    · rw [if_neg hr]; rfl
  have hst : e.updateStateKey f.header = keyStart f.header e.state.width e.state.height := by
    unfold Encoder.updateStateKey keyStart; rfl
  have hseg : (keyStart f.header e.state.width e.state.height).segmentation = none := by
    unfold keyStart DecoderState.ofKeyHeader
    rw [hf.segmentation]
    split <;> rfl
  have hw : (keyStart f.header e.state.width e.state.height).width = f.width := by
    rw [hf.width]; unfold keyStart; split <;> rfl
  have hh : (keyStart f.header e.state.width e.state.height).height = f.height := by
    rw [hf.height]; unfold keyStart; split <;> rfl
  obtain ⟨seg, ids, s1, s2⟩ := h7 (keyStart f.header e.state.width e.state.height) hw hh (by rw [hseg]; exact fun _ h => nomatch h)
  rw [hseg] at s1
  simp only [applySegmentation, Option.some.injEq, Prod.mk.injEq] at s1
  obtain ⟨rfl, rfl⟩ := s1
  have happly : e.state.applyKey parts = (keyStart f.header e.state.width e.state.height, .ok { frame := f, segmentIds := f.modes.map fun _ => 0 }) := by
    unfold DecoderState.applyKey
    rw [if_neg (by rw [h5]; decide), show parseKeyFrameHeader = keyKind.parseHeader from rfl, h6]
    refine s2.trans ?_
    congr 1
    refine DecoderState.ext rfl rfl rfl ?_ rfl
    exact hseg.symm
  rw [← hf.width, ← hf.height] at happly
  rw [hf.width, hf.height] at h2
  refine ⟨⟨e.updateStateKey f.header, e.references.copyKey (R.key (e.updateStateKey f.header).segmentation
    (e.updateStateKey f.header).filterAdjustments { frame := f, segmentIds := f.modes.map fun _ => 0 })⟩, bytes, ?_, ?_, ?_, rfl, rfl, rfl⟩
  rotate_left
  · rw [output_key (d := e.exportDecoder) h2 h3 (by rw [hf.width, hf.height] at happly; exact happly)]
    rw [← hst]
    rfl
  · show (e.updateStateKey f.header).segmentation = none
    rw [hst, hseg]
  · unfold Encoder.writeKey
    show (keyKind.serialize (e.updateStateKey f.header).tables f).bind _ = _
    rw [serialize_congr _ htab, h1]
    rfl

theorem inter_step (R : Renderer) (e : Encoder) (f : Frame InterFrameHeader) (hf : InterEmittable e f) (hn : e.state.segmentation = none) :
    ∃ e' bytes new, e.writeInter R f = some (e', bytes) ∧
      e.exportDecoder.getFrameOutput R bytes = (e'.exportDecoder, .ok (f.show', new)) ∧ e'.state.segmentation = none ∧
      e'.state = e.updateStateInter f.header ∧ e'.references = e.references.copyInter f.header new ∧
      new = R.inter e'.state.segmentation e'.state.filterAdjustments e.references { frame := f, segmentIds := f.modes.map fun _ => 0 } := by
  obtain ⟨bytes, parts, d, h1, h2, h3, -, h5, h6, h7⟩ := parse_serialized interKind_lawful hf.ok e.state.tables hf.first hf.tokens
  have htab : interKind.tables (e.updateStateInter f.header).tables f.header = interKind.tables e.state.tables f.header := by
    show interKind.tables (if f.header.refreshEntropyProbs then interKind.tables e.state.tables f.header else e.state.tables) f.header = _
    by_cases hr : f.header.refreshEntropyProbs = true
    · rw [if_pos hr]; exact interTables_idem _ _
    · rw [if_neg hr]
  have hst : e.updateStateInter f.header = e.state.applyInterHeader f.header := by
    refine DecoderState.ext rfl rfl rfl ?_ ?_
    · show e.state.segmentation = f.header.updateSegmentation.map _
      rw [hn, hf.segmentation]; rfl
    · show (match f.header.modeLfAdjustments with | some u => some ((e.state.filterAdjustments.getD {}).update u) | none => none) =
        f.header.modeLfAdjustments.map _
      cases f.header.modeLfAdjustments <;> rfl
  have hseg : (e.state.applyInterHeader f.header).segmentation = none := by
    show f.header.updateSegmentation.map _ = none
    rw [hf.segmentation]; rfl
  obtain ⟨seg, ids, s1, s2⟩ := h7 (e.state.applyInterHeader f.header) hf.width.symm hf.height.symm (by rw [hseg]; exact fun _ h => nomatch h)
  rw [hseg] at s1
  simp only [applySegmentation, Option.some.injEq, Prod.mk.injEq] at s1
  obtain ⟨rfl, rfl⟩ := s1
  have happly : e.state.applyInter parts = (e.state.applyInterHeader f.header, .ok { frame := f, segmentIds := f.modes.map fun _ => 0 }) := by
    unfold DecoderState.applyInter
    rw [show parseInterFrameHeader = interKind.parseHeader from rfl, h6]
    refine s2.trans ?_
    congr 1
    refine DecoderState.ext rfl rfl rfl ?_ rfl
    exact hseg.symm
  rw [hf.width, hf.height] at h2
  refine ⟨⟨e.updateStateInter f.header, e.references.copyInter f.header (R.inter (e.updateStateInter f.header).segmentation
    (e.updateStateInter f.header).filterAdjustments e.references { frame := f, segmentIds := f.modes.map fun _ => 0 })⟩, bytes,
    R.inter (e.updateStateInter f.header).segmentation (e.updateStateInter f.header).filterAdjustments e.references
      { frame := f, segmentIds := f.modes.map fun _ => 0 }, ?_, ?_, ?_, rfl, rfl, rfl⟩
  rotate_left
  · rw [output_inter (d := e.exportDecoder) h2 h3 h5 happly, ← hst]
    rfl
  · show (e.updateStateInter f.header).segmentation = none
    rw [hst, hseg]
  · unfold Encoder.writeInter
    show (interKind.serialize (e.updateStateInter f.header).tables f).bind _ = _
    rw [serialize_congr _ htab, h1]
    rfl

/-- **C17**, one frame: the encoder can write any frame it can emit, and a decoder that was equal to the encoder's record of it accepts
the bytes and is equal to the new record, references included; the picture that the decoder gives is the encoder's new last reference,
if the frame refreshes that. -/
theorem C17_each_frame_keeps_step (R : Renderer) (e : Encoder) (hn : e.state.segmentation = none) :
    (∀ f, KeyEmittable e f → ∃ e' bytes, e.writeKey R f = some (e', bytes) ∧
      e.exportDecoder.getFrameOutput R bytes = (e'.exportDecoder, .ok (f.show', e'.references.last)) ∧ e'.state.segmentation = none) ∧
    (∀ f, InterEmittable e f → ∃ e' bytes new, e.writeInter R f = some (e', bytes) ∧
      e.exportDecoder.getFrameOutput R bytes = (e'.exportDecoder, .ok (f.show', new)) ∧ e'.state.segmentation = none ∧
      (f.header.refreshLast = true → e'.references.last = new)) := by
  refine ⟨fun f hf => ?_, fun f hf => ?_⟩
  · obtain ⟨e', b, h1, h2, h3, -⟩ := key_step R e f hf
    exact ⟨e', b, h1, h2, h3⟩
  · obtain ⟨e', b, new, h1, h2, h3, -, h4, -⟩ := inter_step R e f hf hn
    refine ⟨e', b, new, h1, h2, h3, fun hl => ?_⟩
    rw [h4]
    unfold References.copyInter
    dsimp only
    rw [if_pos hl]

/-- **C17**, any sequence of frames: a decoder that starts equal to the encoder's record accepts every frame and ends equal to the
record, so that their hashes agree. -/
theorem C17_encoder_decoder_in_step (R : Renderer) (e e' : Encoder) (frames : List (List UInt8)) (h : Emits R e frames e')
    (hn : e.state.segmentation = none) :
    (e.exportDecoder.run R frames).1 = e'.exportDecoder ∧ (∀ out ∈ (e.exportDecoder.run R frames).2, ∃ x, out = .ok x) ∧
      ∀ mix, (e.exportDecoder.run R frames).1.minihash mix = e'.minihash mix := by
  have key : (e.exportDecoder.run R frames).1 = e'.exportDecoder ∧ (∀ out ∈ (e.exportDecoder.run R frames).2, ∃ x, out = .ok x) := by
    induction h with
    | nil e => exact ⟨rfl, by simp [Decoder.run]⟩
    | @key e e1 e2 f bytes rest hf hw _ ih =>
      obtain ⟨e1', bytes', k1, k2, k3, -⟩ := key_step R e f hf
      rw [hw, Option.some.injEq, Prod.mk.injEq] at k1
      obtain ⟨rfl, rfl⟩ := k1
      have := ih k3
      unfold Decoder.run
      rw [k2]
      simp only
      refine ⟨this.1, fun out ho => ?_⟩
      rcases List.mem_cons.mp ho with rfl | ho
      · exact ⟨_, rfl⟩
      · exact this.2 out ho
    | @inter e e1 e2 f bytes rest hf hw _ ih =>
      obtain ⟨e1', bytes', new, k1, k2, k3, -⟩ := inter_step R e f hf hn
      rw [hw, Option.some.injEq, Prod.mk.injEq] at k1
      obtain ⟨rfl, rfl⟩ := k1
      have := ih k3
      unfold Decoder.run
      rw [k2]
      simp only
      refine ⟨this.1, fun out ho => ?_⟩
      rcases List.mem_cons.mp ho with rfl | ho
      · exact ⟨_, rfl⟩
      · exact this.2 out ho
  refine ⟨key.1, key.2, fun mix => ?_⟩
  rw [key.1]; rfl

/-- **C17** fails with segmentation: an encoder made from a decoder that has a segmentation keeps it when it writes an inter frame
whose header has none, while the decoder drops it. -/
theorem C17_segmentation_out_of_step (R : Renderer) (e : Encoder) (s : Segmentation) (hs : e.state.segmentation = some s)
    (f : Frame InterFrameHeader) (hf : f.header.updateSegmentation = none) (e' : Encoder) (bytes : List UInt8)
    (h : e.writeInter R f = some (e', bytes)) : e'.state.segmentation = some s ∧
      ∀ c st p, e.state.applyInter c = (st, .ok p) → p.frame.header = f.header → st.segmentation = none := by
  refine ⟨?_, fun c st p hp hh => ?_⟩
  · unfold Encoder.writeInter at h
    obtain ⟨b, h1, h2⟩ := Option.bind_eq_some_iff.mp h
    have h2 := Option.some.inj h2
    have h3 := congrArg Prod.fst h2
    simp only at h3
    rw [← h3]
    exact hs
  · obtain ⟨d, h1, h2⟩ := applyInter_ok hp
    have hseg : (e.state.applyInterHeader p.frame.header).segmentation = none := by
      show p.frame.header.updateSegmentation.map _ = none
      rw [hh, hf]; rfl
    unfold parseBody at h2
    cases e1 : interKind.parseModes p.frame.header (interKind.tables e.state.tables p.frame.header) (e.state.applyInterHeader p.frame.header).width
      (e.state.applyInterHeader p.frame.header).height d with
    | none => rw [e1] at h2; simp at h2
    | some x =>
      rw [e1] at h2
      simp only at h2
      rw [hseg] at h2
      simp only [applySegmentation] at h2
      cases e3 : dctPartitions c.rest (interKind.partitionCount p.frame.header) with
      | error e => rw [e3] at h2; simp at h2
      | ok parts =>
        rw [e3] at h2
        simp only at h2
        split at h2
        · simp at h2
        · simp only [Prod.mk.injEq] at h2
          rw [← h2.1]

/-! ### C18 -/

theorem parseBody_dims {H : Type} (K : FrameKind H) (st : DecoderState) (t : ProbabilityTables) (c : FrameParts) (h : H) (d : BoolDecoder) :
    (parseBody K st t c h d).1.width = st.width ∧ (parseBody K st t c h d).1.height = st.height := by
  unfold parseBody
  cases K.parseModes h t st.width st.height d with
  | none => exact ⟨rfl, rfl⟩
  | some x =>
    simp only
    cases applySegmentation st.width x.1 st.segmentation with
    | none => exact ⟨rfl, rfl⟩
    | some y =>
      simp only
      cases dctPartitions c.rest (K.partitionCount h) with
      | error e => exact ⟨rfl, rfl⟩
      | ok parts => simp only; cases parseFrameTokens t st.width x.1 parts <;> exact ⟨rfl, rfl⟩

theorem applyKey_dims_kept (st : DecoderState) (c : FrameParts) : (st.applyKey c).1.width = st.width ∧ (st.applyKey c).1.height = st.height := by
  unfold DecoderState.applyKey
  by_cases hx : c.experimental = true
  · rw [if_pos hx]; exact ⟨rfl, rfl⟩
  rw [if_neg hx]
  cases parseKeyFrameHeader (BoolDecoder.init c.firstPartition false) with
  | none => exact ⟨rfl, rfl⟩
  | some x =>
    simp only
    cases x.1.refreshEntropyProbs <;> exact parseBody_dims ..

theorem applyInter_dims_kept (st : DecoderState) (c : FrameParts) : (st.applyInter c).1.width = st.width ∧ (st.applyInter c).1.height = st.height := by
  unfold DecoderState.applyInter
  cases parseInterFrameHeader (BoolDecoder.init c.firstPartition false) with
  | none => exact ⟨rfl, rfl⟩
  | some x => exact parseBody_dims ..

theorem keyStart_ok {st : DecoderState} (hst : st.Ok) {h : KeyFrameHeader} (hr : h.InRange) : (keyStart h st.width st.height).Ok := by
  have hok : (DecoderState.ofKeyHeader h st.width st.height).Ok := by
    refine ⟨hst.width, hst.height, fun s hs => ?_, fun a ha => ?_⟩
    · obtain ⟨u, hu, rfl⟩ := Option.map_eq_some_iff.mp hs
      exact Segmentation.new_ok (hr.updateSegmentation u hu)
    · obtain ⟨u, hu, rfl⟩ := Option.map_eq_some_iff.mp ha
      exact FilterAdjustments.update_ok FilterAdjustments.default_ok (hr.modeLfAdjustments u hu)
  unfold keyStart
  split
  · exact ⟨hok.width, hok.height, hok.segmentation, hok.filterAdjustments⟩
  · exact hok

theorem applyInterHeader_ok {st : DecoderState} (hst : st.Ok) {h : InterFrameHeader} (hr : h.InRange) : (st.applyInterHeader h).Ok := by
  refine ⟨hst.width, hst.height, fun s hs => ?_, fun a ha => ?_⟩
  · obtain ⟨u, hu, rfl⟩ := Option.map_eq_some_iff.mp hs
    have hr := hr.updateSegmentation u hu
    cases hg : st.segmentation with
    | none => exact Segmentation.new_ok hr
    | some s => exact Segmentation.update_ok (hst.segmentation s hg) hr
  · obtain ⟨u, hu, rfl⟩ := Option.map_eq_some_iff.mp ha
    refine FilterAdjustments.update_ok ?_ (hr.modeLfAdjustments u hu)
    cases hg : st.filterAdjustments with
    | none => exact FilterAdjustments.default_ok
    | some a => exact hst.filterAdjustments a hg

theorem parseBody_error {H : Type} {K : FrameKind H} {headerOk : H → Prop} {mbOk : H → MBContext → MBModes → Prop}
    (hK : K.Lawful headerOk mbOk) {st st' : DecoderState} (hst : st.Ok) {t : ProbabilityTables} {c : FrameParts} {h : H} (hh : headerOk h)
    {d : BoolDecoder} {e : FrameError} (he : parseBody K st t c h d = (st', .error e)) : e = .outOfRange := by
  have hb := (parseBody_total hK st hst t c h hh d).2
  rw [he] at hb
  rcases hb with hb | ⟨p, hb, -⟩
  · injection hb with hb
  · exact nomatch hb

theorem applyKey_error {st st' : DecoderState} (hst : st.Ok) {c : FrameParts} {e : FrameError} (h : st.applyKey c = (st', .error e)) :
    e ≠ .outOfRange → st' = st := by
  intro he
  unfold DecoderState.applyKey at h
  by_cases hx : c.experimental = true
  · rw [if_pos hx] at h; exact (congrArg Prod.fst h).symm
  rw [if_neg hx] at h
  cases hp : parseKeyFrameHeader (BoolDecoder.init c.firstPartition false) with
  | none => rw [hp] at h; exact (congrArg Prod.fst h).symm
  | some x =>
    rw [hp] at h
    have hr : x.1.InRange := yields_keyHeader _ _ _ hp
    exact absurd (parseBody_error (st := keyStart x.1 st.width st.height) keyKind_lawful (keyStart_ok hst hr) hr h) he

theorem applyInter_error {st st' : DecoderState} (hst : st.Ok) {c : FrameParts} {e : FrameError} (h : st.applyInter c = (st', .error e)) :
    e ≠ .outOfRange → st' = st := by
  intro he
  unfold DecoderState.applyInter at h
  cases hp : parseInterFrameHeader (BoolDecoder.init c.firstPartition false) with
  | none => rw [hp] at h; exact (congrArg Prod.fst h).symm
  | some x =>
    rw [hp] at h
    have hr : x.1.InRange := yields_interHeader _ _ _ hp
    exact absurd (parseBody_error interKind_lawful (applyInterHeader_ok hst hr) hr h) he

/-- **C18** (all but frames whose coefficient partitions are cut off).  If decoding a byte string fails with any exception other than the
`out_of_range` of coefficient partitions that end too early, the decoder is unchanged.  Missing: that last case, where
`C18_truncated_frame_changes_state` shows the claim to be false; `C18_rejected_frame_leaves_usable` says what holds then. -/
theorem C18_rejected_frame_partial (R : Renderer) (d : Decoder) (hd : d.Ok) (bytes : List UInt8) (e : FrameError)
    (h : (d.getFrameOutput R bytes).2 = .error e) (he : e ≠ .outOfRange) : (d.getFrameOutput R bytes).1 = d := by
  rcases output_cases R d bytes with ⟨e', -, ho⟩ | ⟨c, -, ⟨-, st, e', ha, ho⟩ | ⟨-, st, f, ha, ho⟩ | ⟨-, -, st, e', ha, ho⟩ | ⟨-, -, st, f, ha, ho⟩ | ⟨-, -, ho⟩⟩
  · rw [ho]
  · rw [ho] at h ⊢
    injection h with h
    subst h
    have := applyKey_error hd.state ha he
    subst this
    rfl
  · rw [ho] at h; exact nomatch h
  · rw [ho] at h ⊢
    injection h with h
    subst h
    have := applyInter_error hd.state ha he
    subst this
    rfl
  · rw [ho] at h; exact nomatch h
  · rw [ho]

theorem copyInter_ok {r : References} {h : InterFrameHeader} {new : Raster} {w ht : Nat} (hr : r.Ok w ht) (hn : new.Ok w ht) :
    (r.copyInter h new).Ok w ht := by
  have h1 := hr.last; have h2 := hr.golden; have h3 := hr.alternative
  unfold References.copyInter
  refine ⟨?_, ?_, ?_⟩ <;> (dsimp only; repeat' split) <;> assumption

/-- **C18**: whatever the bytes are and however decoding ends, the decoder remains a possible decoder of the same dimensions, and if it
failed its three reference pictures are unchanged. -/
theorem C18_rejected_frame_leaves_usable (R : Renderer) (hR : R.Ok) (d : Decoder) (hd : d.Ok) (bytes : List UInt8) :
    (d.getFrameOutput R bytes).1.Ok ∧ (d.getFrameOutput R bytes).1.state.width = d.state.width ∧
    (d.getFrameOutput R bytes).1.state.height = d.state.height ∧
    ∀ e, (d.getFrameOutput R bytes).2 = .error e → (d.getFrameOutput R bytes).1.references = d.references := by
  have fin : ∀ {st : DecoderState} {r : References}, st.Ok → st.width = d.state.width → st.height = d.state.height →
      r.Ok d.state.width d.state.height → (⟨st, r⟩ : Decoder).Ok := fun h1 h2 h3 h4 => ⟨h1, by rw [h2, h3]; exact h4⟩
  rcases output_cases R d bytes with ⟨e', -, ho⟩ | ⟨c, hs, ⟨hk, st, e', ha, ho⟩ | ⟨hk, st, f, ha, ho⟩ | ⟨hk, hx, st, e', ha, ho⟩ | ⟨hk, hx, st, f, ha, ho⟩ | ⟨-, -, ho⟩⟩
  · rw [ho]; exact ⟨hd, rfl, rfl, fun _ _ => rfl⟩
  · have h1 := (C12_key_frame_total d.state hd.state c).1
    obtain ⟨h2, h3⟩ := applyKey_dims_kept d.state c
    rw [ha] at h1 h2 h3
    rw [ho]
    exact ⟨fin h1 h2 h3 hd.references, h2, h3, fun _ _ => rfl⟩
  · have h1 := C12_key_frame_total d.state hd.state c
    obtain ⟨h2, h3⟩ := applyKey_dims_kept d.state c
    rw [ha] at h1 h2 h3
    rw [output_key hs hk ha]
    obtain ⟨h1, h4⟩ := h1
    have h5 : f.frame.width = d.state.width ∧ f.frame.height = d.state.height := by
      rcases h4 with ⟨h4, -⟩ | h4 | h4 | ⟨p, h4, -, h5, h6, -⟩
      · exact nomatch h4
      · exact nomatch h4
      · exact nomatch h4
      · injection h4 with h4; subst h4; exact ⟨h5, h6⟩
    have h6 := hR.key st.segmentation st.filterAdjustments f
    rw [h5.1, h5.2] at h6
    exact ⟨fin h1 h2 h3 ⟨h6, h6, h6⟩, h2, h3, fun _ h => nomatch h⟩
  · have h1 := (C12_inter_frame_total d.state hd.state c).1
    obtain ⟨h2, h3⟩ := applyInter_dims_kept d.state c
    rw [ha] at h1 h2 h3
    rw [ho]
    exact ⟨fin h1 h2 h3 hd.references, h2, h3, fun _ _ => rfl⟩
  · have h1 := C12_inter_frame_total d.state hd.state c
    obtain ⟨h2, h3⟩ := applyInter_dims_kept d.state c
    rw [ha] at h1 h2 h3
    rw [output_inter hs hk hx ha]
    obtain ⟨h1, h4⟩ := h1
    have h5 : f.frame.width = d.state.width ∧ f.frame.height = d.state.height := by
      rcases h4 with h4 | h4 | ⟨p, h4, -, h5, h6, -⟩
      · exact nomatch h4
      · exact nomatch h4
      · injection h4 with h4; subst h4; exact ⟨h5, h6⟩
    have h6 := hR.inter st.segmentation st.filterAdjustments d.references f
    rw [h5.1, h5.2] at h6
    exact ⟨fin h1 h2 h3 (copyInter_ok hd.references h6), h2, h3, fun _ h => nomatch h⟩
  · rw [ho]; exact ⟨hd, rfl, rfl, fun _ _ => rfl⟩

/-- **C18**, along any history: a decoder stays a possible decoder of the same dimensions whatever it is fed. -/
theorem C18_any_history (R : Renderer) (hR : R.Ok) (frames : List (List UInt8)) : ∀ (d : Decoder), d.Ok →
    (d.run R frames).1.Ok ∧ (d.run R frames).1.state.width = d.state.width ∧ (d.run R frames).1.state.height = d.state.height := by
  induction frames with
  | nil => exact fun d hd => ⟨hd, rfl, rfl⟩
  | cons b bs ih =>
    intro d hd
    obtain ⟨h1, h2, h3, -⟩ := C18_rejected_frame_leaves_usable R hR d hd b
    obtain ⟨i1, i2, i3⟩ := ih _ h1
    exact ⟨i1, i2.trans h2, i3.trans h3⟩

/-! Pictures for examples. -/

/-- A picture of one shade. -/
def grayRaster (width height : Nat) (shade : UInt8) : Raster :=
  { displayWidth := width, displayHeight := height
    y := ⟨(width + 15) / 16 * 16, (height + 15) / 16 * 16, List.replicate ((width + 15) / 16 * 16 * ((height + 15) / 16 * 16)) shade⟩
    u := ⟨(width + 15) / 16 * 8, (height + 15) / 16 * 8, List.replicate ((width + 15) / 16 * 8 * ((height + 15) / 16 * 8)) 128⟩
    v := ⟨(width + 15) / 16 * 8, (height + 15) / 16 * 8, List.replicate ((width + 15) / 16 * 8 * ((height + 15) / 16 * 8)) 128⟩ }

theorem grayRaster_ok (w h : Nat) (s : UInt8) : (grayRaster w h s).Ok w h :=
  ⟨rfl, rfl, rfl, rfl, rfl, rfl, rfl, rfl, List.length_replicate, List.length_replicate, List.length_replicate⟩

/-- A renderer that paints everything in one shade. -/
def grayRenderer : Renderer where
  key _ _ f := grayRaster f.frame.width f.frame.height 99
  inter _ _ _ f := grayRaster f.frame.width f.frame.height 77

theorem grayRenderer_ok : grayRenderer.Ok := ⟨fun _ _ _ => grayRaster_ok .., fun _ _ _ _ => grayRaster_ok ..⟩

/-- A decoder of the size of the example key frame, with three different references. -/
def exampleDecoder : Decoder where
  state := { width := 17, height := 20 }
  references := ⟨grayRaster 17 20 1, grayRaster 17 20 2, grayRaster 17 20 3⟩

theorem exampleDecoder_ok : exampleDecoder.Ok :=
  ⟨⟨by decide, by decide, fun _ h => (nomatch h), fun _ h => (nomatch h)⟩, ⟨grayRaster_ok .., grayRaster_ok .., grayRaster_ok ..⟩⟩

theorem parseBody_cut_off {H : Type} {K : FrameKind H} {headerOk : H → Prop} {mbOk : H → MBContext → MBModes → Prop}
    (hK : K.Lawful headerOk mbOk) {f : Frame H} (hf : f.Ok headerOk mbOk) {st : DecoderState} (hst : st.Ok)
    (hw : st.width = f.width) (hh : st.height = f.height) {t : ProbabilityTables} {c : FrameParts} {d d' : BoolDecoder}
    (hm : K.parseModes f.header t f.width f.height d = some (f.modes, d')) {e : FrameError}
    (hd : dctPartitions c.rest (K.partitionCount f.header) = .error e) :
    ∃ seg, parseBody K st t c f.header d = ({ st with segmentation := seg }, .error e) := by
  have hs := hst.segmentation
  rw [hw, hh] at hs
  obtain ⟨seg, ids, s1, -, -, -⟩ := applySegmentation_ok hf.width.1 hs hf.count (fun m hm v hv => by
    obtain ⟨k, hk⟩ := List.getElem?_of_mem hm
    exact hK.segments _ _ m v (hf.modes k m hk) hv)
  refine ⟨seg, ?_⟩
  unfold parseBody
  rw [hw, hh, hm]
  simp only
  rw [s1]
  simp only
  rw [hd]

theorem dctPartitions_one {rest p : List UInt8} (h : dctPartitions rest 1 = .ok [p]) : rest = p := by
  have h : (Except.ok [rest] : Except FrameError _) = .ok [p] := h
  injection h with h
  injection h with h

theorem keyStart_filter (h : KeyFrameHeader) (w ht : Nat) : (keyStart h w ht).filterAdjustments = (DecoderState.ofKeyHeader h w ht).filterAdjustments := by
  unfold keyStart
  split <;> rfl

theorem keyStart_dims (h : KeyFrameHeader) (w ht : Nat) : (keyStart h w ht).width = w ∧ (keyStart h w ht).height = ht := by
  unfold keyStart
  split <;> exact ⟨rfl, rfl⟩

/-- **C18** is false as stated: a key frame whose coefficient partitions are cut off is refused, but the decoder has lost its tables
and adjustments to the header of that frame. -/
theorem C18_truncated_frame_changes_state (R : Renderer) : ∃ bytes, (exampleDecoder.getFrameOutput R bytes).2 = .error .outOfRange ∧
    (exampleDecoder.getFrameOutput R bytes).1 ≠ exampleDecoder := by
  obtain ⟨first, h1, h2⟩ := first_round_trip keyKind_lawful exampleKeyFrame_ok (keyKind.tables {} exampleKeyFrame.header)
  obtain ⟨bytes, parts, c1, c2, c3, c4, c5, c6, c7, c8⟩ := C10_container_round_trip true true false false false 17 20
    first [[0]] (by decide) (by decide) (by simp) (fun h => nomatch h) (exampleKeyFrame_first first h1) (by simp) (by simp)
  obtain ⟨d, d', e1, e2⟩ := h2 false
  have hrest : parts.rest = [0] := dctPartitions_one c8
  refine ⟨bytes, ?_⟩
  have key : ∃ st, exampleDecoder.state.applyKey parts = (st, .error .outOfRange) ∧ st.filterAdjustments ≠ none := by
    obtain ⟨seg, hb⟩ := parseBody_cut_off keyKind_lawful exampleKeyFrame_ok (keyStart_ok exampleDecoder_ok.state exampleKeyFrame_ok.header)
      (keyStart_dims ..).1 (keyStart_dims ..).2 (c := parts) e2
      (show dctPartitions parts.rest (keyKind.partitionCount exampleKeyFrame.header) = .error .outOfRange by rw [hrest]; decide +kernel)
    refine ⟨{ keyStart exampleKeyFrame.header 17 20 with segmentation := seg }, ?_, ?_⟩
    · unfold DecoderState.applyKey
      rw [if_neg (by rw [c5]; decide), show parseKeyFrameHeader = keyKind.parseHeader from rfl, c6, e1]
      exact hb
    · show (keyStart exampleKeyFrame.header 17 20).filterAdjustments ≠ none
      rw [keyStart_filter]
      intro h
      have := congrArg Option.isSome h
      revert this
      decide +kernel
  obtain ⟨st, k1, k2⟩ := key
  have ho : exampleDecoder.getFrameOutput R bytes = ({ exampleDecoder with state := st }, .error .outOfRange) := by
    unfold Decoder.getFrameOutput
    rw [show splitFrame bytes exampleDecoder.state.width exampleDecoder.state.height false = .ok parts from c2]
    simp only
    rw [if_pos c3, k1]
  rw [ho]
  refine ⟨rfl, fun h => k2 ?_⟩
  exact congrArg (fun d : Decoder => d.state.filterAdjustments) h

/-! ### C19 -/

theorem hashAll_injective {mix : Nat → Nat → Nat} (hm : IdealMix mix) (a b : List Nat) (h : hashAll mix a = hashAll mix b) : a = b := by
  unfold hashAll at h
  induction a using List.reverseRecOn generalizing b with
  | nil =>
    rcases List.eq_nil_or_concat b with rfl | ⟨b', x, rfl⟩
    · rfl
    · rw [List.concat_eq_append, List.foldl_append] at h
      exact absurd h.symm (hm.nonzero _ _)
  | append_singleton a x ih =>
    rcases List.eq_nil_or_concat b with rfl | ⟨b', y, rfl⟩
    · rw [List.foldl_append] at h
      exact absurd h (hm.nonzero _ _)
    · rw [List.concat_eq_append] at h ⊢
      rw [List.foldl_append, List.foldl_append] at h
      obtain ⟨h1, h2⟩ := hm.injective _ _ _ _ h
      rw [ih b' h1, h2]

theorem hashInt_injective {a b : Int} (ha : -128 ≤ a ∧ a ≤ 127) (hb : -128 ≤ b ∧ b ≤ 127) (h : hashInt a = hashInt b) : a = b := by
  unfold hashInt at h
  omega

theorem hashInts_injective {n : Nat} {f g : Fin n → Int} (hf : ∀ i, -128 ≤ f i ∧ f i ≤ 127) (hg : ∀ i, -128 ≤ g i ∧ g i ≤ 127)
    (h : (List.ofFn f).map hashInt = (List.ofFn g).map hashInt) : f = g := by
  rw [List.map_ofFn, List.map_ofFn] at h
  have := List.ofFn_injective h
  funext i
  exact hashInt_injective (hf i) (hg i) (congrFun this i)

theorem flatten_ofFn_injective {n k : Nat} {α : Type} {f g : Fin n → List α} (hf : ∀ i, (f i).length = k) (hg : ∀ i, (g i).length = k)
    (h : (List.ofFn f).flatten = (List.ofFn g).flatten) : f = g := by
  induction n with
  | zero => funext i; exact i.elim0
  | succ n ih =>
    rw [List.ofFn_succ, List.ofFn_succ, List.flatten_cons, List.flatten_cons] at h
    obtain ⟨h1, h2⟩ := List.append_inj h (by rw [hf, hg])
    have := ih (fun i => hf i.succ) (fun i => hg i.succ) h2
    funext i
    cases i using Fin.cases with
    | zero => exact h1
    | succ i => exact congrFun this i

theorem toNat_map_injective {a b : List UInt8} (h : a.map (·.toNat) = b.map (·.toNat)) : a = b :=
  List.map_injective_iff.mpr (fun _ _ h => UInt8.toNat_inj.mp h) h

theorem tablesHash_injective {mix : Nat → Nat → Nat} (hm : IdealMix mix) {a b : ProbabilityTables} (h : a.hash mix = b.hash mix) : a = b := by
  unfold ProbabilityTables.hash at h
  have h := toNat_map_injective (hashAll_injective hm _ _ h)
  have l3 : ∀ (c : CoeffProbs) (i j), (List.ofFn fun k => List.ofFn (c i j k)).flatten.length = 3 * 11 :=
    fun c i j => flatten_length _ (fun k => List.length_ofFn)
  have l2 : ∀ (c : CoeffProbs) (i), (List.ofFn fun j => (List.ofFn fun k => List.ofFn (c i j k)).flatten).flatten.length = 8 * (3 * 11) :=
    fun c i => flatten_length _ (fun j => l3 c i j)
  have l1 : ∀ (c : CoeffProbs), (List.ofFn fun i => (List.ofFn fun j => (List.ofFn fun k => List.ofFn (c i j k)).flatten).flatten).flatten.length =
      4 * (8 * (3 * 11)) := fun c => flatten_length _ (fun i => l2 c i)
  obtain ⟨h1, h⟩ := List.append_inj h (by rw [l1, l1])
  obtain ⟨h2, h⟩ := List.append_inj h (by rw [List.length_ofFn, List.length_ofFn])
  obtain ⟨h3, h4⟩ := List.append_inj h (by rw [List.length_ofFn, List.length_ofFn])
  refine ProbabilityTables.ext ?_ (List.ofFn_injective h2) (List.ofFn_injective h3) ?_
  · have e1 := flatten_ofFn_injective (fun i => l2 _ i) (fun i => l2 _ i) h1
    funext i j k
    have e2 := flatten_ofFn_injective (fun j => l3 _ i j) (fun j => l3 _ i j) (congrFun e1 i)
    have e3 := flatten_ofFn_injective (fun k => List.length_ofFn) (fun k => List.length_ofFn) (congrFun e2 j)
    exact List.ofFn_injective (congrFun e3 k)
  · have e1 := flatten_ofFn_injective (fun i => List.length_ofFn) (fun i => List.length_ofFn) h4
    funext i
    exact List.ofFn_injective (congrFun e1 i)

theorem segmentationHash_injective {mix : Nat → Nat → Nat} (hm : IdealMix mix) {w h : Nat} {a b : Segmentation} (ha : a.Ok w h) (hb : b.Ok w h)
    (he : a.hash mix = b.hash mix) : a = b := by
  unfold Segmentation.hash at he
  have he := hashAll_injective hm _ _ he
  injection he with h0 he
  obtain ⟨h1, he⟩ := List.append_inj he (by rw [List.length_map, List.length_map, List.length_ofFn, List.length_ofFn])
  obtain ⟨h2, h3⟩ := List.append_inj he (by rw [List.length_map, List.length_map, List.length_ofFn, List.length_ofFn])
  refine Segmentation.ext ?_ (hashInts_injective (fun i => ?_) (fun i => ?_) h1) (hashInts_injective (fun i => ?_) (fun i => ?_) h2)
    (ha.mapWidth.trans hb.mapWidth.symm) (ha.mapHeight.trans hb.mapHeight.symm) h3
  · revert h0; cases a.absolute <;> cases b.absolute <;> decide
  · have := ha.quantizer i; omega
  · have := hb.quantizer i; omega
  · have := ha.filter i; omega
  · have := hb.filter i; omega

theorem filterHash_injective {mix : Nat → Nat → Nat} (hm : IdealMix mix) {a b : FilterAdjustments} (ha : a.Ok) (hb : b.Ok)
    (he : a.hash mix = b.hash mix) : a.ref = b.ref := by
  unfold FilterAdjustments.hash at he
  have he := hashAll_injective hm _ _ he
  rw [List.append_nil, List.append_nil] at he
  exact hashInts_injective (fun i => by have := ha.ref i; omega) (fun i => by have := hb.ref i; omega) he

theorem segmentation_filter_hash_ne {mix : Nat → Nat → Nat} (hm : IdealMix mix) (s : Segmentation) (a : FilterAdjustments) :
    s.hash mix ≠ a.hash mix := by
  intro h
  unfold Segmentation.hash FilterAdjustments.hash at h
  have := congrArg List.length (hashAll_injective hm _ _ h)
  simp at this

theorem rasterHash_injective {mix : Nat → Nat → Nat} (hm : IdealMix mix) {w h : Nat} {a b : Raster} (ha : a.Ok w h) (hb : b.Ok w h)
    (he : a.hash mix = b.hash mix) : a = b := by
  unfold Raster.hash at he
  have he := toNat_map_injective (hashAll_injective hm _ _ he)
  obtain ⟨h1, he⟩ := List.append_inj he (by rw [ha.y, hb.y, ha.yWidth, ha.yHeight, hb.yWidth, hb.yHeight])
  obtain ⟨h2, h3⟩ := List.append_inj he (by rw [ha.u, hb.u, ha.uWidth, ha.uHeight, hb.uWidth, hb.uHeight])
  refine Raster.ext (ha.displayWidth.trans hb.displayWidth.symm) (ha.displayHeight.trans hb.displayHeight.symm) ?_ ?_ ?_
  · exact Grid.ext (ha.yWidth.trans hb.yWidth.symm) (ha.yHeight.trans hb.yHeight.symm) h1
  · exact Grid.ext (ha.uWidth.trans hb.uWidth.symm) (ha.uHeight.trans hb.uHeight.symm) h2
  · exact Grid.ext (ha.vWidth.trans hb.vWidth.symm) (ha.vHeight.trans hb.vHeight.symm) h3

/-- **C19** (all but the loop-filter adjustments by mode).  With a mixing function that has no collisions, two decoders with the same hash
have the same dimensions, tables, segmentation, loop-filter adjustments by reference and the same three reference pictures: nothing
else of a decoder escapes the hash.  Missing: the adjustments by mode, see `C19_mode_adjustments_not_hashed`. -/
theorem C19_hash_determines_decoder_partial (mix : Nat → Nat → Nat) (hm : IdealMix mix) (a b : Decoder) (ha : a.Ok) (hb : b.Ok)
    (h : (a.getHash mix).hash mix = (b.getHash mix).hash mix) : SameButModeAdjustments a.state b.state ∧ a.references = b.references := by
  unfold DecoderHash.hash at h
  have h := hashAll_injective hm _ _ h
  simp only [List.cons.injEq, and_true, Decoder.getHash] at h
  obtain ⟨h0, h1, h2, h3⟩ := h
  have hst : SameButModeAdjustments a.state b.state := by
    unfold DecoderState.hash at h0
    have h := hashAll_injective hm _ _ h0
    simp only [List.cons_append, List.nil_append, List.cons.injEq] at h
    obtain ⟨w, ht, t, h⟩ := h
    have sa := ha.state.segmentation; have sb := hb.state.segmentation
    have fa := ha.state.filterAdjustments; have fb := hb.state.filterAdjustments
    rw [← w, ← ht] at sb
    have cases : a.state.segmentation = b.state.segmentation ∧ a.state.filterAdjustments.map (·.ref) = b.state.filterAdjustments.map (·.ref) := by
      cases hsa : a.state.segmentation with
      | none =>
        cases hsb : b.state.segmentation with
        | none =>
          rw [hsa, hsb] at h
          refine ⟨rfl, ?_⟩
          cases hfa : a.state.filterAdjustments with
          | none => cases hfb : b.state.filterAdjustments with
            | none => rfl
            | some y => rw [hfa, hfb] at h; simp at h
          | some x => cases hfb : b.state.filterAdjustments with
            | none => rw [hfa, hfb] at h; simp at h
            | some y =>
              rw [hfa, hfb] at h
              simp only [Option.map_none, Option.toList_none, List.nil_append, Option.map_some, Option.toList_some, List.cons.injEq, and_true] at h
              rw [Option.map_some, Option.map_some, filterHash_injective hm (fa x hfa) (fb y hfb) h]
        | some s =>
          exfalso
          rw [hsa, hsb] at h
          cases hfa : a.state.filterAdjustments with
          | none => rw [hfa] at h; simp at h
          | some x =>
            rw [hfa] at h
            simp only [Option.map_none, Option.toList_none, List.nil_append, Option.map_some, Option.toList_some, List.cons_append, List.cons.injEq] at h
            exact segmentation_filter_hash_ne hm s x h.1.symm
      | some s =>
        cases hsb : b.state.segmentation with
        | none =>
          exfalso
          rw [hsa, hsb] at h
          cases hfb : b.state.filterAdjustments with
          | none => rw [hfb] at h; simp at h
          | some x =>
            rw [hfb] at h
            simp only [Option.map_none, Option.toList_none, List.nil_append, Option.map_some, Option.toList_some, List.cons_append, List.cons.injEq] at h
            exact segmentation_filter_hash_ne hm s x h.1
        | some s' =>
          rw [hsa, hsb] at h
          simp only [Option.map_some, Option.toList_some, List.cons_append, List.cons.injEq, List.nil_append] at h
          refine ⟨by rw [segmentationHash_injective hm (sa s hsa) (sb s' hsb) h.1], ?_⟩
          have h := h.2
          cases hfa : a.state.filterAdjustments with
          | none => cases hfb : b.state.filterAdjustments with
            | none => rfl
            | some y => rw [hfa, hfb] at h; simp at h
          | some x => cases hfb : b.state.filterAdjustments with
            | none => rw [hfa, hfb] at h; simp at h
            | some y =>
              rw [hfa, hfb] at h
              simp only [Option.map_some, Option.toList_some, List.cons.injEq, and_true] at h
              rw [Option.map_some, Option.map_some, filterHash_injective hm (fa x hfa) (fb y hfb) h]
    exact ⟨w, ht, tablesHash_injective hm t, cases⟩
  have rb := hb.references
  rw [← hst.1, ← hst.2.1] at rb
  exact ⟨hst, References.ext (rasterHash_injective hm ha.references.last rb.last h1) (rasterHash_injective hm ha.references.golden rb.golden h2)
    (rasterHash_injective hm ha.references.alternative rb.alternative h3)⟩

/-- There are mixing functions without collisions. -/
theorem pair_ideal : IdealMix fun a b => Nat.pair a b + 1 :=
  ⟨fun _ _ _ _ h => Nat.pair_eq_pair.mp (Nat.succ.inj h), fun _ _ => Nat.succ_ne_zero _⟩

/-- **C19** is false as stated: whatever the mixing function, two decoders that differ only in the loop-filter adjustments by mode, and
hence filter the next frame differently, have the same hash. -/
theorem C19_mode_adjustments_not_hashed (mix : Nat → Nat → Nat) (d : Decoder) (x y : FilterAdjustments) (h : x.ref = y.ref) :
    (({ d with state := { d.state with filterAdjustments := some x } } : Decoder).getHash mix).hash mix =
    (({ d with state := { d.state with filterAdjustments := some y } } : Decoder).getHash mix).hash mix := by
  unfold Decoder.getHash DecoderState.hash FilterAdjustments.hash
  simp only [Option.map_some]
  rw [h]

/-- The filter changes: `mode` is part of the state that the decoder compares and saves. -/
example : ∃ x y : FilterAdjustments, x.Ok ∧ y.Ok ∧ x.ref = y.ref ∧ x ≠ y :=
  ⟨{}, { mode := fun _ => 5 }, FilterAdjustments.default_ok, ⟨fun _ => (by decide : (-63 : Int) ≤ 0 ∧ (0 : Int) ≤ 63), fun _ => (by decide : (-63 : Int) ≤ 5 ∧ (5 : Int) ≤ 63)⟩, rfl, fun h => by
    have := congrFun (congrArg FilterAdjustments.mode h) 0
    exact absurd this (by decide)⟩

end Alfalfa
