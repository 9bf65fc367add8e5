import Verif.Model.Terminate
import Verif.Spec.Terminate
import Verif.Props.Player
import Verif.Props.Length
import Verif.Props.DecoderExamples
import Verif.Props.Packet
import Verif.Props.Render

/-! The chunk terminator (C52). -/

namespace Alfalfa

theorem parseBody_inv {H : Type} {K : FrameKind H} {st st' : DecoderState} {t : ProbabilityTables} {c : FrameParts} {h : H} {d : BoolDecoder}
    {p : ParsedFrame H} (hp : parseBody K st t c h d = (st', .ok p)) :
    applySegmentation st.width p.frame.modes st.segmentation = some (st'.segmentation, p.segmentIds) ∧ st' = { st with segmentation := st'.segmentation } := by
  unfold parseBody at hp
  cases e1 : K.parseModes h t st.width st.height d with
  | none => rw [e1] at hp; simp at hp
  | some x =>
    obtain ⟨modes, d'⟩ := x
    rw [e1] at hp
    simp only at hp
    cases e2 : applySegmentation st.width modes st.segmentation with
    | none => rw [e2] at hp; simp at hp
    | some x =>
      obtain ⟨seg, ids⟩ := x
      rw [e2] at hp
      simp only at hp
      cases e3 : dctPartitions c.rest (K.partitionCount h) with
      | error e => rw [e3] at hp; simp at hp
      | ok parts =>
        rw [e3] at hp
        simp only at hp
        cases e4 : parseFrameTokens t st.width modes parts with
        | none => rw [e4] at hp; simp at hp
        | some residues =>
          rw [e4] at hp
          simp only [Prod.mk.injEq, Except.ok.injEq] at hp
          obtain ⟨rfl, rfl⟩ := hp
          exact ⟨e2, rfl⟩

theorem sum_le_mul {l : List (List UInt8)} {c : Nat} (h : ∀ b ∈ l, b.length ≤ c) : l.flatten.length ≤ l.length * c := by
  induction l with
  | nil => simp
  | cons a l ih =>
    have h1 := h a (by simp)
    have h2 := ih fun b hb => h b (by simp [hb])
    rw [List.flatten_cons, List.length_append, List.length_cons, Nat.add_one_mul]
    omega

/-- The length of a frame whose parts fit. -/
theorem serialize_length {H : Type} {K : FrameKind H} {headerOk : H → Prop} {mbOk : H → MBContext → MBModes → Prop} (hK : K.Lawful headerOk mbOk)
    {f : Frame H} (hf : f.Ok headerOk mbOk) {t : ProbabilityTables} (hl : LengthsFit K (·.Ok headerOk mbOk) f.width f.height) {out : List UInt8}
    (h : K.serialize t f = some out) : out.length < 2 ^ 32 := by
  unfold FrameKind.serialize at h
  obtain ⟨first, h1, h⟩ := Option.bind_eq_some_iff.1 h
  obtain ⟨ps, h2, h⟩ := Option.bind_eq_some_iff.1 h
  obtain ⟨a, b⟩ := hl f _ hf rfl rfl
  have a := a first h1
  have b := b ps h2
  obtain ⟨ps', e1, e2, -, -⟩ := tokens_round_trip (K := K) hf (K.tables t f.header)
  rw [h2] at e1
  obtain rfl := Option.some.inj e1
  have hp : ps.length ≤ 8 := by
    rw [e2, FrameKind.partitionCount, Nat.one_shiftLeft]
    calc 2 ^ K.log2Partitions f.header ≤ 2 ^ 3 := Nat.pow_le_pow_right (by decide) (by have := hK.partitions _ hf.header; omega)
      _ = 8 := rfl
  have c1 := sum_le_mul (c := 2 ^ 24) (l := ps) fun x hx => Nat.le_of_lt (b x hx)
  have c2 := sum_le_mul (c := 3) (l := ps.dropLast.map fun p => lengthBytes p.length) (by
    intro x hx
    obtain ⟨p, -, rfl⟩ := List.mem_map.1 hx
    simp [lengthBytes])
  rw [List.length_map, List.length_dropLast] at c2
  unfold makeFrame at h
  split at h
  · exact nomatch h
  split at h
  · exact nomatch h
  · cases h
    simp only [List.length_append]
    have c3 : (frameTag K.key f.show' false false first.length).length = 3 := rfl
    have c4 : (if K.key = true then keyFramePrefix f.width f.height else []).length ≤ 7 := by split <;> simp [keyFramePrefix]
    have c5 : ps.length * 2 ^ 24 ≤ 8 * 2 ^ 24 := Nat.mul_le_mul_right _ hp
    omega

/-- A key frame that was read can be written again and is read back in the same way. -/
theorem rewrite_key {st st' : DecoderState} (hst : st.Ok) {c : FrameParts} {p : ParsedFrame KeyFrameHeader} (h : st.applyKey c = (st', .ok p))
    (hl : LengthsFit keyKind KeyFrameOk st.width st.height) :
    ∃ out parts, keyKind.serialize st'.tables p.frame = some out ∧ out.length < 2 ^ 32 ∧ splitFrame out st.width st.height false = .ok parts ∧
      parts.keyFrame = true ∧ st.applyKey parts = (st', .ok p) := by
  obtain ⟨hok, hw, hh⟩ : KeyFrameOk p.frame ∧ p.frame.width = st.width ∧ p.frame.height = st.height := by
    have := (C12_key_frame_total st hst c).2
    rw [h] at this
    rcases this with ⟨h4, -⟩ | h4 | h4 | ⟨q, h4, h5, h6, h7, -⟩
    · exact nomatch h4
    · exact nomatch h4
    · exact nomatch h4
    · injection h4 with h4; subst h4; exact ⟨h5, h6, h7⟩
  have hl' := fun t => hl p.frame t hok hw hh
  obtain ⟨bytes, parts, d, h1, h2, h3, -, h5, h6, h7⟩ := parse_serialized keyKind_lawful hok {} (fun b hb => (hl' _).1 b hb)
    (fun bs hbs b hb => (hl' _).2 bs hbs b (List.dropLast_subset _ hb))
  obtain ⟨d0, e1, e2⟩ := applyKey_ok h
  obtain ⟨e3, e4⟩ := parseBody_inv e2
  have hseg : ∀ s, (keyStart p.frame.header st.width st.height).segmentation = some s → s.Ok p.frame.width p.frame.height := by
    intro s hs
    have : (DecoderState.ofKeyHeader p.frame.header st.width st.height).segmentation = some s := by
      unfold keyStart at hs; split at hs <;> exact hs
    obtain ⟨u, hu, rfl⟩ := Option.map_eq_some_iff.mp this
    rw [hw, hh]
    exact Segmentation.new_ok (hok.header.updateSegmentation u hu)
  obtain ⟨seg, ids, s1, s2⟩ := h7 (keyStart p.frame.header st.width st.height) ((keyStart_dims _ _ _).1.trans hw.symm)
    ((keyStart_dims _ _ _).2.trans hh.symm) hseg
  rw [hw] at s1
  rw [(keyStart_dims _ _ _).1, s1] at e3
  simp only [Option.some.injEq, Prod.mk.injEq] at e3
  obtain ⟨rfl, rfl⟩ := e3
  rw [← e4] at s2
  have htab : keyKind.tables st'.tables p.frame.header = keyKind.tables {} p.frame.header := by
    rw [e4]
    show keyKind.tables (keyStart p.frame.header st.width st.height).tables p.frame.header = _
    unfold keyStart
    by_cases hr : p.frame.header.refreshEntropyProbs = true
    · rw [if_pos hr]; exact keyTables_idem _ _
    · rw [if_neg hr]; rfl
  rw [hw, hh] at h2
  refine ⟨bytes, parts, by rw [serialize_congr _ htab]; exact h1, serialize_length keyKind_lawful hok (by rw [hw, hh]; exact hl) h1, h2, h3, ?_⟩
  unfold DecoderState.applyKey
  rw [if_neg (by rw [h5]; decide), show parseKeyFrameHeader = keyKind.parseHeader from rfl, h6]
  exact s2

/-- The same for an inter frame, also when its header is changed in what it says about the references. -/
theorem rewrite_inter {st st' : DecoderState} (hst : st.Ok) {c : FrameParts} {p : ParsedFrame InterFrameHeader} (h : st.applyInter c = (st', .ok p))
    (hl : LengthsFit interKind InterFrameOk st.width st.height) (last : Bool) (q : ParsedFrame InterFrameHeader)
    (hq : q = if last then { p with frame := { p.frame with header := p.frame.header.terminated } } else p) :
    ∃ out parts, interKind.serialize st'.tables q.frame = some out ∧ out.length < 2 ^ 32 ∧ splitFrame out st.width st.height false = .ok parts ∧
      parts.keyFrame = false ∧ parts.experimental = false ∧ st.applyInter parts = (st', .ok q) := by
  obtain ⟨hok, hw, hh⟩ : InterFrameOk p.frame ∧ p.frame.width = st.width ∧ p.frame.height = st.height := by
    have := (C12_inter_frame_total st hst c).2
    rw [h] at this
    rcases this with h4 | h4 | ⟨q, h4, h5, h6, h7, -⟩
    · exact nomatch h4
    · exact nomatch h4
    · injection h4 with h4; subst h4; exact ⟨h5, h6, h7⟩
  have hqok : InterFrameOk q.frame := by
    cases last
    · rw [hq]; exact hok
    · rw [hq]
      have hh := hok.header
      exact { header := { hh with copyGolden := rfl, copyGoldenRange := fun _ h => (nomatch h), copyAlternate := rfl, copyAlternateRange := fun _ h => (nomatch h) }
              width := hok.width, height := hok.height, count := hok.count, countResidues := hok.countResidues
              modes := fun k m hm => by
                obtain ⟨a, b⟩ := hok.modes k m hm
                refine ⟨a, b.imp_right ?_⟩
                rintro ⟨s, hs, hi⟩
                exact ⟨s, hs, { hi with }⟩
              residues := hok.residues }
  have same : q.frame.width = p.frame.width ∧ q.frame.height = p.frame.height ∧ q.frame.modes = p.frame.modes ∧ q.segmentIds = p.segmentIds := by
    rw [hq]; cases last <;> exact ⟨rfl, rfl, rfl, rfl⟩
  have hh1 : st.applyInterHeader q.frame.header = st.applyInterHeader p.frame.header := by rw [hq]; cases last <;> rfl
  have hh2 : interKind.tables st.tables q.frame.header = interKind.tables st.tables p.frame.header := by rw [hq]; cases last <;> rfl
  obtain ⟨q1, q2, q3, q4⟩ := same
  have hl' := fun t => hl q.frame t hqok (q1.trans hw) (q2.trans hh)
  obtain ⟨bytes, parts, d, h1, h2, h3, -, h5, h6, h7⟩ := parse_serialized interKind_lawful hqok st.tables (fun b hb => (hl' _).1 b hb)
    (fun bs hbs b hb => (hl' _).2 bs hbs b (List.dropLast_subset _ hb))
  obtain ⟨d0, e1, e2⟩ := applyInter_ok h
  obtain ⟨e3, e4⟩ := parseBody_inv e2
  have hseg := (applyInterHeader_ok hst hqok.header).segmentation
  obtain ⟨seg, ids, s1, s2⟩ := h7 (st.applyInterHeader q.frame.header) (hw.symm.trans q1.symm) (hh.symm.trans q2.symm)
    (fun s hs => by rw [q1, hw, q2, hh]; exact hseg s hs)
  rw [hh1, q3, q1] at s1
  rw [show (st.applyInterHeader p.frame.header).width = p.frame.width from hw.symm, s1] at e3
  simp only [Option.some.injEq, Prod.mk.injEq] at e3
  obtain ⟨rfl, rfl⟩ := e3
  rw [hh1, ← e4, ← q4] at s2
  have htab : interKind.tables st'.tables q.frame.header = interKind.tables st.tables q.frame.header := by
    rw [e4, ← hh1]
    show interKind.tables (if q.frame.header.refreshEntropyProbs then interKind.tables st.tables q.frame.header else st.tables) q.frame.header = _
    by_cases hr : q.frame.header.refreshEntropyProbs = true
    · rw [if_pos hr]; exact interTables_idem _ _
    · rw [if_neg hr]
  rw [q1, q2, hw, hh] at h2
  refine ⟨bytes, parts, by rw [serialize_congr _ htab]; exact h1, serialize_length interKind_lawful hqok (by rw [q1, q2, hw, hh]; exact hl) h1, h2, h3, h5, ?_⟩
  unfold DecoderState.applyInter
  rw [show parseInterFrameHeader = interKind.parseHeader from rfl, h6]
  simp only
  rw [hh1]
  exact s2

theorem copyInter_terminated (r : References) (h : InterFrameHeader) (new : Raster) : r.copyInter h.terminated new = ⟨new, new, new⟩ := by
  simp [References.copyInter, InterFrameHeader.terminated]

/-- One frame through the terminator. -/
theorem terminate_step (R : Renderer) (hR : R.IgnoresDestination) {d : Decoder} (hd : d.Ok) (hk : LengthsFit keyKind KeyFrameOk d.state.width d.state.height)
    (hi : LengthsFit interKind InterFrameOk d.state.width d.state.height) (last : Bool) (bytes : List UInt8) :
    (∀ d' out, terminateFrame R d last bytes = .ok (d', out) → out.length < 2 ^ 32 ∧
      ∃ x, d.getFrameOutput R out = (d', .ok x) ∧ (last = true → d'.references = ⟨x.2, x.2, x.2⟩) ∧
        ∀ d2 y, d.getFrameOutput R bytes = (d2, .ok y) → y = x ∧ d2.state = d'.state ∧ (last = false → d2 = d')) ∧
    (∀ d2 y, d.getFrameOutput R bytes = (d2, .ok y) → ∃ d' out, terminateFrame R d last bytes = .ok (d', out)) := by
  unfold terminateFrame
  cases hs : splitFrame bytes d.state.width d.state.height false with
  | error e =>
    refine ⟨fun _ _ h => (nomatch h), fun d2 y h => ?_⟩
    unfold Decoder.getFrameOutput at h
    rw [hs] at h
    exact nomatch (congrArg Prod.snd h)
  | ok c =>
    simp only [bind, Except.bind]
    by_cases hkf : c.keyFrame = true
    · rw [if_pos hkf]
      rcases ha : d.state.applyKey c with ⟨st, e | f⟩
      · refine ⟨fun _ _ h => (nomatch h), fun d2 y h => ?_⟩
        unfold Decoder.getFrameOutput at h
        rw [hs] at h
        simp only at h
        rw [if_pos hkf, ha] at h
        exact nomatch (congrArg Prod.snd h)
      · obtain ⟨out, parts, r1, r2, r3, r4, r5⟩ := rewrite_key hd.state ha hk
        simp only [r1, pure, Except.pure]
        refine ⟨fun d' out' h => ?_, fun _ _ _ => ⟨_, _, rfl⟩⟩
        simp only [Except.ok.injEq, Prod.mk.injEq] at h
        obtain ⟨rfl, rfl⟩ := h
        refine ⟨r2, _, output_key r3 r4 r5, fun _ => rfl, fun d2 y h => ?_⟩
        rw [output_key hs hkf ha] at h
        simp only [Prod.mk.injEq, Except.ok.injEq] at h
        obtain ⟨rfl, rfl⟩ := h
        exact ⟨rfl, rfl, fun _ => rfl⟩
    · have hkf' : c.keyFrame = false := by simpa using hkf
      rw [if_neg hkf]
      rcases ha : d.state.applyInter c with ⟨st, e | f⟩
      · refine ⟨fun _ _ h => (nomatch h), fun d2 y h => ?_⟩
        unfold Decoder.getFrameOutput at h
        rw [hs] at h
        simp only at h
        rw [if_neg hkf] at h
        split at h
        · rw [ha] at h; exact nomatch (congrArg Prod.snd h)
        · exact nomatch (congrArg Prod.snd h)
      · obtain ⟨q, hq⟩ : ∃ q, q = if last = true then { f with frame := { f.frame with header := f.frame.header.terminated } } else f := ⟨_, rfl⟩
        obtain ⟨out, parts, r1, r2, r3, r4, r5, r6⟩ := rewrite_inter hd.state ha hi last q hq
        simp only [← hq, r1, pure, Except.pure]
        refine ⟨fun d' out' h => ?_, fun _ _ _ => ⟨_, _, rfl⟩⟩
        simp only [Except.ok.injEq, Prod.mk.injEq] at h
        obtain ⟨rfl, rfl⟩ := h
        refine ⟨r2, _, output_inter r3 r4 r5 r6, fun hl => ?_, fun d2 y h => ?_⟩
        · rw [if_pos hl] at hq
          rw [hq]
          exact copyInter_terminated _ _ _
        · by_cases hx : c.experimental = true
          · unfold Decoder.getFrameOutput at h
            rw [hs] at h
            simp only at h
            rw [if_neg hkf, if_neg (by rw [hx]; decide)] at h
            exact nomatch (congrArg Prod.snd h)
          · rw [output_inter hs hkf' (by simpa using hx) ha] at h
            simp only [Prod.mk.injEq, Except.ok.injEq] at h
            obtain ⟨rfl, rfl⟩ := h
            refine ⟨?_, rfl, fun hl => ?_⟩
            · rw [hq]
              cases last
              · rfl
              · have e := hR st.segmentation st.filterAdjustments d.references f true true true none none
                simp only [if_true, InterFrameHeader.terminated, e]
            · rw [hl] at hq
              rw [hq]
              rfl

/-- All frames were decoded. -/
def AllDecoded (outs : List (Except FrameError (Bool × Raster))) : Prop := ∀ o ∈ outs, ∃ x, o = .ok x

theorem run_fst (R : Renderer) (d : Decoder) (f : List UInt8) (rest : List (List UInt8)) :
    (d.run R (f :: rest)).1 = ((d.getFrameOutput R f).1.run R rest).1 := rfl

/-- The loop, from frame `i` on. -/
theorem terminateLoop_spec (R : Renderer) (hR : R.Ok) (hD : R.IgnoresDestination) (ivf : IVF) {info : IvfInfo} (hf : info.fourcc.length = 4)
    (rem : List (List UInt8)) : ∀ (i : Nat) (d : Decoder) (w : IVFWriter) (done : List (List UInt8)), d.Ok →
    LengthsFit keyKind KeyFrameOk d.state.width d.state.height → LengthsFit interKind InterFrameOk d.state.width d.state.height →
    w.Wrote info done → done.length + rem.length < 2 ^ 32 → ivf.frameCount = i + rem.length →
    (∀ k (hk : k < rem.length), ivf.frame (i + k) = .ok rem[k]) →
    (∀ d' w', terminateLoop R ivf rem.length i d w = .ok (d', w') → ∃ outs, outs.length = rem.length ∧ (∀ o ∈ outs, o.length < 2 ^ 32) ∧
      w'.Wrote info (done ++ outs) ∧ (d.run R outs).1 = d' ∧ AllDecoded (d.run R outs).2 ∧ (rem ≠ [] → d'.references.Converged) ∧
      (AllDecoded (d.run R rem).2 → (d.run R outs).2 = (d.run R rem).2 ∧ d'.state = (d.run R rem).1.state)) ∧
    (AllDecoded (d.run R rem).2 → ∃ d' w', terminateLoop R ivf rem.length i d w = .ok (d', w')) := by
  induction rem with
  | nil =>
    intro i d w done _ _ _ hw _ _ _
    refine ⟨fun d' w' h => ?_, fun _ => ⟨d, w, rfl⟩⟩
    simp only [List.length_nil, terminateLoop, Except.ok.injEq, Prod.mk.injEq] at h
    obtain ⟨rfl, rfl⟩ := h
    exact ⟨[], rfl, by simp, by simpa using hw, rfl, fun o ho => absurd ho (by simp [Decoder.run]), fun h => absurd rfl h, fun _ => ⟨rfl, rfl⟩⟩
  | cons f rest ih =>
    intro i d w done hd hk hi hw hn hc hfr
    have h0 := hfr 0 (by simp)
    rw [Nat.add_zero, List.getElem_cons_zero] at h0
    have hfr' : ∀ k (hk : k < rest.length), ivf.frame (i + 1 + k) = .ok rest[k] := fun k hk => by
      have := hfr (k + 1) (by simpa using hk)
      rw [List.getElem_cons_succ] at this
      rw [← this]
      congr 1
      omega
    rw [List.length_cons] at hn hc
    have hlast : (i == ivf.frameCount - 1) = decide (rest = []) := by
      rw [hc]
      cases rest <;> simp
    obtain ⟨s1, s2⟩ := terminate_step R hD hd hk hi (i == ivf.frameCount - 1) f
    -- the decoder after a frame
    have next : ∀ (d' : Decoder) (b : List UInt8) x, d.getFrameOutput R b = (d', .ok x) → d'.Ok ∧ d'.state.width = d.state.width ∧ d'.state.height = d.state.height := by
      intro d' b x e
      have := C18_rejected_frame_leaves_usable R hR d hd b
      rw [e] at this
      exact ⟨this.1, this.2.1, this.2.2.1⟩
    have after : ∀ d1 out (w1 : IVFWriter), terminateFrame R d (i == ivf.frameCount - 1) f = .ok (d1, out) → d1.Ok ∧
        LengthsFit keyKind KeyFrameOk d1.state.width d1.state.height ∧ LengthsFit interKind InterFrameOk d1.state.width d1.state.height := by
      intro d1 out w1 e
      obtain ⟨-, x, e1, -⟩ := s1 d1 out e
      obtain ⟨n1, n2, n3⟩ := next d1 out x e1
      exact ⟨n1, by rw [n2, n3]; exact hk, by rw [n2, n3]; exact hi⟩
    have go := fun d1 out w1 ht hw1 => ih (i + 1) d1 w1 (done ++ [out]) (after d1 out w1 ht).1 (after d1 out w1 ht).2.1 (after d1 out w1 ht).2.2 hw1
      (by rw [List.length_append, List.length_singleton]; omega) (by omega) hfr'
    refine ⟨fun d' w' h => ?_, fun ha => ?_⟩
    · rw [List.length_cons] at h
      unfold terminateLoop at h
      rw [h0] at h
      simp only [bind, Except.bind] at h
      cases ht : terminateFrame R d (i == ivf.frameCount - 1) f with
      | error e => rw [ht] at h; exact nomatch h
      | ok p =>
        obtain ⟨d1, out⟩ := p
        obtain ⟨w1, e2, hw1⟩ := hw.append hf (by omega) out
        rw [ht] at h
        simp only [e2] at h
        obtain ⟨l1, x, l2, l3, l4⟩ := s1 d1 out ht
        obtain ⟨outs, o1, o2, o3, o4, o5, o6, o7⟩ := (go d1 out w1 ht hw1).1 d' w' h
        refine ⟨out :: outs, by rw [List.length_cons, o1, List.length_cons], ?_, by simpa using o3, ?_, ?_, fun _ => ?_, fun ha => ?_⟩
        · intro o ho
          rcases List.mem_cons.1 ho with rfl | ho
          · exact l1
          · exact o2 o ho
        · rw [run_fst, l2]; exact o4
        · rw [run_cons, l2]
          intro o ho
          rcases List.mem_cons.1 ho with rfl | ho
          · exact ⟨_, rfl⟩
          · exact o5 o ho
        · by_cases hr : rest = []
          · subst hr
            have := l3 (by rw [hlast]; rfl)
            simp only [List.length_nil, terminateLoop, Except.ok.injEq, Prod.mk.injEq] at h
            rw [← h.1, this]
            exact ⟨rfl, rfl⟩
          · exact o6 hr
        · rw [run_cons] at ha
          obtain ⟨y, hy⟩ := ha (d.getFrameOutput R f).2 (by simp)
          obtain ⟨d2, hd2⟩ : ∃ d2, d.getFrameOutput R f = (d2, .ok y) := ⟨_, Prod.ext rfl hy⟩
          obtain ⟨rfl, l5, l6⟩ := l4 d2 y hd2
          rw [run_cons, run_fst, run_cons, l2, hd2]
          by_cases hr : rest = []
          · subst hr
            have : outs = [] := List.length_eq_zero_iff.1 o1
            subst this
            simp only [List.length_nil, terminateLoop, Except.ok.injEq, Prod.mk.injEq] at h
            exact ⟨rfl, by rw [← h.1]; exact l5.symm⟩
          · obtain rfl := l6 (by rw [hlast]; exact decide_eq_false hr)
            rw [hd2] at ha
            obtain ⟨o8, o9⟩ := o7 fun o ho => ha o (by simp [ho])
            exact ⟨by rw [o8], o9⟩
    · rw [run_cons] at ha
      obtain ⟨y, hy⟩ := ha (d.getFrameOutput R f).2 (by simp)
      obtain ⟨d2, hd2⟩ : ∃ d2, d.getFrameOutput R f = (d2, .ok y) := ⟨_, Prod.ext rfl hy⟩
      obtain ⟨d1, out, ht⟩ := s2 d2 y hd2
      obtain ⟨w1, e2, hw1⟩ := hw.append hf (by omega) out
      obtain ⟨-, x, -, -, l4⟩ := s1 d1 out ht
      obtain ⟨-, -, l6⟩ := l4 d2 y hd2
      have := (go d1 out w1 ht hw1).2
      rw [List.length_cons]
      unfold terminateLoop
      rw [h0]
      simp only [bind, Except.bind, ht, e2]
      by_cases hr : rest = []
      · subst hr; exact ⟨d1, w1, rfl⟩
      · obtain rfl := l6 (by rw [hlast]; exact decide_eq_false hr)
        refine this fun o ho => ha o ?_
        rw [hd2]
        simp [ho]

theorem codeRenderer_ignores : codeRenderer.IgnoresDestination := fun _ _ _ _ _ _ _ _ _ => rfl

/-- The program as its loop. -/
theorem xcTerminateChunk_eq (R : Renderer) (mix : Nat → Nat → Nat) (fresh : References) {bytes : List UInt8} {ivf : IVF} (ho : IVF.open bytes = .ok ivf)
    {info : IvfInfo} {frames : List (List UInt8)} (hi : ivf.Holds info frames) {w : IVFWriter}
    (hw : IVFWriter.create info.fourcc info.width info.height info.frameRate info.timeScale = .ok w) :
    xcTerminateChunk R mix fresh bytes = if (Decoder.new fresh info.width info.height).minihashMatch mix info.expectedMinihash = false then .error .invalid
      else (terminateLoop R ivf frames.length 0 (Decoder.new fresh info.width info.height) w).map fun x => (x.2.file, saveDecoder x.1) := by
  unfold xcTerminateChunk
  simp only [ho, bind, Except.bind, hi.fourcc, hi.width, hi.height, hi.frameRate, hi.timeScale, hw, hi.expectedMinihash, hi.frameCount]
  split
  · rfl
  · simp only [pure, Except.pure]
    cases terminateLoop R ivf frames.length 0 (Decoder.new fresh info.width info.height) w <;> rfl

/-- **C52.** Whenever the terminator accepts a file, it writes a file with as many frames, which a new decoder can decode; after that the three
reference pictures of the decoder are the same, and the state that was saved is that decoder, nothing lost.  The lengths fit
in every picture of up to 1200 macroblocks (`C68_lengths_fit`). -/
theorem C52_terminated_chunk (R : Renderer) (hR : R.Ok) (hD : R.IgnoresDestination) (mix : Nat → Nat → Nat) (picture : Raster) (bytes : List UInt8)
    (ivf : IVF) (ho : IVF.open bytes = .ok ivf) (info : IvfInfo) (hf : info.Fits) (frames : List (List UInt8)) (hi : ivf.Holds info frames)
    (hw : 0 < info.width ∧ info.width < 2 ^ 14) (hh : 0 < info.height ∧ info.height < 2 ^ 14) (hp : picture.Ok info.width info.height)
    (hl : LengthsFit keyKind KeyFrameOk info.width info.height ∧ LengthsFit interKind InterFrameOk info.width info.height) (out state : List UInt8)
    (h : xcTerminateChunk R mix ⟨picture, picture, picture⟩ bytes = .ok (out, state)) :
    ∃ ivf' frames', IVF.open out = .ok ivf' ∧ ivf'.Holds { info with expectedMinihash := 0 } frames' ∧ frames'.length = frames.length ∧
      AllDecoded ((Decoder.new ⟨picture, picture, picture⟩ info.width info.height).run R frames').2 ∧
      ((Decoder.new ⟨picture, picture, picture⟩ info.width info.height).run R frames').1.references.Converged ∧
      ∀ blank, loadDecoder blank state = some ((Decoder.new ⟨picture, picture, picture⟩ info.width info.height).run R frames').1 := by
  obtain ⟨w, hc, hw0⟩ := create_wrote info.fourcc info.width info.height info.frameRate info.timeScale hf.fourcc
  rw [xcTerminateChunk_eq R mix _ ho hi hc] at h
  split at h
  · exact nomatch h
  have hn : frames.length < 2 ^ 32 := by
    rw [← hi.frameCount, (open_inv ho).2.2.1]
    exact (leValue_lt _).trans_le (Nat.pow_le_pow_right (by decide) (List.length_take_le _ _) |>.trans_eq rfl)
  obtain ⟨l1, l2⟩ := hl
  have hd : (Decoder.new ⟨picture, picture, picture⟩ info.width info.height).Ok :=
    ⟨⟨hw, hh, fun _ h => (nomatch h), fun _ h => (nomatch h)⟩, ⟨hp, hp, hp⟩⟩
  have spec := (terminateLoop_spec R hR hD ivf (info := ⟨info.fourcc, info.width, info.height, info.frameRate, info.timeScale, 0⟩) hf.fourcc frames 0
    (Decoder.new ⟨picture, picture, picture⟩ info.width info.height) w [] hd l1 l2 hw0 (by simpa using hn) (by rw [hi.frameCount, Nat.zero_add])
    (fun k hk => by rw [Nat.zero_add]; exact hi.contents k hk)).1
  cases ht : terminateLoop R ivf frames.length 0 (Decoder.new ⟨picture, picture, picture⟩ info.width info.height) w with
  | error e => rw [ht] at h; exact nomatch h
  | ok p =>
    obtain ⟨d', w'⟩ := p
    rw [ht] at h
    simp only [Except.map, Except.ok.injEq, Prod.mk.injEq] at h
    obtain ⟨rfl, rfl⟩ := h
    obtain ⟨outs, o1, o2, o3, o4, o5, o6, -⟩ := spec d' w' ht
    obtain ⟨ivf', i1, i2⟩ := C33_reads_layout { info with expectedMinihash := 0 } { hf with expectedMinihash := (by decide : 0 < 2 ^ 32) } outs
      (by rw [o1]; exact hn) o2 []
    have conv : d'.references.Converged := by
      by_cases hz : frames = []
      · subst hz
        have : outs = [] := List.length_eq_zero_iff.1 o1
        subst this
        rw [← o4]
        exact ⟨rfl, rfl⟩
      · exact o6 hz
    have hd' : d'.Ok := by rw [← o4]; exact (C18_any_history R hR outs _ hd).1
    refine ⟨ivf', outs, ?_, i2, o1, o5, by rw [o4]; exact conv, fun blank => ?_⟩
    · rw [o3.file, ← i1, List.nil_append, List.append_nil]
    · rw [o4]
      exact (C16_restores_exactly_iff _ hd' blank).2 conv

/-- **C52, nothing else changes.** A file of which a new decoder can decode every frame is accepted, and what is written shows the same pictures and leads to the same
state, apart from the reference pictures. -/
theorem C52_same_pictures (R : Renderer) (hR : R.Ok) (hD : R.IgnoresDestination) (mix : Nat → Nat → Nat) (picture : Raster) (bytes : List UInt8)
    (ivf : IVF) (ho : IVF.open bytes = .ok ivf) (info : IvfInfo) (hf : info.Fits) (frames : List (List UInt8)) (hi : ivf.Holds info frames)
    (hw : 0 < info.width ∧ info.width < 2 ^ 14) (hh : 0 < info.height ∧ info.height < 2 ^ 14) (hp : picture.Ok info.width info.height)
    (hl : LengthsFit keyKind KeyFrameOk info.width info.height ∧ LengthsFit interKind InterFrameOk info.width info.height)
    (hm : info.expectedMinihash = 0 ∨ info.expectedMinihash = (Decoder.new ⟨picture, picture, picture⟩ info.width info.height).minihash mix)
    (ha : AllDecoded ((Decoder.new ⟨picture, picture, picture⟩ info.width info.height).run R frames).2) :
    ∃ out state ivf' frames', xcTerminateChunk R mix ⟨picture, picture, picture⟩ bytes = .ok (out, state) ∧
      IVF.open out = .ok ivf' ∧ ivf'.Holds { info with expectedMinihash := 0 } frames' ∧
      ((Decoder.new ⟨picture, picture, picture⟩ info.width info.height).run R frames').2 =
        ((Decoder.new ⟨picture, picture, picture⟩ info.width info.height).run R frames).2 ∧
      ((Decoder.new ⟨picture, picture, picture⟩ info.width info.height).run R frames').1.state =
        ((Decoder.new ⟨picture, picture, picture⟩ info.width info.height).run R frames).1.state := by
  obtain ⟨w, hc, hw0⟩ := create_wrote info.fourcc info.width info.height info.frameRate info.timeScale hf.fourcc
  rw [xcTerminateChunk_eq R mix _ ho hi hc]
  have hmm : ¬ (Decoder.new ⟨picture, picture, picture⟩ info.width info.height).minihashMatch mix info.expectedMinihash = false := by
    rcases hm with e | e
    · simp [Decoder.minihashMatch, e]
    · unfold Decoder.minihashMatch
      split
      · decide
      · rw [e]; simp
  rw [if_neg hmm]
  have hn : frames.length < 2 ^ 32 := by
    rw [← hi.frameCount, (open_inv ho).2.2.1]
    exact (leValue_lt _).trans_le (Nat.pow_le_pow_right (by decide) (List.length_take_le _ _) |>.trans_eq rfl)
  obtain ⟨l1, l2⟩ := hl
  have hd : (Decoder.new ⟨picture, picture, picture⟩ info.width info.height).Ok :=
    ⟨⟨hw, hh, fun _ h => (nomatch h), fun _ h => (nomatch h)⟩, ⟨hp, hp, hp⟩⟩
  obtain ⟨spec, acc⟩ := terminateLoop_spec R hR hD ivf (info := ⟨info.fourcc, info.width, info.height, info.frameRate, info.timeScale, 0⟩) hf.fourcc frames 0
    (Decoder.new ⟨picture, picture, picture⟩ info.width info.height) w [] hd l1 l2 hw0 (by simpa using hn) (by rw [hi.frameCount, Nat.zero_add])
    (fun k hk => by rw [Nat.zero_add]; exact hi.contents k hk)
  obtain ⟨d', w', ht⟩ := acc ha
  obtain ⟨outs, o1, o2, o3, o4, o5, o6, o7⟩ := spec d' w' ht
  obtain ⟨o8, o9⟩ := o7 ha
  obtain ⟨ivf', i1, i2⟩ := C33_reads_layout { info with expectedMinihash := 0 } { hf with expectedMinihash := (by decide : 0 < 2 ^ 32) } outs
    (by rw [o1]; exact hn) o2 []
  rw [ht]
  refine ⟨w'.file, saveDecoder d', ivf', outs, rfl, ?_, i2, o8, by rw [o4, o9]⟩
  rw [o3.file, ← i1, List.nil_append, List.append_nil]

/-- A file to which both theorems apply, with the pictures that the code makes: a key frame, and an inter frame that does not refresh
the golden picture. -/
example : ∃ (bytes : List UInt8) (out state : List UInt8) (picture : Raster) (info : IvfInfo) (frames : List (List UInt8)) (ivf : IVF),
    IVF.open bytes = .ok ivf ∧ ivf.Holds info frames ∧ frames.length = 2 ∧
    xcTerminateChunk codeRenderer (fun _ _ => 0) ⟨picture, picture, picture⟩ bytes = .ok (out, state) ∧
    ∃ ivf' frames', IVF.open out = .ok ivf' ∧ ivf'.Holds info frames' ∧ frames'.length = 2 ∧
      ((Decoder.new ⟨picture, picture, picture⟩ info.width info.height).run codeRenderer frames').1.references.Converged := by
  let e : Encoder := ⟨{ width := 17, height := 20 }, ⟨blankRaster 17 20, blankRaster 17 20, blankRaster 17 20⟩⟩
  obtain ⟨l1, l2⟩ := C68_lengths_fit (width := 17) (height := 20) (by decide)
  have hk : KeyEmittable e exampleKeyFrame2 := ⟨exampleKeyFrame2_ok, rfl, rfl, rfl, (l1 _ _ exampleKeyFrame2_ok rfl rfl).1,
    fun bs hbs b hb => (l1 _ _ exampleKeyFrame2_ok rfl rfl).2 bs hbs b (List.dropLast_subset _ hb)⟩
  obtain ⟨e1, b1, k1, k2, k3, k4, -⟩ := key_step codeRenderer e exampleKeyFrame2 hk
  have hw1 : e1.state.width = 17 := by rw [k4]; exact (keyStart_dims _ _ _).1
  have hh1 : e1.state.height = 20 := by rw [k4]; exact (keyStart_dims _ _ _).2
  have hi : InterEmittable e1 exampleInterFrame2 := ⟨exampleInterFrame2_ok, hw1.symm, hh1.symm, rfl, (l2 _ _ exampleInterFrame2_ok rfl rfl).1,
    fun bs hbs b hb => (l2 _ _ exampleInterFrame2_ok rfl rfl).2 bs hbs b (List.dropLast_subset _ hb)⟩
  obtain ⟨e2, b2, new, i1, i2, i3, i4, i5, -⟩ := inter_step codeRenderer e1 exampleInterFrame2 hi k3
  have n1 : b1.length < 2 ^ 32 := by
    unfold Encoder.writeKey at k1
    obtain ⟨x, hx, h⟩ := Option.bind_eq_some_iff.mp k1
    cases h
    exact serialize_length keyKind_lawful exampleKeyFrame2_ok l1 hx
  have n2 : b2.length < 2 ^ 32 := by
    unfold Encoder.writeInter at i1
    obtain ⟨x, hx, h⟩ := Option.bind_eq_some_iff.mp i1
    cases h
    exact serialize_length interKind_lawful exampleInterFrame2_ok l2 hx
  let info : IvfInfo := { fourcc := [0x56, 0x50, 0x38, 0x30], width := 17, height := 20, frameRate := 24, timeScale := 1, expectedMinihash := 0 }
  have hfits : info.Fits := ⟨rfl, by decide, by decide, by decide, by decide, by decide⟩
  obtain ⟨ivf, o1, o2⟩ := C33_reads_layout info hfits [b1, b2] (show 2 < 2 ^ 32 by decide)
    (fun f hf => by rcases List.mem_cons.1 hf with rfl | hf; exacts [n1, by rw [List.mem_singleton.1 hf]; exact n2]) []
  have hrun : (Decoder.new ⟨blankRaster 17 20, blankRaster 17 20, blankRaster 17 20⟩ info.width info.height).run codeRenderer [b1, b2] =
      (e2.exportDecoder, [.ok (true, e1.references.last), .ok (false, new)]) := by
    have k2' : (Decoder.new ⟨blankRaster 17 20, blankRaster 17 20, blankRaster 17 20⟩ info.width info.height).getFrameOutput codeRenderer b1 = _ := k2
    simp only [Decoder.run, k2', i2]
    rfl
  obtain ⟨out, state, ivf', frames', r1, r2, r3, r4, r5⟩ := C52_same_pictures codeRenderer C63_renderer codeRenderer_ignores (fun _ _ => 0)
    (blankRaster 17 20) _ ivf o1 info hfits [b1, b2] o2 (by decide) (by decide) (blank_ok 17 20) ⟨l1, l2⟩ (.inl rfl)
    (by rw [hrun]; intro o ho; simp at ho; rcases ho with rfl | rfl <;> exact ⟨_, rfl⟩)
  obtain ⟨ivf'', frames'', s1, s2, s3, s4, s5, s6⟩ := C52_terminated_chunk codeRenderer C63_renderer codeRenderer_ignores (fun _ _ => 0)
    (blankRaster 17 20) _ ivf o1 info hfits [b1, b2] o2 (by decide) (by decide) (blank_ok 17 20) ⟨l1, l2⟩ out state r1
  refine ⟨_, out, state, blankRaster 17 20, info, [b1, b2], ivf, o1, o2, rfl, r1, ivf'', frames'', s1, s2, s3, s5⟩

end Alfalfa
