import Verif.Proof.Parametric
import Verif.Model.Conceal
import Verif.Props.Frame

/-! Lemmas about decoding with error concealment: data are never found missing, and missing data are read as zeros. -/

namespace Alfalfa

/-! ### Data are never found missing -/

/-- A decoder that will not find its data missing. -/
def Lasting (d : BoolDecoder) : Prop := d.valid = true ∧ d.completeChunk = true

theorem lasting_load {d : BoolDecoder} (h : Lasting d) : Lasting d.loadOctet := by
  obtain ⟨h1, h2⟩ := h
  unfold BoolDecoder.loadOctet
  split
  · exact ⟨h1, h2⟩
  · rw [if_pos h2]; exact ⟨h1, h2⟩

theorem lasting_init (c : List UInt8) : Lasting (BoolDecoder.init c true) := by
  unfold BoolDecoder.init
  simp only
  apply lasting_load
  have h : Lasting (BoolDecoder.loadOctet { chunk := c, completeChunk := true }) := lasting_load ⟨rfl, rfl⟩
  exact ⟨h.1, h.2⟩

theorem lasting_shift {d : BoolDecoder} (h : Lasting d) : Lasting d.shiftOnce := by
  unfold BoolDecoder.shiftOnce
  simp only
  split
  · exact lasting_load ⟨h.1, h.2⟩
  · exact ⟨h.1, h.2⟩

theorem lasting_renorm : ∀ (n : Nat) {d : BoolDecoder}, Lasting d → Lasting (d.renorm n)
  | 0, _, h => h
  | n + 1, d, h => by
    unfold BoolDecoder.renorm
    split
    · exact lasting_renorm n (lasting_shift h)
    · exact h

theorem lasting_get {d : BoolDecoder} (h : Lasting d) (p : Prob) : Lasting (d.get p).2 := by
  unfold BoolDecoder.get
  simp only
  split
  · exact lasting_renorm 8 ⟨h.1, h.2⟩
  · exact lasting_renorm 8 ⟨h.1, h.2⟩

theorem bisim_lasting : Bisim fun d d' => d = d' ∧ Lasting d := fun d d' p h => by
  obtain ⟨rfl, h⟩ := h
  exact ⟨rfl, rfl, lasting_get h p⟩

theorem Parametric.lasting {α : Type} {p : Parser α} (h : Parametric p) {d : BoolDecoder} (hd : Lasting d) {a : α} {d' : BoolDecoder} (e : p d = some (a, d')) :
    Lasting d' := by
  rcases h _ bisim_lasting d d ⟨rfl, hd⟩ with ⟨h1, -⟩ | ⟨b, e1, e2, h1, -, -, h3⟩
  · rw [e] at h1; exact nomatch h1
  · rw [e] at h1
    injection h1 with h1
    injection h1 with _ h1
    rw [h1]; exact h3

/-- The two parsers do the same with decoders that do not find their data missing. -/
def Agree {α : Type} (p q : Parser α) : Prop := ∀ d, Lasting d → p d = q d

theorem Agree.refl {α : Type} (p : Parser α) : Agree p p := fun _ _ => rfl

theorem Agree.bind {α β : Type} {p q : Parser α} {f g : α → Parser β} (h : Agree p q) (hq : Parametric q) (hf : ∀ x, Agree (f x) (g x)) :
    Agree (p >>= f) (q >>= g) := by
  intro d hd
  show (p d >>= fun x => f x.1 x.2) = (q d >>= fun x => g x.1 x.2)
  rw [h d hd]
  rcases e : q d with _ | ⟨a, d'⟩
  · rfl
  · exact hf a d' (hq.lasting hd e)

theorem missing_bind {α : Type} {conceal : Bool} {f : Bool → Parser α} {d : BoolDecoder} (h : conceal = false ∨ Lasting d) :
    (missing conceal >>= f) d = f false d := by
  show (missing conceal d >>= fun x => f x.1 x.2) = _
  unfold missing
  have : (conceal && !d.valid) = false := by
    rcases h with h | h
    · rw [h]; rfl
    · rw [h.1]; cases conceal <;> rfl
  rw [this]; rfl

theorem agree_orZero {α : Type} (conceal : Bool) (p : Parser α) : Agree (orZero conceal p) p := fun _ hd => by
  unfold orZero
  rw [missing_bind (.inr hd)]; rfl

theorem parseInterMB_eq (h : InterFrameHeader) (t : ProbabilityTables) (c : MBContext) : parseInterMB h t c = (do
    let segmentIdUpdate ← parseSegmentId h.updateSegmentation
    let skip ← parseSkip h.probSkipFalse
    let (isInter, sel1, sel2, flipped) ← (do
      let isInter ← getBit (UInt8.ofNat h.probInter)
      let sel1 ← parseOptional isInter (getBit (UInt8.ofNat h.probReferencesLast))
      let sel2 ← parseOptional (sel1.getD false) (getBit (UInt8.ofNat h.probReferencesGolden))
      pure (isInter, sel1, sel2, flippedOf h isInter sel1 sel2))
    readModes t c { segmentIdUpdate, skip, isInter, sel1, sel2, flipped }) := by
  unfold parseInterMB
  simp only [bind_assoc, pure_bind]

theorem agree_interMB (conceal : Bool) (h : InterFrameHeader) (t : ProbabilityTables) (c : MBContext) :
    Agree (parseInterMBConcealing conceal h t c) (parseInterMB h t c) := by
  rw [parseInterMB_eq]
  refine .bind (agree_orZero _ _) (.segmentId _) fun _ => .bind (agree_orZero _ _) (.skip _) fun _ => .bind ?_ ?_ fun x => ?_
  · intro d hd
    unfold parseInterMBHeader
    rw [missing_bind (.inr hd)]; rfl
  · exact .bind (.getBit _) fun _ => .bind (.optional (.getBit _)) fun _ => .bind (.optional (.getBit _)) fun _ => .pure _
  · intro d hd
    obtain ⟨x1, x2, x3, x4⟩ := x
    dsimp only
    unfold readModesConcealing
    rw [missing_bind (.inr hd)]; rfl

theorem agree_mbs {p q : MBContext → Parser MBModes} (h : ∀ c, Agree (p c) (q c)) (hq : ∀ c, Parametric (q c)) (w ht : Nat) :
    ∀ n cells, Agree (parseMBs p w ht n cells) (parseMBs q w ht n cells)
  | 0, _ => .refl _
  | n + 1, _ => .bind (h _) (hq _) fun _ => agree_mbs h hq w ht n _

theorem concealing_off : interKindConcealing false = interKind := by
  unfold interKindConcealing
  have : parseInterMBConcealing false = parseInterMB := by
    funext h t c
    rw [parseInterMB_eq]
    have z : ∀ {α : Type} (p : Parser α), orZero false p = p := fun p => by
      funext d; unfold orZero; rw [missing_bind (.inl rfl)]; rfl
    unfold parseInterMBConcealing
    rw [z, z]
    refine congrArg _ (funext fun _ => congrArg _ (funext fun _ => ?_))
    have e : parseInterMBHeader false h = (do
        let isInter ← getBit (UInt8.ofNat h.probInter)
        let sel1 ← parseOptional isInter (getBit (UInt8.ofNat h.probReferencesLast))
        let sel2 ← parseOptional (sel1.getD false) (getBit (UInt8.ofNat h.probReferencesGolden))
        pure (isInter, sel1, sel2, flippedOf h isInter sel1 sel2)) := by
      funext d
      unfold parseInterMBHeader
      rw [missing_bind (.inl rfl)]
      rfl
    rw [e]
    refine congrArg _ (funext fun x => ?_)
    obtain ⟨x1, x2, x3, x4⟩ := x
    funext d
    dsimp only
    unfold readModesConcealing
    rw [missing_bind (.inl rfl)]; rfl
  rw [this]
  rfl

theorem parseBody_congr {H : Type} {K K' : FrameKind H} (hK : K.log2Partitions = K'.log2Partitions) {st : DecoderState} {t : ProbabilityTables}
    {c : FrameParts} {h : H} {d d' : BoolDecoder}
    (hm : (K.parseModes h t st.width st.height d).map (·.1) = (K'.parseModes h t st.width st.height d').map (·.1)) :
    parseBody K st t c h d = parseBody K' st t c h d' := by
  have hp : K.partitionCount h = K'.partitionCount h := by unfold FrameKind.partitionCount; rw [hK]
  unfold parseBody
  rw [hp]
  rcases e : K.parseModes h t st.width st.height d with _ | ⟨m, x⟩ <;> rcases e' : K'.parseModes h t st.width st.height d' with _ | ⟨m', x'⟩
  · rfl
  · rw [e, e'] at hm; exact nomatch hm
  · rw [e, e'] at hm; exact nomatch hm
  · rw [e, e'] at hm
    injection hm with hm
    have hm : m = m' := hm
    subst hm
    rfl

theorem parseModes_follows {H : Type} {K : FrameKind H} (hK : ∀ h t c, Parametric (K.parseMB h t c)) {R : BoolDecoder → BoolDecoder → Prop} (hR : Bisim R)
    {h : H} {t : ProbabilityTables} {w ht : Nat} {d d' : BoolDecoder} (hd : R d d') :
    (K.parseModes h t w ht d).map (·.1) = (K.parseModes h t w ht d').map (·.1) := by
  unfold FrameKind.parseModes
  rcases Parametric.mbs (hK h t) (macroblockDimension w) (macroblockDimension ht) (macroblockDimension w * macroblockDimension ht) [] R hR d d' hd with
    ⟨h1, h2⟩ | ⟨a, e, e', h1, h2, -⟩
  · rw [h1, h2]
  · rw [h1, h2]; rfl

theorem parametric_key (h : KeyFrameHeader) (t : ProbabilityTables) (c : MBContext) : Parametric (keyKind.parseMB h t c) := Parametric.keyMB h c
theorem parametric_inter (h : InterFrameHeader) (t : ProbabilityTables) (c : MBContext) : Parametric (interKind.parseMB h t c) := Parametric.interMB h t c

/-- Whatever the level of corruption, a key frame is parsed as if it were whole. -/
theorem applyKeyConcealing_eq (st : DecoderState) (c : FrameParts) : st.applyKeyConcealing c = st.applyKey c := by
  unfold DecoderState.applyKeyConcealing DecoderState.applyKey
  split
  · rfl
  · rcases Parametric.keyHeader SameReader bisim_same _ _ (sameReader_init c.firstPartition c.corruption.beyondResidues false) with
      ⟨h1, h2⟩ | ⟨a, e, e', h1, h2, h3⟩
    · rw [h1, h2]
    · rw [h1, h2]
      exact parseBody_congr rfl (parseModes_follows parametric_key bisim_same h3)

/-- Whatever the level of corruption, an inter frame is parsed as if it were whole. -/
theorem applyInterConcealing_eq (st : DecoderState) (c : FrameParts) : st.applyInterConcealing c = st.applyInter c := by
  unfold DecoderState.applyInterConcealing DecoderState.applyInter
  rcases Parametric.interHeader SameReader bisim_same _ _ (sameReader_init c.firstPartition c.corruption.beyondResidues false) with
    ⟨h1, h2⟩ | ⟨a, e, e', h1, h2, h3⟩
  · rw [h1, h2]
  · rw [h1, h2]
    dsimp only
    refine parseBody_congr (K := interKindConcealing c.corruption.beyondResidues) (K' := interKind) rfl ?_
    rw [← parseModes_follows parametric_inter bisim_same h3]
    cases hb : c.corruption.beyondResidues with
    | false => rw [concealing_off]
    | true =>
      rw [hb] at h1
      have hl := Parametric.interHeader.lasting (lasting_init c.firstPartition) h1
      unfold FrameKind.parseModes
      have := agree_mbs (agree_interMB true a (interKind.tables st.tables a)) (Parametric.interMB a (interKind.tables st.tables a))
        (macroblockDimension (st.applyInterHeader a).width) (macroblockDimension (st.applyInterHeader a).height)
        (macroblockDimension (st.applyInterHeader a).width * macroblockDimension (st.applyInterHeader a).height) [] e hl
      exact congrArg _ this

/-! ### Missing data are zeros -/

theorem padRel_complete (c : List UInt8) (m : Nat) : ∃ d d', SameReader (BoolDecoder.init c false) d ∧ PadRel d d' ∧
    SameReader d' (BoolDecoder.init (c ++ List.replicate m 0) false) :=
  ⟨_, _, sameReader_init c false true, padRel_init c m, sameReader_init _ true false⟩

/-- The decoders of some bytes and of the same bytes with zeros after them. -/
def Padded (d d' : BoolDecoder) : Prop := ∃ e e', SameReader d e ∧ PadRel e e' ∧ SameReader e' d'

theorem bisim_padded : Bisim Padded := fun d d' p h => by
  obtain ⟨e, e', h1, h2, h3⟩ := h
  obtain ⟨a1, b1⟩ := bisim_same d e p h1
  obtain ⟨a2, b2⟩ := bisim_pad e e' p h2
  obtain ⟨a3, b3⟩ := bisim_same e' d' p h3
  exact ⟨a1.trans (a2.trans a3), _, _, b1, b2, b3⟩

theorem padded_init (c : List UInt8) (m : Nat) : Padded (BoolDecoder.init c false) (BoolDecoder.init (c ++ List.replicate m 0) false) := padRel_complete c m

theorem parseFrameTokens_pad (t : ProbabilityTables) (width : Nat) (modes : List MBModes) (ps : List (List UInt8)) (p : List UInt8) (m : Nat) :
    parseFrameTokens t width modes (ps ++ [p ++ List.replicate m 0]) = parseFrameTokens t width modes (ps ++ [p]) := by
  unfold parseFrameTokens
  refine (parseResidues_follows bisim_pad _ _ _ _ _ _ ?_).symm
  rw [List.map_append, List.map_append]
  refine List.rel_append ?_ (.cons (padRel_init p m) .nil)
  rw [List.forall₂_map_left_iff, List.forall₂_map_right_iff, List.forall₂_same]
  intro q _
  have := padRel_init q 0
  rwa [List.replicate_zero, List.append_nil] at this

theorem leValue_take (c z : List UInt8) {n : Nat} (h : n ≤ c.length) : (c ++ z).take n = c.take n := List.take_append_of_le_length h

theorem chunkBits_pad {c : List UInt8} (z : List UInt8) {o l : Nat} (h : 1 + (o + l - 1) / 8 ≤ c.length) : chunkBits (c ++ z) o l = chunkBits c o l := by
  unfold chunkBits
  simp only
  rw [if_neg (by simp only [List.length_append]; omega), if_neg (by omega), leValue_take _ _ h]

theorem chunkBits_reads {c : List UInt8} {o l : Nat} (h : 1 + (o + l - 1) / 8 ≤ c.length) : ∃ v, chunkBits c o l = .ok v := by
  unfold chunkBits
  simp only
  rw [if_neg (by omega)]
  exact ⟨_, rfl⟩

theorem subChunk_pad {c : List UInt8} (z : List UInt8) {o l : Nat} (h : o + l ≤ c.length) : subChunk (c ++ z) o l = subChunk c o l := by
  unfold subChunk
  rw [if_neg (by simp only [List.length_append]; omega), if_neg (by simp only [List.length_append]; omega), if_neg (by omega), if_neg (by omega),
    List.drop_append_of_le_length (by omega), List.take_append_of_le_length (by simp only [List.length_drop]; omega)]

theorem subChunk_reads {c : List UInt8} {o l : Nat} (h : o + l ≤ c.length) : subChunk c o l = .ok ((c.drop o).take l) := by
  unfold subChunk
  rw [if_neg (by omega), if_neg (by omega)]

theorem readLengths_pad (z : List UInt8) : ∀ (n : Nat) (c : List UInt8) ls c', readLengths n c = .ok (ls, c') → readLengths n (c ++ z) = .ok (ls, c' ++ z)
  | 0, c, ls, c', h => by
    unfold readLengths at h ⊢
    injection h with h
    injection h with h1 h2
    rw [← h1, ← h2]
  | n + 1, c, ls, c', h => by
    unfold readLengths at h ⊢
    by_cases hl : 3 ≤ c.length
    · rw [chunkBits_pad z (by omega)]
      obtain ⟨v, hv⟩ := chunkBits_reads (c := c) (o := 0) (l := 24) (by omega)
      rw [hv] at h ⊢
      simp only [bind, Except.bind, restOfChunk] at h ⊢
      rw [subChunk_reads (by omega)] at h
      rw [subChunk_reads (by simp only [List.length_append]; omega)]
      dsimp only at h ⊢
      have e : ((c ++ z).drop 3).take ((c ++ z).length - 3) = (c.drop 3).take (c.length - 3) ++ z := by
        rw [List.drop_append_of_le_length hl, List.take_of_length_le (by simp only [List.length_append, List.length_drop]; omega),
          List.take_of_length_le (by simp only [List.length_drop]; omega)]
      rw [e]
      rcases hr : readLengths n ((c.drop 3).take (c.length - 3)) with e | ⟨ls', c''⟩
      · rw [hr] at h; exact nomatch h
      · rw [hr] at h
        rw [readLengths_pad z n _ _ _ hr]
        dsimp only [pure, Except.pure] at h ⊢
        injection h with h
        injection h with h1 h2
        rw [← h1, ← h2]
    · have : chunkBits c 0 24 = .error .outOfRange := by unfold chunkBits; simp only; rw [if_pos (by omega)]
      rw [this] at h
      exact nomatch h

theorem cutPartitions_pad (z : List UInt8) : ∀ (ls : List Nat) (c : List UInt8) ps, cutPartitions ls c = .ok ps →
    ∃ qs p, ps = qs ++ [p] ∧ cutPartitions ls (c ++ z) = .ok (qs ++ [p ++ z])
  | [], c, ps, h => by
    unfold cutPartitions at h ⊢
    injection h with h
    exact ⟨[], c, h.symm, rfl⟩
  | l :: ls, c, ps, h => by
    unfold cutPartitions at h ⊢
    by_cases hl : l ≤ c.length
    · rw [subChunk_pad z (by omega)]
      simp only [restOfChunk] at h ⊢
      rw [subChunk_reads (by omega)] at h ⊢
      rw [subChunk_reads (by omega)] at h
      rw [subChunk_reads (by simp only [List.length_append]; omega)]
      simp only [bind, Except.bind] at h ⊢
      have e : ((c ++ z).drop l).take ((c ++ z).length - l) = (c.drop l).take (c.length - l) ++ z := by
        rw [List.drop_append_of_le_length hl, List.take_of_length_le (by simp only [List.length_append, List.length_drop]; omega),
          List.take_of_length_le (by simp only [List.length_drop]; omega)]
      rw [e]
      rcases hr : cutPartitions ls ((c.drop l).take (c.length - l)) with e | ps'
      · rw [hr] at h; exact nomatch h
      · rw [hr] at h
        obtain ⟨qs, p, e1, e2⟩ := cutPartitions_pad z ls _ _ hr
        rw [e2]
        dsimp only [pure, Except.pure] at h ⊢
        injection h with h
        refine ⟨((c.drop 0).take l) :: qs, p, ?_, rfl⟩
        rw [← h, e1]; rfl
    · have : subChunk c 0 l = .error .outOfRange := by unfold subChunk; rw [if_neg (by omega), if_pos (by omega)]
      rw [this] at h
      exact nomatch h

theorem dctPartitions_pad (z : List UInt8) {c : List UInt8} {n : Nat} {ps : List (List UInt8)} (h : dctPartitions c n = .ok ps) :
    ∃ qs p, ps = qs ++ [p] ∧ dctPartitions (c ++ z) n = .ok (qs ++ [p ++ z]) := by
  unfold dctPartitions at h ⊢
  rcases hr : readLengths (n - 1) c with e | ⟨ls, c'⟩
  · rw [hr] at h; exact nomatch h
  · rw [hr] at h
    rw [readLengths_pad z _ _ _ _ hr]
    exact cutPartitions_pad z ls c' ps h

/-- The parts of a frame with zeros after the first partition and after the rest. -/
def FrameParts.pad (c : FrameParts) (i j : Nat) (k : Corruption) : FrameParts :=
  { c with firstPartition := c.firstPartition ++ List.replicate i 0, rest := c.rest ++ List.replicate j 0, corruption := k }

theorem parseBody_pad {H : Type} {K : FrameKind H} (hK : ∀ h t c, Parametric (K.parseMB h t c)) {st : DecoderState} {t : ProbabilityTables} {c : FrameParts}
    (i j : Nat) (k : Corruption) {h : H} {d d' : BoolDecoder} (hd : Padded d d') (hr : (parseBody K st t c h d).2 ≠ .error .outOfRange) :
    parseBody K st t (c.pad i j k) h d' = parseBody K st t c h d := by
  have hm := parseModes_follows (h := h) (t := t) (w := st.width) (ht := st.height) hK bisim_padded hd
  unfold parseBody at hr ⊢
  rcases e : K.parseModes h t st.width st.height d with _ | ⟨m, x⟩ <;> rcases e' : K.parseModes h t st.width st.height d' with _ | ⟨m', x'⟩
  · rfl
  · rw [e, e'] at hm; exact nomatch hm
  · rw [e, e'] at hm; exact nomatch hm
  · rw [e, e'] at hm
    injection hm with hm
    have hm : m = m' := hm
    subst hm
    rw [e] at hr
    dsimp only at hr ⊢
    cases hs : applySegmentation st.width m st.segmentation with
    | none => rfl
    | some x =>
      obtain ⟨seg, ids⟩ := x
      rw [hs] at hr
      dsimp only at hr ⊢
      cases hp : dctPartitions c.rest (K.partitionCount h) with
      | error e =>
        rw [hp, dctPartitions_error hp] at hr
        exact absurd rfl hr
      | ok ps =>
        obtain ⟨qs, p, rfl, hp'⟩ := dctPartitions_pad (List.replicate j 0) hp
        have : (c.pad i j k).rest = c.rest ++ List.replicate j 0 := rfl
        rw [this, hp']
        dsimp only
        rw [parseFrameTokens_pad]
        rfl

theorem applyKey_pad (st : DecoderState) (c : FrameParts) (i j : Nat) (k : Corruption) (hr : (st.applyKey c).2 ≠ .error .outOfRange) :
    st.applyKey (c.pad i j k) = st.applyKey c := by
  unfold DecoderState.applyKey at hr ⊢
  have e1 : (c.pad i j k).experimental = c.experimental := rfl
  have e2 : (c.pad i j k).firstPartition = c.firstPartition ++ List.replicate i 0 := rfl
  rw [e1, e2]
  split
  · rfl
  · next hx =>
    rw [if_neg hx] at hr
    rcases Parametric.keyHeader Padded bisim_padded _ _ (padded_init c.firstPartition i) with ⟨h1, h2⟩ | ⟨a, e, e', h1, h2, h3⟩
    · rw [h1, h2]
    · rw [h1] at hr
      rw [h1, h2]
      exact parseBody_pad parametric_key i j k h3 hr

theorem applyInter_pad (st : DecoderState) (c : FrameParts) (i j : Nat) (k : Corruption) (hr : (st.applyInter c).2 ≠ .error .outOfRange) :
    st.applyInter (c.pad i j k) = st.applyInter c := by
  unfold DecoderState.applyInter at hr ⊢
  have e2 : (c.pad i j k).firstPartition = c.firstPartition ++ List.replicate i 0 := rfl
  rw [e2]
  rcases Parametric.interHeader Padded bisim_padded _ _ (padded_init c.firstPartition i) with ⟨h1, h2⟩ | ⟨a, e, e', h1, h2, h3⟩
  · rw [h1, h2]
  · rw [h1] at hr
    rw [h1, h2]
    exact parseBody_pad parametric_inter i j k h3 hr

theorem splitPartitions_pad (f : List UInt8) (key : Bool) (n : Nat) (h : (if key then 10 else 3) ≤ f.length) : ∃ first rest k i j k',
    splitPartitions f key true = .ok (first, rest, k) ∧
    splitPartitions (f ++ List.replicate n 0) key true = .ok (first ++ List.replicate i 0, rest ++ List.replicate j 0, k') := by
  have h3 : 3 ≤ f.length := by split at h <;> omega
  unfold splitPartitions
  rw [chunkBits_pad _ (by omega)]
  obtain ⟨len, hlen⟩ := chunkBits_reads (c := f) (o := 5) (l := 19) (by omega)
  rw [hlen]
  generalize (if key then 10 else 3) = off at h ⊢
  simp only [bind, Except.bind, if_true]
  by_cases h1 : f.length ≤ off + len
  · rw [if_pos h1, subChunk_reads (by omega)]
    have e0 : List.take (f.length - off) (List.drop off f) = f.drop off := List.take_of_length_le (by simp)
    by_cases h2 : (f ++ List.replicate n 0).length ≤ off + len
    · rw [if_pos h2, subChunk_reads (by simp only [List.length_append]; omega)]
      refine ⟨_, _, _, n, 0, .firstPartition, rfl, ?_⟩
      rw [e0, List.drop_append_of_le_length h, List.take_of_length_le (by simp; omega)]
      rfl
    · rw [if_neg h2]
      simp only [List.length_append, List.length_replicate] at h2
      rw [subChunk_reads (by simp only [List.length_append, List.length_replicate]; omega), subChunk_reads (by simp only [List.length_append, List.length_replicate]; omega)]
      refine ⟨_, _, _, off + len - f.length, n - (off + len - f.length), .none, rfl, ?_⟩
      rw [e0, List.drop_append_of_le_length h]
      have e1 : List.take len (List.drop off f ++ List.replicate n 0) = List.drop off f ++ List.replicate (off + len - f.length) 0 := by
        rw [List.take_append, List.take_of_length_le (by simp; omega), List.take_replicate]
        congr 2
        simp only [List.length_drop]
        omega
      have e2 : List.drop (off + len) (f ++ List.replicate n 0) = List.replicate (n - (off + len - f.length)) 0 := by
        rw [List.drop_append, List.drop_of_length_le h1, List.drop_replicate]
        rfl
      dsimp only
      rw [e1, e2, List.take_of_length_le (by simp only [List.length_append, List.length_replicate]; omega)]
      rfl
  · rw [if_neg h1, if_neg (by simp only [List.length_append]; omega), subChunk_reads (by omega), subChunk_reads (by omega), subChunk_pad _ (by omega),
      subChunk_reads (c := f ++ _) (by simp only [List.length_append]; omega), subChunk_reads (by omega)]
    refine ⟨_, _, _, 0, n, .none, rfl, ?_⟩
    dsimp only
    rw [List.drop_append_of_le_length (by omega), List.take_of_length_le (l := List.drop (off + len) f ++ _) (by simp; omega),
      List.take_of_length_le (l := List.drop (off + len) f) (by simp; omega), List.replicate_zero, List.append_nil]
    rfl

theorem checkKeyFrame_pad (f z : List UInt8) (w h : Nat) (hl : 10 ≤ f.length) : checkKeyFrame (f ++ z) w h = checkKeyFrame f w h := by
  unfold checkKeyFrame
  rw [subChunk_pad z (by omega), subChunk_pad z (by omega)]

theorem splitFrame_pad (f : List UInt8) (w h n : Nat) (hl : 10 ≤ f.length ∨ (3 ≤ f.length ∧ (f.headD 0).toNat % 2 = 1)) :
    (∃ e, splitFrame f w h true = .error e ∧ splitFrame (f ++ List.replicate n 0) w h true = .error e) ∨
    (∃ s, splitFrame f w h true = .ok { corruption := .frame, showFrame := s } ∧
      splitFrame (f ++ List.replicate n 0) w h true = .ok { corruption := .frame, showFrame := s }) ∨
    ∃ c i j k, splitFrame f w h true = .ok c ∧ splitFrame (f ++ List.replicate n 0) w h true = .ok (c.pad i j k) := by
  have h3 : 3 ≤ f.length := by omega
  have body : (∃ e, splitFrameBody f w h true = .error e ∧ splitFrameBody (f ++ List.replicate n 0) w h true = .error e) ∨
      ∃ c i j k, splitFrameBody f w h true = .ok c ∧ splitFrameBody (f ++ List.replicate n 0) w h true = .ok (c.pad i j k) := by
    unfold splitFrameBody
    rw [chunkBits_pad _ (by omega), chunkBits_pad _ (by omega), chunkBits_pad _ (by omega)]
    have hk : ∃ v, chunkBits f 0 1 = .ok v ∧ (if v == 0 then 10 else 3) ≤ f.length := by
      unfold chunkBits
      simp only
      rw [if_neg (by omega)]
      refine ⟨_, rfl, ?_⟩
      rcases hl with hl | ⟨_, hl⟩
      · split <;> omega
      · rw [if_neg]
        · exact h3
        · cases f with
          | nil => simp at h3
          | cons b f =>
            simp only [List.headD_cons] at hl
            simp only [Nat.zero_add, Nat.sub_self, Nat.zero_div, Nat.add_zero, List.take_succ_cons, List.take_zero, leValue, Nat.mul_zero, Nat.shiftRight_zero, Nat.pow_one, beq_iff_eq]
            omega
    obtain ⟨key, e1, hk⟩ := hk
    obtain ⟨sh, e2⟩ := chunkBits_reads (c := f) (o := 4) (l := 1) (by omega)
    obtain ⟨ver, e3⟩ := chunkBits_reads (c := f) (o := 1) (l := 3) (by omega)
    rw [e1, e2, e3]
    simp only [bind, Except.bind]
    cases versionExperimental ver with
    | error e => exact .inl ⟨e, rfl, rfl⟩
    | ok x =>
      dsimp only
      obtain ⟨first, rest, k, i, j, k', p1, p2⟩ := splitPartitions_pad f (key == 0) n hk
      rw [p1, p2]
      dsimp only
      cases hkey : (key == 0) with
      | false =>
        dsimp only [pure, Except.pure]
        simp only [Bool.false_eq_true, if_false]
        exact .inr ⟨_, i, j, k', rfl, rfl⟩
      | true =>
        rw [hkey] at hk
        simp only [if_true] at hk ⊢
        rw [checkKeyFrame_pad f _ w h hk]
        cases checkKeyFrame f w h with
        | error e => exact .inl ⟨e, rfl, rfl⟩
        | ok x => exact .inr ⟨_, i, j, k', rfl, rfl⟩
  unfold splitFrame
  rcases body with ⟨e, h1, h2⟩ | ⟨c, i, j, k, h1, h2⟩
  · rw [h1, h2]
    cases e with
    | outOfRange =>
      refine .inr (.inl ⟨_, rfl, ?_⟩)
      have : (f ++ List.replicate n 0).headD 0 = f.headD 0 := by
        cases f with
        | nil => simp at h3
        | cons b f => rfl
      simp only [if_true, this]
    | _ => exact .inl ⟨_, rfl, rfl⟩
  · rw [h1, h2]
    exact .inr (.inr ⟨c, i, j, k, rfl, rfl⟩)

end Alfalfa
