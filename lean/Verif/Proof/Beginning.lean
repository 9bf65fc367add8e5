import Verif.Proof.Parametric
import Verif.Props.Decoder

/-! What a decoder makes of the beginning of a frame: the fields that are read from the first bytes are those of the whole frame. -/

namespace Alfalfa

/-! ### Decoders whose data have a common beginning -/

/-- The decoders are in the same state and the next `m` bytes (at least) of their data are the same. -/
structure Common (m : Nat) (d d' : BoolDecoder) : Prop where
  range : d.range = d'.range
  value : d.value = d'.value
  bitCount : d.bitCount = d'.bitCount
  small : d.bitCount < 8
  data : ∃ pre x y, d.chunk = pre ++ x ∧ d'.chunk = pre ++ y ∧ m ≤ pre.length

theorem Common.mono {m n : Nat} {d d' : BoolDecoder} (h : Common n d d') (hm : m ≤ n) : Common m d d' := by
  obtain ⟨pre, x, y, e1, e2, e3⟩ := h.data
  exact ⟨h.range, h.value, h.bitCount, h.small, pre, x, y, e1, e2, by omega⟩

theorem Common.load {m : Nat} {d d' : BoolDecoder} (h : Common (m + 1) d d') : Common m d.loadOctet d'.loadOctet := by
  obtain ⟨pre, x, y, e1, e2, e3⟩ := h.data
  cases pre with
  | nil => simp at e3
  | cons b pre =>
    unfold BoolDecoder.loadOctet
    rw [e1, e2]
    refine ⟨h.range, ?_, h.bitCount, h.small, pre, x, y, rfl, rfl, by simpa using e3⟩
    show d.value ||| b.toNat = d'.value ||| b.toNat
    rw [h.value]

theorem Common.shift {m : Nat} {d d' : BoolDecoder} (h : Common (m + (d.bitCount + 1) / 8) d d') :
    Common m d.shiftOnce d'.shiftOnce ∧ d.shiftOnce.bitCount = (d.bitCount + 1) % 8 := by
  have hb := h.bitCount
  have hs := h.small
  unfold BoolDecoder.shiftOnce
  dsimp only
  rw [← hb]
  by_cases h8 : d.bitCount + 1 = 8
  · rw [if_pos h8, if_pos h8]
    have e : (d.bitCount + 1) / 8 = 1 := by omega
    rw [e] at h
    have k : Common (m + 1) { d with value := (d.value <<< 1) % 2 ^ 32, range := (d.range <<< 1) % 2 ^ 32, bitCount := 0 }
        { d' with value := (d'.value <<< 1) % 2 ^ 32, range := (d'.range <<< 1) % 2 ^ 32, bitCount := 0 } := by
      refine ⟨?_, ?_, rfl, by show 0 < 8; decide, h.data⟩
      · show (d.range <<< 1) % 2 ^ 32 = (d'.range <<< 1) % 2 ^ 32
        rw [h.range]
      · show (d.value <<< 1) % 2 ^ 32 = (d'.value <<< 1) % 2 ^ 32
        rw [h.value]
    refine ⟨k.load, ?_⟩
    have : (d.bitCount + 1) % 8 = 0 := by omega
    rw [this]
    unfold BoolDecoder.loadOctet
    dsimp only
    split
    · rfl
    · split <;> rfl
  · rw [if_neg h8, if_neg h8]
    refine ⟨⟨?_, ?_, rfl, by show d.bitCount + 1 < 8; omega, (h.mono (by omega)).data⟩, by dsimp only; omega⟩
    · show (d.range <<< 1) % 2 ^ 32 = (d'.range <<< 1) % 2 ^ 32
      rw [h.range]
    · show (d.value <<< 1) % 2 ^ 32 = (d'.value <<< 1) % 2 ^ 32
      rw [h.value]

theorem Common.renorm {m : Nat} : ∀ (n : Nat) {d d' : BoolDecoder}, Common (m + (d.bitCount + n) / 8) d d' → Common m (d.renorm n) (d'.renorm n)
  | 0, _, _, h => h.mono (by omega)
  | n + 1, d, d', h => by
    unfold BoolDecoder.renorm
    rw [← h.range]
    split
    · have hs := h.small
      obtain ⟨h1, h2⟩ := Common.shift (m := m + ((d.bitCount + 1) % 8 + n) / 8) (h.mono (by omega))
      refine Common.renorm n ?_
      rw [h2]
      exact h1
    · exact h.mono (by omega)

/-- Reading a bit takes at most one byte. -/
theorem Common.get {m : Nat} {d d' : BoolDecoder} (p : Prob) (h : Common (m + 1) d d') : (d.get p).1 = (d'.get p).1 ∧ Common m (d.get p).2 (d'.get p).2 := by
  have hs := h.small
  unfold BoolDecoder.get
  rw [← h.range, ← h.value]
  dsimp only
  split
  · refine ⟨rfl, Common.renorm 8 ?_⟩
    exact Common.mono (n := m + 1) ⟨rfl, rfl, h.bitCount, h.small, h.data⟩ (by dsimp only; omega)
  · refine ⟨rfl, Common.renorm 8 ?_⟩
    exact Common.mono (n := m + 1) ⟨rfl, rfl, h.bitCount, h.small, h.data⟩ (by dsimp only; omega)

theorem Common.init {m : Nat} (pre x y : List UInt8) (c c' : Bool) (h : m + 2 ≤ pre.length) :
    Common m (BoolDecoder.init (pre ++ x) c) (BoolDecoder.init (pre ++ y) c') := by
  match pre, h with
  | a :: b :: pre, h =>
    refine ⟨rfl, rfl, rfl, by show 0 < 8; decide, pre, x, y, rfl, rfl, ?_⟩
    simp only [List.length_cons] at h
    omega

/-! ### Parsers -/

/-- The parser does not fail, and what it reads is in the first `c` bytes. -/
structure Within {α : Type} (c : Nat) (p : Parser α) : Prop where
  total : ∀ d, ∃ a e, p d = some (a, e)
  same : ∀ m d d', Common (m + c) d d' → ∃ a e e', p d = some (a, e) ∧ p d' = some (a, e') ∧ Common m e e'

theorem bind_run {α β : Type} {p : Parser α} {f : α → Parser β} {d e : BoolDecoder} {a : α} (h : p d = some (a, e)) : (p >>= f) d = f a e := by
  show (p d >>= fun x => f x.1 x.2) = _
  rw [h]; rfl

theorem Within.pure {α : Type} (x : α) : Within 0 (Pure.pure x : Parser α) := ⟨fun d => ⟨x, d, rfl⟩, fun _ d d' h => ⟨x, d, d', rfl, rfl, h⟩⟩

theorem Within.mono {α : Type} {c c' : Nat} {p : Parser α} (h : Within c p) (hc : c ≤ c') : Within c' p :=
  ⟨h.total, fun m d d' k => h.same m d d' (k.mono (by omega))⟩

theorem Within.bind {α β : Type} {c c' : Nat} {p : Parser α} {f : α → Parser β} (hp : Within c p) (hf : ∀ x, Within c' (f x)) :
    Within (c + c') (p >>= f) := by
  refine ⟨fun d => ?_, fun m d d' h => ?_⟩
  · obtain ⟨a, e, h1⟩ := hp.total d
    rw [bind_run h1]
    exact (hf a).total e
  · obtain ⟨a, e, e', h1, h2, h3⟩ := hp.same (m + c') d d' (h.mono (by omega))
    rw [bind_run h1, bind_run h2]
    exact (hf a).same m e e' h3

theorem Within.getBit (p : Prob) : Within 1 (getBit p) := by
  refine ⟨fun d => ⟨_, _, rfl⟩, fun m d d' h => ?_⟩
  obtain ⟨h1, h2⟩ := h.get p
  refine ⟨(d.get p).1, (d.get p).2, (d'.get p).2, rfl, ?_, h2⟩
  rw [h1]; rfl

theorem Within.optional {α : Type} {flag : Bool} {c : Nat} {p : Parser α} (h : Within c p) : Within c (parseOptional flag p) := by
  unfold parseOptional
  split
  · have : (some <$> p : Parser (Option α)) = p >>= fun x => Pure.pure (some x) := rfl
    rw [this]
    exact .bind h fun _ => .pure _
  · exact (Within.pure _).mono (Nat.zero_le _)

theorem Within.flagged {α : Type} {q : Prob} {c : Nat} {p : Parser α} (h : Within c p) : Within (1 + c) (parseFlagged q p) :=
  .bind (.getBit _) fun _ => .optional h

theorem Within.unsigned : ∀ w, Within w (parseUnsigned w)
  | 0 => .pure _
  | w + 1 => (Within.bind (.getBit _) fun _ => .bind (Within.unsigned w) fun _ => .pure _).mono (by omega)

theorem Within.signed (w : Nat) : Within (w + 1) (parseSigned w) := .bind (.unsigned w) fun _ => .bind (.getBit _) fun _ => .pure _

theorem Within.fin {α : Type} {c : Nat} : ∀ {n : Nat} {p : Fin n → Parser α}, (∀ i, Within c (p i)) → Within (n * c) (parseFin n p)
  | 0, _, _ => (Within.pure _).mono (Nat.zero_le _)
  | n + 1, _, h => (Within.bind (h 0) fun _ => .bind (Within.fin fun i => h i.succ) fun _ => .pure _).mono (by rw [Nat.add_mul]; omega)

theorem Within.quantIndices : Within 37 parseQuantIndices :=
  Within.mono (.bind (.unsigned _) fun _ => .bind (.flagged (.signed _)) fun _ => .bind (.flagged (.signed _)) fun _ => .bind (.flagged (.signed _)) fun _ =>
    .bind (.flagged (.signed _)) fun _ => .bind (.flagged (.signed _)) fun _ => .pure _) (by decide)

theorem Within.deltaUpdate : Within 64 parseModeRefLFDeltaUpdate :=
  Within.mono (.bind (.fin fun _ => .flagged (.signed _)) fun _ => .bind (.fin fun _ => .flagged (.signed _)) fun _ => .pure _) (by decide)

theorem Within.featureData : Within 69 parseSegmentFeatureData :=
  Within.mono (.bind (.getBit _) fun _ => .bind (.fin fun _ => .flagged (.signed _)) fun _ => .bind (.fin fun _ => .flagged (.signed _)) fun _ => .pure _) (by decide)

theorem Within.updateSegmentation : Within 98 parseUpdateSegmentation :=
  Within.mono (.bind (.getBit _) fun _ => .bind (.flagged .featureData) fun _ => .bind (.optional (.fin fun _ => .flagged (.unsigned _))) fun _ => .pure _) (by decide)

theorem Within.tokenProbUpdate : Within 9504 parseTokenProbUpdate :=
  Within.mono (.fin fun _ => .fin fun _ => .fin fun _ => .fin fun _ => .flagged (.unsigned _)) (by decide)

theorem Within.mvProbUpdate : Within 304 parseMVProbUpdate := Within.mono (.fin fun _ => .fin fun _ => .flagged (.unsigned _)) (by decide)

/-! ### A part of the result -/

/-- The parser does not fail, and the part `π` of its result is `v`. -/
def Fixed {α β : Type} (π : α → β) (v : β) (p : Parser α) : Prop := ∀ d, ∃ a e, p d = some (a, e) ∧ π a = v

theorem Fixed.pure {α β : Type} {π : α → β} {v : β} {x : α} (h : π x = v) : Fixed π v (Pure.pure x) := fun d => ⟨x, d, rfl, h⟩

theorem Fixed.bind {α β γ : Type} {π : α → β} {v : β} {c : Nat} {p : Parser γ} {f : γ → Parser α} (hp : Within c p) (hf : ∀ x, Fixed π v (f x)) :
    Fixed π v (p >>= f) := by
  intro d
  obtain ⟨a, e, h⟩ := hp.total d
  rw [bind_run h]
  exact hf a e

/-- The parser does not fail, and the part `π` of its result is in the first `c` bytes. -/
def Early {α β : Type} (π : α → β) (c : Nat) (p : Parser α) : Prop :=
  ∀ d d', Common c d d' → ∃ a a' e e', p d = some (a, e) ∧ p d' = some (a', e') ∧ π a = π a'

theorem Early.bind {α β γ : Type} {π : α → β} {c c' : Nat} {p : Parser γ} {f : γ → Parser α} (hp : Within c p) (hf : ∀ x, Early π c' (f x)) :
    Early π (c + c') (p >>= f) := by
  intro d d' h
  obtain ⟨a, e, e', h1, h2, h3⟩ := hp.same c' d d' (h.mono (by omega))
  rw [bind_run h1, bind_run h2]
  exact hf a e e' h3

theorem Early.fixed {α β : Type} {π : α → β} {v : β} {p : Parser α} (h : Fixed π v p) : Early π 0 p := by
  intro d d' _
  obtain ⟨a, e, h1, h2⟩ := h d
  obtain ⟨a', e', h3, h4⟩ := h d'
  exact ⟨a, a', e, e', h1, h3, h2.trans h4.symm⟩

theorem Early.mono {α β : Type} {π : α → β} {c c' : Nat} {p : Parser α} (h : Early π c p) (hc : c ≤ c') : Early π c' p :=
  fun d d' k => h d d' (k.mono hc)

theorem Early.keyFields : Early (fun h : KeyFrameHeader => (h.colorSpace, h.clampingType, h.filterType, h.log2Partitions)) 180 parseKeyFrameFields := by
  refine Early.mono (.bind (.getBit _) fun a => .bind (.getBit _) fun b => .bind (.flagged .updateSegmentation) fun _ => .bind (.getBit _) fun c =>
    .bind (.unsigned _) fun _ => .bind (.unsigned _) fun _ => .bind (.flagged (.flagged .deltaUpdate)) fun _ => .bind (.unsigned _) fun n =>
    .fixed (v := (a, b, c, n)) ?_) (by decide)
  exact .bind .quantIndices fun _ => .bind (.getBit _) fun _ => .bind .tokenProbUpdate fun _ => .bind (.flagged (.unsigned _)) fun _ => .pure rfl

theorem Early.interFields : Early (fun h : InterFrameHeader => (h.filterType, h.log2Partitions)) 180 parseInterFrameFields := by
  refine Early.mono (.bind (.flagged .updateSegmentation) fun _ => .bind (.getBit _) fun c => .bind (.unsigned _) fun _ => .bind (.unsigned _) fun _ =>
    .bind (.flagged (.flagged .deltaUpdate)) fun _ => .bind (.unsigned _) fun n => .fixed (v := (c, n)) ?_) (by decide)
  exact .bind .quantIndices fun _ => .bind (.getBit _) fun _ => .bind (.getBit _) fun _ =>
    .bind (.optional (.unsigned _)) fun _ => .bind (.optional (.unsigned _)) fun _ => .bind (.getBit _) fun _ => .bind (.getBit _) fun _ => .bind (.getBit _) fun _ =>
    .bind (.getBit _) fun _ => .bind .tokenProbUpdate fun _ => .bind (.flagged (.unsigned _)) fun _ => .bind (.unsigned _) fun _ => .bind (.unsigned _) fun _ =>
    .bind (.unsigned _) fun _ => .bind (.flagged (.fin fun _ => .unsigned _)) fun _ => .bind (.flagged (.fin fun _ => .unsigned _)) fun _ =>
    .bind .mvProbUpdate fun _ => .pure rfl

/-- If a key frame header is read from some data, one with the same number of partitions is read from data that begin in the same way. -/
theorem Early.keyHeader {d d' : BoolDecoder} (hc : Common 180 d d') {h : KeyFrameHeader} {e : BoolDecoder} (hp : parseKeyFrameHeader d = some (h, e)) :
    ∃ h' e', parseKeyFrameHeader d' = some (h', e') ∧ h'.log2Partitions = h.log2Partitions := by
  obtain ⟨a, a', g, g', h1, h2, h3⟩ := Early.keyFields d d' hc
  simp only [Prod.mk.injEq] at h3
  obtain ⟨c1, c2, c3, c4⟩ := h3
  unfold parseKeyFrameHeader at hp ⊢
  rw [bind_run h1] at hp
  rw [bind_run h2, ← c1, ← c2, ← c3]
  split at hp
  · exact nomatch hp
  · next k1 =>
    split at hp
    · exact nomatch hp
    · next k2 =>
      have hp := Option.some.inj hp
      have e1 : a = h := congrArg Prod.fst hp
      rw [if_neg k1, if_neg k2]
      exact ⟨a', g', rfl, by rw [← e1, c4]⟩

/-- The same for inter frames. -/
theorem Early.interHeader {d d' : BoolDecoder} (hc : Common 180 d d') {h : InterFrameHeader} {e : BoolDecoder} (hp : parseInterFrameHeader d = some (h, e)) :
    ∃ h' e', parseInterFrameHeader d' = some (h', e') ∧ h'.log2Partitions = h.log2Partitions := by
  obtain ⟨a, a', g, g', h1, h2, h3⟩ := Early.interFields d d' hc
  simp only [Prod.mk.injEq] at h3
  obtain ⟨c3, c4⟩ := h3
  unfold parseInterFrameHeader at hp ⊢
  rw [bind_run h1] at hp
  rw [bind_run h2, ← c3]
  split at hp
  · exact nomatch hp
  · next k2 =>
    have hp := Option.some.inj hp
    have e1 : a = h := congrArg Prod.fst hp
    rw [if_neg k2]
    exact ⟨a', g', rfl, by rw [← e1, c4]⟩

/-! ### The parts of the frame -/

theorem chunkBits_take {f : List UInt8} {o l n : Nat} (h : 1 + (o + l - 1) / 8 ≤ n) : chunkBits (f.take n) o l = chunkBits f o l := by
  unfold chunkBits
  dsimp only
  rw [List.take_take, Nat.min_eq_left h, List.length_take]
  by_cases hl : f.length < 1 + (o + l - 1) / 8
  · rw [if_pos hl, if_pos (by omega)]
  · rw [if_neg hl, if_neg (by omega)]

theorem subChunk_take {f : List UInt8} {o l n : Nat} (h : o + l ≤ n) : subChunk (f.take n) o l = subChunk f o l := by
  unfold subChunk
  rw [List.length_take]
  by_cases h1 : f.length < o
  · rw [if_pos h1, if_pos (by omega)]
  · rw [if_neg h1, if_neg (by omega)]
    by_cases h2 : f.length < o + l
    · rw [if_pos h2, if_pos (by omega)]
    · rw [if_neg h2, if_neg (by omega), List.drop_take, List.take_take, Nat.min_eq_left (by omega)]

/-- The beginning of a frame splits into the same parts, as far as they go. -/
theorem splitFrame_take {f : List UInt8} {w h n : Nat} {c : FrameParts} (hc : splitFrame f w h false = .ok c) (hn : 10 ≤ n) :
    ∃ c', splitFrame (f.take n) w h true = .ok c' ∧ c'.keyFrame = c.keyFrame ∧ c'.experimental = c.experimental ∧
      ∃ m, n ≤ m + 10 ∧ c'.firstPartition = c.firstPartition.take m := by
  have hb : splitFrameBody f w h false = .ok c := by
    unfold splitFrame at hc
    split at hc
    · exact nomatch hc
    · exact hc
  have key : ∃ c', splitFrameBody (f.take n) w h true = .ok c' ∧ c'.keyFrame = c.keyFrame ∧ c'.experimental = c.experimental ∧
      ∃ m, n ≤ m + 10 ∧ c'.firstPartition = c.firstPartition.take m := by
    unfold splitFrameBody at hb ⊢
    rw [chunkBits_take (by omega), chunkBits_take (by omega), chunkBits_take (by omega)]
    simp only [bind, Except.bind] at hb ⊢
    cases h1 : chunkBits f 0 1 with
    | error e => rw [h1] at hb; exact nomatch hb
    | ok key =>
      rw [h1] at hb
      cases h2 : chunkBits f 4 1 with
      | error e => rw [h2] at hb; exact nomatch hb
      | ok sh =>
        rw [h2] at hb
        cases h3 : chunkBits f 1 3 with
        | error e => rw [h3] at hb; exact nomatch hb
        | ok ver =>
          rw [h3] at hb
          dsimp only at hb ⊢
          cases h4 : versionExperimental ver with
          | error e => rw [h4] at hb; exact nomatch hb
          | ok x =>
            rw [h4] at hb
            dsimp only at hb ⊢
            cases h5 : splitPartitions f (key == 0) false with
            | error e => rw [h5] at hb; exact nomatch hb
            | ok parts =>
              rw [h5] at hb
              dsimp only at hb
              obtain ⟨parts', h6, m, hm, h7⟩ : ∃ parts', splitPartitions (f.take n) (key == 0) true = .ok parts' ∧
                  ∃ m, n ≤ m + 10 ∧ parts'.1 = parts.1.take m := by
                unfold splitPartitions at h5 ⊢
                rw [chunkBits_take (by omega)]
                cases h8 : chunkBits f 5 19 with
                | error e => rw [h8] at h5; exact nomatch h5
                | ok len =>
                  rw [h8] at h5
                  simp only [bind, Except.bind, if_true, Bool.false_eq_true, if_false] at h5 ⊢
                  have hoff : (if (key == 0) = true then 10 else 3) ≤ 10 := by split <;> decide
                  generalize (if (key == 0) = true then 10 else 3) = off at h5 hoff ⊢
                  by_cases hl : f.length ≤ off + len
                  · rw [if_pos hl] at h5; exact nomatch h5
                  · rw [if_neg hl] at h5
                    have s1 : subChunk f off len = .ok ((f.drop off).take len) := by
                      unfold subChunk
                      rw [if_neg (by omega), if_neg (by omega)]
                    have s2 : subChunk f (off + len) (f.length - off - len) = .ok ((f.drop (off + len)).take (f.length - off - len)) := by
                      unfold subChunk
                      rw [if_neg (by omega), if_neg (by omega)]
                    rw [s1, s2] at h5
                    injection h5 with h5
                    rw [← h5]
                    rw [List.length_take]
                    by_cases hcut : min n f.length ≤ off + len
                    · rw [if_pos hcut]
                      have hle : n ≤ f.length := by omega
                      have s3 : subChunk (f.take n) off (min n f.length - off) = .ok (((f.take n).drop off).take (n - off)) := by
                        unfold subChunk
                        rw [List.length_take, if_neg (by omega), if_neg (by omega), Nat.min_eq_left hle]
                      rw [s3]
                      refine ⟨_, rfl, n - off, by omega, ?_⟩
                      show ((f.take n).drop off).take (n - off) = ((f.drop off).take len).take (n - off)
                      rw [List.take_take, Nat.min_eq_left (by omega), List.drop_take, List.take_take, Nat.min_self]
                    · rw [if_neg hcut]
                      have s3 : subChunk (f.take n) off len = .ok ((f.drop off).take len) := by
                        rw [subChunk_take (by omega)]; exact s1
                      have s4 : ∃ y, subChunk (f.take n) (off + len) (min n f.length - off - len) = .ok y := by
                        unfold subChunk
                        rw [List.length_take, if_neg (by omega), if_neg (by omega)]
                        exact ⟨_, rfl⟩
                      obtain ⟨y, s4⟩ := s4
                      rw [s3, s4]
                      refine ⟨_, rfl, n, by omega, ?_⟩
                      show (f.drop off).take len = ((f.drop off).take len).take n
                      rw [List.take_take, Nat.min_eq_right (by omega)]
              rw [h6]
              dsimp only
              have hk : checkKeyFrame (f.take n) w h = checkKeyFrame f w h := by
                unfold checkKeyFrame
                rw [subChunk_take (by omega), subChunk_take (by omega)]
              rw [hk]
              by_cases k0 : (key == 0) = true
              · rw [if_pos k0] at hb ⊢
                cases h9 : checkKeyFrame f w h with
                | error e => rw [h9] at hb; exact nomatch hb
                | ok u =>
                  rw [h9] at hb
                  injection hb with hb
                  rw [← hb]
                  exact ⟨_, rfl, rfl, rfl, m, hm, h7⟩
              · rw [if_neg k0] at hb ⊢
                injection hb with hb
                rw [← hb]
                exact ⟨_, rfl, rfl, rfl, m, hm, h7⟩
  obtain ⟨c', k1, k2⟩ := key
  refine ⟨c', ?_, k2⟩
  unfold splitFrame
  rw [k1]

end Alfalfa
