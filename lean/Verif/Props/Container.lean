import Verif.Model.Container
import Mathlib.Tactic.IntervalCases

/-! The frame container (C10, C11). -/

namespace Alfalfa

/-! ### Little-endian fields -/

theorem leValue_append (a b : List UInt8) : leValue (a ++ b) = leValue a + 256 ^ a.length * leValue b := by
  induction a with
  | nil => simp [leValue]
  | cons x a ih =>
    rw [List.cons_append, leValue, leValue, ih, List.length_cons, Nat.pow_succ, Nat.mul_comm _ 256, Nat.mul_assoc, Nat.mul_add]
    omega

theorem lengthBytes_value (n : Nat) (h : n < 2 ^ 24) : leValue (lengthBytes n) = n := by
  have h1 : n &&& 0xff = n % 256 := Nat.and_two_pow_sub_one_eq_mod n 8
  have h2 : (n &&& 0xff00) >>> 8 = n / 256 % 256 := by
    rw [Nat.shiftRight_and_distrib]
    exact (Nat.and_two_pow_sub_one_eq_mod _ 8).trans (by rw [Nat.shiftRight_eq_div_pow])
  have h3 : (n &&& 0xff0000) >>> 16 = n / 65536 % 256 := by
    rw [Nat.shiftRight_and_distrib]
    exact (Nat.and_two_pow_sub_one_eq_mod _ 8).trans (by rw [Nat.shiftRight_eq_div_pow])
  unfold lengthBytes
  rw [h1, h2, h3]
  simp only [leValue, UInt8.toNat_ofNat']
  omega

theorem subChunk_append (a b c : List UInt8) : subChunk (a ++ (b ++ c)) a.length b.length = .ok b := by
  unfold subChunk
  rw [if_neg (by simp), if_neg (by simp), List.drop_left, List.take_left]

theorem subChunk_end (a b : List UInt8) (n : Nat) (h : n = b.length) : subChunk (a ++ b) a.length n = .ok b := by
  subst h
  have := subChunk_append a b []
  rwa [List.append_nil] at this

theorem restOfChunk_append (a b : List UInt8) : restOfChunk (a ++ b) a.length = .ok b := by
  unfold restOfChunk
  exact subChunk_end a b _ (by simp)

theorem chunkBits_prefix (a b : List UInt8) (off len : Nat) (h : a.length = 1 + (off + len - 1) / 8) :
    chunkBits (a ++ b) off len = .ok ((leValue a >>> off) % 2 ^ len) := by
  unfold chunkBits
  simp only [← h]
  rw [if_neg (by simp), List.take_left]

/-! ### Round trip -/

theorem readLengths_spec : ∀ (ps : List (List UInt8)) (tail : List UInt8), (∀ p ∈ ps, p.length < 2 ^ 24) →
    readLengths ps.length ((ps.map (fun p => lengthBytes p.length)).flatten ++ tail) = .ok (ps.map List.length, tail)
  | [], _, _ => rfl
  | p :: ps, tail, h => by
    rw [List.length_cons, readLengths, List.map_cons, List.flatten_cons, List.append_assoc,
      chunkBits_prefix _ _ _ _ (rfl : (lengthBytes p.length).length = _),
      show (3 : Nat) = (lengthBytes p.length).length from rfl, restOfChunk_append]
    have ih := readLengths_spec ps tail (fun q hq => h q (List.mem_cons_of_mem _ hq))
    have hp := h p List.mem_cons_self
    rw [lengthBytes_value _ hp, Nat.shiftRight_zero, Nat.mod_eq_of_lt hp]
    show (readLengths ps.length _ >>= _) = _
    rw [ih]
    rfl

theorem cutPartitions_spec : ∀ (ps : List (List UInt8)) (last : List UInt8),
    cutPartitions (ps.map List.length) (ps.flatten ++ last) = .ok (ps ++ [last])
  | [], last => rfl
  | p :: ps, last => by
    rw [List.map_cons, cutPartitions, List.flatten_cons, List.append_assoc]
    have h1 := subChunk_append [] p (ps.flatten ++ last)
    simp only [List.nil_append, List.length_nil] at h1
    rw [h1, restOfChunk_append, List.cons_append]
    show (cutPartitions _ _ >>= _) = _
    rw [cutPartitions_spec ps last]
    rfl

theorem tag_facts (keyFrame showFrame experimental referenceUpdate : Bool) (n : Nat) (h : n < 2 ^ 19) (tail : List UInt8) :
    chunkBits (frameTag keyFrame showFrame experimental referenceUpdate n ++ tail) 0 1 = .ok (!keyFrame).toNat ∧
    chunkBits (frameTag keyFrame showFrame experimental referenceUpdate n ++ tail) 4 1 = .ok showFrame.toNat ∧
    chunkBits (frameTag keyFrame showFrame experimental referenceUpdate n ++ tail) 1 3 =
      .ok (2 * referenceUpdate.toNat + 4 * experimental.toNat) ∧
    chunkBits (frameTag keyFrame showFrame experimental referenceUpdate n ++ tail) 5 19 = .ok n := by
  have h1 : n &&& 0x7 = n % 8 := Nat.and_two_pow_sub_one_eq_mod n 3
  have h2 : (n &&& 0x7f8) >>> 3 = n / 8 % 256 := by
    rw [Nat.shiftRight_and_distrib]
    exact (Nat.and_two_pow_sub_one_eq_mod _ 8).trans (by rw [Nat.shiftRight_eq_div_pow])
  have h3 : (n &&& 0x7f800) >>> 11 = n / 2048 % 256 := by
    rw [Nat.shiftRight_and_distrib]
    exact (Nat.and_two_pow_sub_one_eq_mod _ 8).trans (by rw [Nat.shiftRight_eq_div_pow])
  have h0 : ((!keyFrame).toNat ||| (referenceUpdate.toNat <<< 2) ||| (experimental.toNat <<< 3) ||| (showFrame.toNat <<< 4) |||
      ((n &&& 0x7) <<< 5)) = (!keyFrame).toNat + 4 * referenceUpdate.toNat + 8 * experimental.toNat + 16 * showFrame.toNat + 32 * (n % 8) := by
    rw [h1]
    have : n % 8 < 8 := Nat.mod_lt _ (by decide)
    generalize n % 8 = k at this ⊢
    interval_cases k <;> cases keyFrame <;> cases referenceUpdate <;> cases experimental <;> cases showFrame <;> decide
  unfold frameTag
  rw [h0, h2, h3]
  have hb : ∀ b : Bool, b.toNat < 2 := fun b => by cases b <;> decide
  have b1 := hb (!keyFrame); have b2 := hb referenceUpdate; have b3 := hb experimental; have b4 := hb showFrame
  generalize (!keyFrame).toNat = k at *
  generalize referenceUpdate.toNat = r at *
  generalize experimental.toNat = e at *
  generalize showFrame.toNat = s at *
  unfold chunkBits
  simp only [List.length_append, List.length_cons, List.length_nil, Nat.reduceAdd, Nat.reduceSub, Nat.reduceDiv]
  rw [if_neg (by omega), if_neg (by omega), if_neg (by omega), if_neg (by omega)]
  simp only [List.cons_append, List.nil_append, List.take_succ_cons, List.take_zero, leValue, UInt8.toNat_ofNat', Nat.shiftRight_eq_div_pow]
  refine ⟨?_, ?_, ?_, ?_⟩ <;> congr 1 <;> omega

theorem prefix_facts (w h : Nat) (hw : w < 2 ^ 14) (hh : h < 2 ^ 14) (tag tail : List UInt8) (ht : tag.length = 3) :
    checkKeyFrame (tag ++ (keyFramePrefix w h ++ tail)) w h = .ok () := by
  have h1 : ∀ n : Nat, n &&& 0xff = n % 256 := fun n => Nat.and_two_pow_sub_one_eq_mod n 8
  have h2 : ∀ n : Nat, (n &&& 0x3f00) >>> 8 = n / 256 % 64 := fun n => by
    rw [Nat.shiftRight_and_distrib]
    exact (Nat.and_two_pow_sub_one_eq_mod _ 6).trans (by rw [Nat.shiftRight_eq_div_pow])
  unfold checkKeyFrame keyFramePrefix
  simp only [h1, h2]
  have e1 : tag ++ ([0x9d, 0x01, 0x2a, UInt8.ofNat (w % 256), UInt8.ofNat (w / 256 % 64), UInt8.ofNat (h % 256), UInt8.ofNat (h / 256 % 64)] ++ tail) =
      tag ++ ([0x9d, 0x01, 0x2a] ++ ([UInt8.ofNat (w % 256), UInt8.ofNat (w / 256 % 64), UInt8.ofNat (h % 256), UInt8.ofNat (h / 256 % 64)] ++ tail)) := rfl
  have s1 : subChunk (tag ++ ([0x9d, 0x01, 0x2a, UInt8.ofNat (w % 256), UInt8.ofNat (w / 256 % 64), UInt8.ofNat (h % 256), UInt8.ofNat (h / 256 % 64)] ++ tail)) 3 3 =
      .ok [0x9d, 0x01, 0x2a] := by
    rw [e1]
    have := subChunk_append tag [0x9d, 0x01, 0x2a] ([UInt8.ofNat (w % 256), UInt8.ofNat (w / 256 % 64), UInt8.ofNat (h % 256), UInt8.ofNat (h / 256 % 64)] ++ tail)
    rwa [ht] at this
  have s2 : subChunk (tag ++ ([0x9d, 0x01, 0x2a, UInt8.ofNat (w % 256), UInt8.ofNat (w / 256 % 64), UInt8.ofNat (h % 256), UInt8.ofNat (h / 256 % 64)] ++ tail)) 6 4 =
      .ok [UInt8.ofNat (w % 256), UInt8.ofNat (w / 256 % 64), UInt8.ofNat (h % 256), UInt8.ofNat (h / 256 % 64)] := by
    rw [e1, ← List.append_assoc]
    have := subChunk_append (tag ++ [0x9d, 0x01, 0x2a]) [UInt8.ofNat (w % 256), UInt8.ofNat (w / 256 % 64), UInt8.ofNat (h % 256), UInt8.ofNat (h / 256 % 64)] tail
    rwa [List.length_append, ht] at this
  rw [s1]
  simp only [bind, Except.bind]
  rw [s2]
  unfold chunkBits
  simp only [List.length_cons, List.length_nil, Nat.reduceAdd, Nat.reduceSub, Nat.reduceDiv, Nat.lt_irrefl, if_false, Nat.reduceLT,
    List.take_succ_cons, List.take_zero, leValue, UInt8.toNat_ofNat', Nat.shiftRight_eq_div_pow, ne_eq, not_true_eq_false]
  rw [if_neg (by omega)]
  rfl

/-- **C10.** A frame is assembled from any first partition shorter than 2^19 bytes and any nonempty list of coefficient
partitions, the non-final ones shorter than 2^24 bytes, with dimensions below 2^14 (for a frame whose tag is one the reader
supports: the two version flags are `experimental` and `referenceUpdate`, the second only with the first), provided
something follows the first partition.  The reader that expects these dimensions then finds the same flags, the same first
partition and the same list of coefficient partitions. -/
theorem C10_container_round_trip (keyFrame showFrame experimental referenceUpdate acceptPartial : Bool) (width height : Nat)
    (first : List UInt8) (dct : List (List UInt8)) (hw : width < 2 ^ 14) (hh : height < 2 ^ 14) (hne : dct ≠ [])
    (hv : referenceUpdate = true → experimental = true)
    (hf : first.length < 2 ^ 19) (hd : ∀ p ∈ dct.dropLast, p.length < 2 ^ 24) (hrest : dct ≠ [[]]) :
    ∃ bytes parts, makeFrame keyFrame showFrame experimental referenceUpdate width height first dct = .ok bytes ∧
      splitFrame bytes width height acceptPartial = .ok parts ∧
      parts.keyFrame = keyFrame ∧ parts.showFrame = showFrame ∧ parts.experimental = experimental ∧
      parts.firstPartition = first ∧ parts.corruption = .none ∧
      dctPartitions parts.rest dct.length = .ok dct := by
  have hmake : makeFrame keyFrame showFrame experimental referenceUpdate width height first dct =
      .ok (frameTag keyFrame showFrame experimental referenceUpdate first.length ++
        ((if keyFrame then keyFramePrefix width height else []) ++ (first ++
          ((dct.dropLast.map (fun p => lengthBytes p.length)).flatten ++ dct.flatten)))) := by
    unfold makeFrame
    rw [if_neg (by omega), if_neg (by simpa using hne)]
  refine ⟨_, { keyFrame, showFrame, experimental, firstPartition := first
               rest := (dct.dropLast.map (fun p => lengthBytes p.length)).flatten ++ dct.flatten }, hmake, ?_, rfl, rfl, rfl, rfl, rfl, ?_⟩
  · have hlen : 0 < ((dct.dropLast.map (fun p => lengthBytes p.length)).flatten ++ dct.flatten).length := by
      match dct, hne, hrest with
      | [p], _, hr =>
        have : p ≠ [] := fun e => hr (by rw [e])
        have := List.length_pos_iff.mpr this
        simpa using this
      | p :: q :: l, _, _ =>
        simp only [List.dropLast_cons_of_ne_nil (List.cons_ne_nil q l), List.map_cons, List.flatten_cons, List.length_append, lengthBytes, List.length_cons]
        omega
    generalize (dct.dropLast.map (fun p => lengthBytes p.length)).flatten ++ dct.flatten = rest at hlen
    obtain ⟨t1, t2, t3, t4⟩ := tag_facts keyFrame showFrame experimental referenceUpdate first.length hf
      ((if keyFrame then keyFramePrefix width height else []) ++ (first ++ rest))
    have htag : (frameTag keyFrame showFrame experimental referenceUpdate first.length).length = 3 := rfl
    have hpre : ((if keyFrame then keyFramePrefix width height else []) : List UInt8).length = if keyFrame then 7 else 0 := by
      cases keyFrame <;> rfl
    have hver : versionExperimental (2 * referenceUpdate.toNat + 4 * experimental.toNat) = .ok experimental := by
      cases referenceUpdate <;> cases experimental
      · rfl
      · rfl
      · exact absurd (hv rfl) (by decide)
      · rfl
    have hkey : keyFrame = true → checkKeyFrame (frameTag keyFrame showFrame experimental referenceUpdate first.length ++
        ((if keyFrame then keyFramePrefix width height else []) ++ (first ++ rest))) width height = .ok () := by
      intro hk
      rw [hk]
      exact prefix_facts width height hw hh _ _ rfl
    have hsplit : splitPartitions (frameTag keyFrame showFrame experimental referenceUpdate first.length ++
        ((if keyFrame then keyFramePrefix width height else []) ++ (first ++ rest))) keyFrame acceptPartial = .ok (first, rest, .none) := by
      unfold splitPartitions
      rw [t4]
      have hoff : (if keyFrame then 10 else 3) = (frameTag keyFrame showFrame experimental referenceUpdate first.length ++
          (if keyFrame then keyFramePrefix width height else [])).length := by
        rw [List.length_append, htag, hpre]; cases keyFrame <;> rfl
      simp only [bind, Except.bind]
      rw [← List.append_assoc, hoff]
      rw [if_neg (by simp only [List.length_append] at hlen ⊢; omega), subChunk_append]
      simp only
      have := subChunk_end ((frameTag keyFrame showFrame experimental referenceUpdate first.length ++
          (if keyFrame then keyFramePrefix width height else [])) ++ first) rest
        ((frameTag keyFrame showFrame experimental referenceUpdate first.length ++
          (if keyFrame then keyFramePrefix width height else []) ++ (first ++ rest)).length - (frameTag keyFrame showFrame experimental referenceUpdate first.length ++
          (if keyFrame then keyFramePrefix width height else [])).length - first.length) (by simp only [List.length_append]; omega)
      rw [List.length_append (as := _ ++ _) (bs := first), List.append_assoc _ first rest] at this
      rw [this]
      rfl
    unfold splitFrame
    have hbody : splitFrameBody (frameTag keyFrame showFrame experimental referenceUpdate first.length ++
        ((if keyFrame then keyFramePrefix width height else []) ++ (first ++ rest))) width height acceptPartial =
        .ok { keyFrame, showFrame, experimental, firstPartition := first, rest } := by
      unfold splitFrameBody
      rw [t1, t2, t3]
      simp only [bind, Except.bind]
      rw [hver]
      simp only
      have hk0 : ((!keyFrame).toNat == 0) = keyFrame := by cases keyFrame <;> rfl
      have hs1 : (showFrame.toNat == 1) = showFrame := by cases showFrame <;> rfl
      rw [hk0, hs1, hsplit]
      simp only
      cases hkf : keyFrame with
      | false => rfl
      | true =>
        rw [hkf] at hkey
        simp only [if_true]
        have := hkey rfl
        simp only [if_true] at this
        rw [this]
        rfl
    rw [hbody]
  · unfold dctPartitions
    have hl : dct.length - 1 = dct.dropLast.length := by simp
    rw [hl]
    simp only
    rw [readLengths_spec _ _ hd]
    simp only [bind, Except.bind]
    have e : dct.flatten = dct.dropLast.flatten ++ dct.getLast hne := by
      conv => lhs; rw [← List.dropLast_concat_getLast hne]
      simp
    rw [e, cutPartitions_spec, List.dropLast_concat_getLast]

/-- A frame that meets the hypotheses: a key frame with three coefficient partitions, one of them empty. -/
example : ∃ bytes parts, makeFrame true true false false 176 144 [1, 2, 3] [[4, 5], [], [6]] = .ok bytes ∧
    splitFrame bytes 176 144 false = .ok parts ∧ parts.firstPartition = [1, 2, 3] ∧
    dctPartitions parts.rest 3 = .ok [[4, 5], [], [6]] := by
  obtain ⟨b, p, h1, h2, -, -, -, h3, -, h4⟩ := C10_container_round_trip true true false false false 176 144 [1, 2, 3] [[4, 5], [], [6]]
    (by decide) (by decide) (by decide) (by decide) (by decide) (by decide) (by decide)
  exact ⟨b, p, h1, h2, h3, h4⟩

/-- And an experimental reference-update frame whose bytes are spelled out. -/
example : makeFrame false false true true 176 144 [7] [[8]] = .ok [45, 0, 0, 7, 8] := by decide

/-! ### Arbitrary bytes -/

theorem except_bind_ok {ε α β : Type} {x : Except ε α} {f : α → Except ε β} {b : β} (h : (x >>= f) = .ok b) :
    ∃ a, x = .ok a ∧ f a = .ok b := by
  cases x with
  | error e => exact nomatch h
  | ok a => exact ⟨a, rfl, h⟩

theorem subChunk_ok {c a : List UInt8} {off len : Nat} (h : subChunk c off len = .ok a) :
    a.length = len ∧ ∃ x y, x.length = off ∧ c = x ++ (a ++ y) := by
  unfold subChunk at h
  by_cases h1 : c.length < off
  · rw [if_pos h1] at h; exact nomatch h
  rw [if_neg h1] at h
  by_cases h2 : c.length < off + len
  · rw [if_pos h2] at h; exact nomatch h
  rw [if_neg h2] at h
  injection h with h
  subst h
  refine ⟨by simp only [List.length_take, List.length_drop]; omega, c.take off, (c.drop off).drop len, by simp only [List.length_take]; omega, ?_⟩
  rw [List.take_append_drop, List.take_append_drop]

theorem restOfChunk_ok {c a : List UInt8} {off : Nat} (h : restOfChunk c off = .ok a) : ∃ x, x.length = off ∧ c = x ++ a := by
  obtain ⟨h1, x, y, h2, h3⟩ := subChunk_ok h
  refine ⟨x, h2, ?_⟩
  have : y.length = 0 := by
    have := congrArg List.length h3
    simp only [List.length_append] at this
    omega
  rw [h3, List.length_eq_zero_iff.mp this, List.append_nil]

theorem readLengths_ok : ∀ (n : Nat) (c : List UInt8) (ls : List Nat) (c' : List UInt8), readLengths n c = .ok (ls, c') →
    ls.length = n ∧ (∀ l ∈ ls, l < 2 ^ 24) ∧ ∃ x, x.length = 3 * n ∧ c = x ++ c'
  | 0, c, ls, c', h => by
    injection h with h
    injection h with h1 h2
    subst h1 h2
    exact ⟨rfl, by simp, [], rfl, rfl⟩
  | n + 1, c, ls, c', h => by
    rw [readLengths] at h
    obtain ⟨l, hl, h⟩ := except_bind_ok h
    obtain ⟨c1, hc1, h⟩ := except_bind_ok h
    obtain ⟨⟨ls', c2⟩, hr, h⟩ := except_bind_ok h
    injection h with h
    injection h with h1 h2
    subst h1 h2
    obtain ⟨i1, i2, x, i3, i4⟩ := readLengths_ok n c1 ls' c2 hr
    obtain ⟨y, j1, j2⟩ := restOfChunk_ok hc1
    refine ⟨by rw [List.length_cons, i1], ?_, y ++ x, by rw [List.length_append]; omega, by rw [List.append_assoc, ← i4, ← j2]⟩
    intro m hm
    rcases List.mem_cons.mp hm with rfl | hm
    · unfold chunkBits at hl
      simp only at hl
      by_cases hq : c.length < 1 + (0 + 24 - 1) / 8
      · rw [if_pos hq] at hl; exact nomatch hl
      · rw [if_neg hq] at hl
        injection hl with hl
        rw [← hl]
        exact Nat.mod_lt _ (by decide)
    · exact i2 m hm

theorem cutPartitions_ok : ∀ (ls : List Nat) (c : List UInt8) (ps : List (List UInt8)), cutPartitions ls c = .ok ps →
    c = ps.flatten ∧ ps.dropLast.map List.length = ls ∧ ps.length = ls.length + 1
  | [], c, ps, h => by
    injection h with h
    subst h
    exact ⟨by simp, rfl, rfl⟩
  | l :: ls, c, ps, h => by
    rw [cutPartitions] at h
    obtain ⟨p, hp, h⟩ := except_bind_ok h
    obtain ⟨c1, hc1, h⟩ := except_bind_ok h
    obtain ⟨qs, hq, h⟩ := except_bind_ok h
    injection h with h
    subst h
    obtain ⟨i1, i2, i3⟩ := cutPartitions_ok ls c1 qs hq
    obtain ⟨j1, x, y, j2, j3⟩ := subChunk_ok hp
    obtain ⟨z, k1, k2⟩ := restOfChunk_ok hc1
    have hx : x = [] := List.length_eq_zero_iff.mp j2
    subst hx
    rw [List.nil_append] at j3
    have hz : z = p := (List.append_inj (k2.symm.trans j3) (k1.trans j1.symm)).1
    have hqs : qs ≠ [] := by intro e; rw [e] at i3; exact nomatch i3
    refine ⟨by rw [List.flatten_cons, ← i1, k2, hz], ?_, by simp [i3]⟩
    rw [List.dropLast_cons_of_ne_nil hqs, List.map_cons, i2, j1]

/-- **C11.** Whatever bytes are offered, for whatever dimensions: if the reader accepts them then either the frame is whole,
and it is a header of 3 bytes (10 for a key frame), the first partition and a nonempty remainder, in that order and with
nothing between; or damage was to be tolerated, and the frame is the header and a truncated first partition, or nothing of
it is used. -/
theorem C11_partitions_are_sub_ranges (frame : List UInt8) (width height : Nat) (acceptPartial : Bool) (parts : FrameParts)
    (h : splitFrame frame width height acceptPartial = .ok parts) :
    (parts.corruption = .none ∧ parts.rest ≠ [] ∧ ∃ header : List UInt8, header.length = (if parts.keyFrame then 10 else 3) ∧
        frame = header ++ (parts.firstPartition ++ parts.rest)) ∨
      (acceptPartial = true ∧ parts.corruption = .firstPartition ∧ parts.rest = [] ∧
        ∃ header : List UInt8, header.length = (if parts.keyFrame then 10 else 3) ∧ frame = header ++ parts.firstPartition) ∨
      (acceptPartial = true ∧ parts.corruption = .frame ∧ parts.firstPartition = [] ∧ parts.rest = [] ∧ parts.keyFrame = false ∧
        parts.experimental = false) := by
  unfold splitFrame at h
  cases hb : splitFrameBody frame width height acceptPartial with
  | error e =>
    rw [hb] at h
    cases e with
    | outOfRange =>
      simp only at h
      by_cases ha : acceptPartial = true
      · rw [if_pos ha] at h
        injection h with h
        subst h
        exact Or.inr (Or.inr ⟨ha, rfl, rfl, rfl, rfl, rfl⟩)
      · rw [if_neg ha] at h; exact nomatch h
    | invalid => exact nomatch h
    | unsupported => exact nomatch h
    | internal => exact nomatch h
  | ok q =>
    rw [hb] at h
    injection h with h
    subst h
    unfold splitFrameBody at hb
    obtain ⟨key, hkey, hb⟩ := except_bind_ok hb
    obtain ⟨sh, hsh, hb⟩ := except_bind_ok hb
    obtain ⟨ver, hver, hb⟩ := except_bind_ok hb
    obtain ⟨ex, hex, hb⟩ := except_bind_ok hb
    obtain ⟨⟨first, rest, corr⟩, hs, hb⟩ := except_bind_ok hb
    have hq : q.keyFrame = (key == 0) ∧ q.firstPartition = first ∧ q.rest = rest ∧ q.corruption = corr := by
      simp only at hb
      by_cases hk : (key == 0) = true
      · rw [if_pos hk] at hb
        obtain ⟨-, -, hb⟩ := except_bind_ok hb
        injection hb with hb
        subst hb
        exact ⟨rfl, rfl, rfl, rfl⟩
      · rw [if_neg hk] at hb
        injection hb with hb
        subst hb
        exact ⟨rfl, rfl, rfl, rfl⟩
    obtain ⟨q1, q2, q3, q4⟩ := hq
    rw [q1, q2, q3, q4]
    unfold splitPartitions at hs
    obtain ⟨len, hlen, hs⟩ := except_bind_ok hs
    simp only at hs
    generalize hoff : (if (key == 0) = true then 10 else 3) = off at hs ⊢
    by_cases hc : frame.length ≤ off + len
    · rw [if_pos hc] at hs
      by_cases ha : acceptPartial = true
      · rw [if_pos ha] at hs
        obtain ⟨f, hf, hs⟩ := except_bind_ok hs
        injection hs with hs
        simp only [Prod.mk.injEq] at hs
        obtain ⟨rfl, rfl, rfl⟩ := hs
        obtain ⟨x, hx, he⟩ := restOfChunk_ok hf
        exact Or.inr (Or.inl ⟨ha, rfl, rfl, x, hx, he⟩)
      · rw [if_neg ha] at hs; exact nomatch hs
    · rw [if_neg hc] at hs
      obtain ⟨f, hf, hs⟩ := except_bind_ok hs
      obtain ⟨r, hr, hs⟩ := except_bind_ok hs
      injection hs with hs
      simp only [Prod.mk.injEq] at hs
      obtain ⟨rfl, rfl, rfl⟩ := hs
      obtain ⟨f1, x, y, f2, f3⟩ := subChunk_ok hf
      obtain ⟨r1, x', y', r2, r3⟩ := subChunk_ok hr
      have hlen2 := congrArg List.length r3
      simp only [List.length_append] at hlen2
      have hy' : y' = [] := List.length_eq_zero_iff.mp (by omega)
      subst hy'
      rw [List.append_nil] at r3
      rw [← List.append_assoc] at f3
      have hxy := (List.append_inj (f3.symm.trans r3) (by rw [List.length_append]; omega)).2
      refine Or.inl ⟨rfl, ?_, x, f2, by rw [f3, List.append_assoc, hxy]⟩
      intro e
      rw [e, List.length_nil] at r1
      omega

/-- The first bytes of a frame that is accepted: bit 0 of the first byte says whether it is an inter frame, bit 4 whether it is
shown, bits 1-3 are 0, or 4 or 6 for an experimental frame; a key frame has the start code and exactly the
dimensions of the decoder, unscaled. -/
def FrameStart (width height : Nat) (parts : FrameParts) (frame : List UInt8) : Prop :=
  ∃ b tail, frame = b :: tail ∧ (parts.keyFrame = true ↔ b.toNat % 2 = 0) ∧ (parts.showFrame = true ↔ b.toNat / 16 % 2 = 1) ∧
    (b.toNat / 2 % 8 = 0 ∧ parts.experimental = false ∨ (b.toNat / 2 % 8 = 4 ∨ b.toNat / 2 % 8 = 6) ∧ parts.experimental = true) ∧
    (parts.keyFrame = true → ∃ t1 t2 w0 w1 h0 h1 tail', frame = [b, t1, t2, 0x9d, 0x01, 0x2a, w0, w1, h0, h1] ++ tail' ∧
      w0.toNat + 256 * w1.toNat = width ∧ h0.toNat + 256 * h1.toNat = height)

theorem chunkBits_ok {c : List UInt8} {off len v : Nat} (h : chunkBits c off len = .ok v) :
    1 + (off + len - 1) / 8 ≤ c.length ∧ v = (leValue (c.take (1 + (off + len - 1) / 8)) >>> off) % 2 ^ len := by
  unfold chunkBits at h
  simp only at h
  by_cases hq : c.length < 1 + (off + len - 1) / 8
  · rw [if_pos hq] at h; exact nomatch h
  · rw [if_neg hq] at h
    injection h with h
    exact ⟨by omega, h.symm⟩

theorem checkKeyFrame_ok {frame : List UInt8} {width height : Nat} (h : checkKeyFrame frame width height = .ok ()) :
    ∃ b t1 t2 w0 w1 h0 h1 tail, frame = [b, t1, t2, 0x9d, 0x01, 0x2a, w0, w1, h0, h1] ++ tail ∧
      w0.toNat + 256 * w1.toNat = width ∧ h0.toNat + 256 * h1.toNat = height := by
  unfold checkKeyFrame at h
  obtain ⟨start, h1, h⟩ := except_bind_ok h
  by_cases hs : start ≠ [0x9d, 0x01, 0x2a]
  · rw [if_pos hs] at h; exact nomatch h
  rw [if_neg hs] at h
  have hs : start = [0x9d, 0x01, 0x2a] := by simpa using hs
  obtain ⟨sizes, h2, h⟩ := except_bind_ok h
  obtain ⟨hscale, h3, h⟩ := except_bind_ok h
  obtain ⟨vscale, h4, h⟩ := except_bind_ok h
  obtain ⟨w, h5, h⟩ := except_bind_ok h
  obtain ⟨ht, h6, h⟩ := except_bind_ok h
  by_cases hc : w ≠ width ∨ ht ≠ height ∨ hscale ≠ 0 ∨ vscale ≠ 0
  · rw [if_pos hc] at h; exact nomatch h
  have ⟨c1, c2, c3, c4⟩ : w = width ∧ ht = height ∧ hscale = 0 ∧ vscale = 0 := by
    refine ⟨?_, ?_, ?_, ?_⟩ <;> by_contra hne <;> exact hc (by tauto)
  obtain ⟨l1, x, y, l2, l3⟩ := subChunk_ok h1
  obtain ⟨m1, x', y', m2, m3⟩ := subChunk_ok h2
  match x, l2 with
  | [b, t1, t2], _ =>
  match sizes, m1 with
  | [w0, w1, h0, h1'], _ =>
  have e0 := (chunkBits_ok h5).2
  have e1 := (chunkBits_ok h3).2
  have e2 := (chunkBits_ok h6).2
  have e3 := (chunkBits_ok h4).2
  simp only [leValue, List.take, Nat.shiftRight_eq_div_pow] at e0 e1 e2 e3
  have b0 := w0.toNat_lt; have b1 := w1.toNat_lt; have b2 := h0.toNat_lt; have b3 := h1'.toNat_lt
  refine ⟨b, t1, t2, w0, w1, h0, h1', y', ?_, by omega, by omega⟩
  rw [m3]
  have ex : x' = [b, t1, t2] ++ start := by
    have q := l3.symm.trans m3
    have := congrArg (List.take 6) q
    rw [← List.append_assoc, List.take_left' (by rw [List.length_append, l1]; rfl), List.take_left' m2] at this
    rw [this]
  rw [ex, hs]
  rfl

/-- **C11**: bytes that are accepted as a frame start as the format prescribes; in particular a key frame that declares other
dimensions than the decoder's, or a scaling, is refused. -/
theorem C11_accepted_frame_start (frame : List UInt8) (width height : Nat) (parts : FrameParts)
    (h : splitFrame frame width height false = .ok parts) : FrameStart width height parts frame := by
  have hb : splitFrameBody frame width height false = .ok parts := by
    unfold splitFrame at h
    cases hs : splitFrameBody frame width height false with
    | error e => rw [hs] at h; cases e <;> exact nomatch h
    | ok p => rw [hs] at h; exact h
  unfold splitFrameBody at hb
  obtain ⟨key, h1, hb⟩ := except_bind_ok hb
  obtain ⟨sh, h2, hb⟩ := except_bind_ok hb
  obtain ⟨version, h3, hb⟩ := except_bind_ok hb
  obtain ⟨ex, h4, hb⟩ := except_bind_ok hb
  obtain ⟨⟨first, rest, cor⟩, h5, hb⟩ := except_bind_ok hb
  simp only at hb
  have f1 := (chunkBits_ok h1).2
  have f2 := (chunkBits_ok h2).2
  have f3 := (chunkBits_ok h3).2
  have fl := (chunkBits_ok h1).1
  match frame, fl with
  | b :: tail, _ =>
  simp only [leValue, List.take, Nat.shiftRight_eq_div_pow, Nat.reduceAdd, Nat.reduceSub, Nat.reduceDiv] at f1 f2 f3
  have hcheck : (key == 0) = true → checkKeyFrame (b :: tail) width height = .ok () := by
    intro hk
    rw [if_pos hk] at hb
    obtain ⟨⟨⟩, hc, -⟩ := except_bind_ok hb
    exact hc
  have hparts : parts = { keyFrame := key == 0, showFrame := sh == 1, experimental := ex, firstPartition := first, rest, corruption := cor } := by
    by_cases hk : (key == 0) = true
    · rw [if_pos hk] at hb
      obtain ⟨⟨⟩, -, hb⟩ := except_bind_ok hb
      injection hb with hb
      exact hb.symm
    · rw [if_neg hk] at hb
      injection hb with hb
      exact hb.symm
  subst hparts
  refine ⟨b, tail, rfl, ?_, ?_, ?_, fun hk => ?_⟩
  · show (key == 0) = true ↔ _
    rw [beq_iff_eq]; omega
  · show (sh == 1) = true ↔ _
    rw [beq_iff_eq]; omega
  · show b.toNat / 2 % 8 = 0 ∧ ex = false ∨ _ ∧ ex = true
    unfold versionExperimental at h4
    have e : b.toNat / 2 % 8 = version := by omega
    rw [e]
    by_cases v0 : version = 0
    · rw [if_pos v0] at h4; injection h4 with h4; exact Or.inl ⟨v0, h4.symm⟩
    rw [if_neg v0] at h4
    by_cases v4 : version = 4
    · rw [if_pos v4] at h4; injection h4 with h4; exact Or.inr ⟨Or.inl v4, h4.symm⟩
    rw [if_neg v4] at h4
    by_cases v6 : version = 6
    · rw [if_pos v6] at h4; injection h4 with h4; exact Or.inr ⟨Or.inr v6, h4.symm⟩
    · rw [if_neg v6] at h4; exact nomatch h4
  · obtain ⟨b', t1, t2, w0, w1, v0, v1, tl, e1, e2, e3⟩ := checkKeyFrame_ok (hcheck hk)
    have : b' = b := by injection e1 with e1 _; exact e1.symm
    subst this
    exact ⟨t1, t2, w0, w1, v0, v1, tl, e1, e2, e3⟩

example : splitFrame [0x30, 0, 0, 0x9d, 1, 0x2a, 17, 1, 20, 0, 5, 6] 273 20 false =
    .ok { keyFrame := true, showFrame := true, firstPartition := [5], rest := [6] } := by decide +kernel

/-- **C11.** If the coefficient partitions of a remainder can be had, there are as many as asked for (at least one), and
the remainder is their length fields followed by the partitions, in order and with nothing between; the length fields
are 3 bytes for each partition but the last. -/
theorem C11_coefficient_partitions_are_sub_ranges (rest : List UInt8) (num : Nat) (parts : List (List UInt8))
    (h : dctPartitions rest num = .ok parts) :
    parts.length = max 1 num ∧ ∃ lengths : List UInt8, lengths.length = 3 * (num - 1) ∧ rest = lengths ++ parts.flatten ∧
      ∀ p ∈ parts.dropLast, p.length < 2 ^ 24 := by
  unfold dctPartitions at h
  obtain ⟨⟨ls, c⟩, hr, hc⟩ := except_bind_ok h
  obtain ⟨r1, r2, x, r3, r4⟩ := readLengths_ok _ _ _ _ hr
  obtain ⟨c1, c2, c3⟩ := cutPartitions_ok _ _ _ hc
  refine ⟨by omega, x, r3, by rw [r4, c1], ?_⟩
  intro p hp
  exact r2 _ (c2 ▸ List.mem_map_of_mem hp)

/-- **C11.** The failures of the reader are the two it declares; running off the end of the frame is turned into one of
them. -/
theorem C11_only_declared_failures (frame : List UInt8) (width height : Nat) (acceptPartial : Bool) :
    splitFrame frame width height acceptPartial ≠ .error .outOfRange := by
  unfold splitFrame
  cases splitFrameBody frame width height acceptPartial with
  | ok q => simp
  | error e => cases e <;> cases acceptPartial <;> simp

/-- Accepted, damaged and rejected frames exist. -/
example : (splitFrame [0x31, 0, 0, 9, 8] 16 16 false).isOk ∧ (splitFrame [0x31, 0, 0, 9] 16 16 false) = .error .invalid ∧
    (splitFrame [0x31, 0, 0, 9] 16 16 true).map (·.corruption) = .ok .firstPartition ∧
    (splitFrame [0x31, 0] 16 16 true).map (·.corruption) = .ok .frame ∧
    splitFrame [0x32, 0, 0, 9, 8] 16 16 true = .error .unsupported := by decide

/-! ### Sizes the container cannot hold -/

/-- A first partition of 2^19 bytes or more is not recovered: the writer keeps the low 19 bits of its length without
complaint, and the reader is given something else. -/
theorem C10_oversize_first_partition_lost (keyFrame showFrame experimental referenceUpdate acceptPartial : Bool) (width height : Nat)
    (first : List UInt8) (dct : List (List UInt8)) (bytes : List UInt8) (parts : FrameParts)
    (hm : makeFrame keyFrame showFrame experimental referenceUpdate width height first dct = .ok bytes)
    (hs : splitFrame bytes width height acceptPartial = .ok parts) (h : 2 ^ 19 ≤ first.length) : parts.firstPartition ≠ first := by
  intro he
  unfold splitFrame at hs
  cases hb : splitFrameBody bytes width height acceptPartial with
  | error e =>
    rw [hb] at hs
    cases e with
    | outOfRange =>
      simp only at hs
      by_cases ha : acceptPartial = true
      · rw [if_pos ha] at hs
        injection hs with hs
        subst hs
        simp only at he
        rw [← he, List.length_nil] at h
        omega
      · rw [if_neg ha] at hs; exact nomatch hs
    | invalid => exact nomatch hs
    | unsupported => exact nomatch hs
    | internal => exact nomatch hs
  | ok q =>
    rw [hb] at hs
    injection hs with hs
    subst hs
    unfold splitFrameBody at hb
    obtain ⟨key, hkey, hb⟩ := except_bind_ok hb
    obtain ⟨sh, hsh, hb⟩ := except_bind_ok hb
    obtain ⟨ver, hver, hb⟩ := except_bind_ok hb
    obtain ⟨ex, hex, hb⟩ := except_bind_ok hb
    obtain ⟨⟨f, r, corr⟩, hp, hb⟩ := except_bind_ok hb
    have hq : q.firstPartition = f := by
      simp only at hb
      by_cases hk : (key == 0) = true
      · rw [if_pos hk] at hb
        obtain ⟨-, -, hb⟩ := except_bind_ok hb
        injection hb with hb
        subst hb
        rfl
      · rw [if_neg hk] at hb
        injection hb with hb
        subst hb
        rfl
    have hkf : (if (key == 0) = true then 10 else 3) = (if keyFrame = true then 10 else 3) ∧ bytes.length ≥ (if keyFrame = true then 10 else 3) + first.length := by
      unfold makeFrame at hm
      by_cases h1 : 16383 < width ∨ 16383 < height
      · rw [if_pos h1] at hm; exact nomatch hm
      rw [if_neg h1] at hm
      by_cases h2 : dct.isEmpty = true
      · rw [if_pos h2] at hm; exact nomatch hm
      rw [if_neg h2] at hm
      injection hm with hm
      subst hm
      constructor
      · unfold frameTag chunkBits at hkey
        simp only [List.length_append, List.length_cons, List.length_nil, Nat.reduceAdd, Nat.reduceSub, Nat.reduceDiv] at hkey
        rw [if_neg (by omega)] at hkey
        injection hkey with hkey
        subst hkey
        have h7 : first.length &&& 0x7 = first.length % 8 := Nat.and_two_pow_sub_one_eq_mod _ 3
        have : first.length % 8 < 8 := Nat.mod_lt _ (by decide)
        simp only [List.cons_append, List.nil_append, List.take_succ_cons, List.take_zero, leValue, UInt8.toNat_ofNat', h7]
        generalize first.length % 8 = k at this ⊢
        interval_cases k <;> cases keyFrame <;> cases referenceUpdate <;> cases experimental <;> cases showFrame <;> decide
      · cases keyFrame <;> simp only [List.length_append, frameTag, keyFramePrefix, List.length_cons, List.length_nil, if_true] <;>
          simp <;> omega
    unfold splitPartitions at hp
    obtain ⟨len, hlen, hp⟩ := except_bind_ok hp
    have hlt : len < 2 ^ 19 := by
      unfold chunkBits at hlen
      simp only at hlen
      by_cases hq : bytes.length < 1 + (5 + 19 - 1) / 8
      · rw [if_pos hq] at hlen; exact nomatch hlen
      · rw [if_neg hq] at hlen
        injection hlen with hlen
        rw [← hlen]
        exact Nat.mod_lt _ (by decide)
    simp only [hkf.1] at hp
    rw [if_neg (by omega)] at hp
    obtain ⟨f', hf, hp⟩ := except_bind_ok hp
    obtain ⟨r', hr, hp⟩ := except_bind_ok hp
    injection hp with hp
    simp only [Prod.mk.injEq] at hp
    obtain ⟨rfl, -, -⟩ := hp
    have := (subChunk_ok hf).1
    rw [← hq, he] at this
    omega

/-- A coefficient partition of 2^24 bytes or more that is not the last is not recovered either. -/
theorem C10_oversize_coefficient_partition_lost (rest : List UInt8) (dct : List (List UInt8))
    (h : ∃ p ∈ dct.dropLast, 2 ^ 24 ≤ p.length) : dctPartitions rest dct.length ≠ .ok dct := by
  intro he
  obtain ⟨p, hp, hl⟩ := h
  obtain ⟨-, -, -, -, hb⟩ := C11_coefficient_partitions_are_sub_ranges rest _ _ he
  have := hb p hp
  omega

/-- Announcing a reference update without the experimental flag, which the writer permits, gives a frame that the reader
refuses. -/
theorem C10_reference_update_needs_experimental : (makeFrame false true false true 16 16 [7] [[8]]).bind
    (fun bytes => splitFrame bytes 16 16 false) = .error .unsupported := by decide

end Alfalfa
