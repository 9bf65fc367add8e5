import Verif.Spec.FrameBytes
import Verif.Props.Container

/-! C109: the container of a frame has the bytes the format gives. -/

namespace Alfalfa

open FrameSpec

theorem le_three (v : Nat) : le 3 v = [UInt8.ofNat (v % 256), UInt8.ofNat (v / 256 % 256), UInt8.ofNat (v / 65536 % 256)] := by
  show [UInt8.ofNat (v / 256 ^ 0 % 256), UInt8.ofNat (v / 256 ^ 1 % 256), UInt8.ofNat (v / 256 ^ 2 % 256)] = _
  norm_num

theorem le_two (v : Nat) : le 2 v = [UInt8.ofNat (v % 256), UInt8.ofNat (v / 256 % 256)] := by
  show [UInt8.ofNat (v / 256 ^ 0 % 256), UInt8.ofNat (v / 256 ^ 1 % 256)] = _
  norm_num

theorem lengthBytes_le (n : Nat) : lengthBytes n = le 3 n := by
  have h1 : n &&& 0xff = n % 256 := Nat.and_two_pow_sub_one_eq_mod n 8
  have h2 : (n &&& 0xff00) >>> 8 = n / 256 % 256 := by
    rw [Nat.shiftRight_and_distrib]
    exact (Nat.and_two_pow_sub_one_eq_mod _ 8).trans (by rw [Nat.shiftRight_eq_div_pow])
  have h3 : (n &&& 0xff0000) >>> 16 = n / 65536 % 256 := by
    rw [Nat.shiftRight_and_distrib]
    exact (Nat.and_two_pow_sub_one_eq_mod _ 8).trans (by rw [Nat.shiftRight_eq_div_pow])
  unfold lengthBytes
  rw [h1, h2, h3, le_three]

theorem frameTag_bytes (k s e r : Bool) (n : Nat) : frameTag k s e r n = Tag.bytes ⟨k, 2 * r.toNat + 4 * e.toNat, s, n⟩ := by
  have h1 : n &&& 0x7 = n % 8 := Nat.and_two_pow_sub_one_eq_mod n 3
  have h2 : (n &&& 0x7f8) >>> 3 = n / 8 % 256 := by
    rw [Nat.shiftRight_and_distrib]
    exact (Nat.and_two_pow_sub_one_eq_mod _ 8).trans (by rw [Nat.shiftRight_eq_div_pow])
  have h3 : (n &&& 0x7f800) >>> 11 = n / 2048 % 256 := by
    rw [Nat.shiftRight_and_distrib]
    exact (Nat.and_two_pow_sub_one_eq_mod _ 8).trans (by rw [Nat.shiftRight_eq_div_pow])
  have h0 : ((!k).toNat ||| (r.toNat <<< 2) ||| (e.toNat <<< 3) ||| (s.toNat <<< 4) ||| ((n &&& 0x7) <<< 5)) =
      (!k).toNat + 4 * r.toNat + 8 * e.toNat + 16 * s.toNat + 32 * (n % 8) := by
    rw [h1]
    have : n % 8 < 8 := Nat.mod_lt _ (by decide)
    generalize n % 8 = k at this ⊢
    rename_i k'
    interval_cases k <;> cases k' <;> cases r <;> cases e <;> cases s <;> decide
  have hk : (if k then 0 else 1) = (!k).toNat := by cases k <;> rfl
  have hs : (if s then 16 else 0) = 16 * s.toNat := by cases s <;> rfl
  have hb : ∀ b : Bool, b.toNat < 2 := fun b => by cases b <;> decide
  have b1 := hb (!k); have b2 := hb r; have b3 := hb e; have b4 := hb s
  unfold frameTag Tag.bytes
  rw [h0, h2, h3, le_three]
  simp only [hk, hs]
  generalize (!k).toNat = k at *
  generalize r.toNat = r at *
  generalize e.toNat = e at *
  generalize s.toNat = s at *
  congr 1
  · congr 1
    omega
  · congr 1
    · congr 1
      omega
    · congr 2
      omega

theorem keyFramePrefix_bytes (w h : Nat) (hw : w < 2 ^ 14) (hh : h < 2 ^ 14) : keyFramePrefix w h = startOfKeyFrame w h := by
  have h1 : ∀ n : Nat, n &&& 0xff = n % 256 := fun n => Nat.and_two_pow_sub_one_eq_mod n 8
  have h2 : ∀ n : Nat, n < 2 ^ 14 → (n &&& 0x3f00) >>> 8 = n / 256 % 256 := fun n hn => by
    rw [Nat.shiftRight_and_distrib]
    refine (Nat.and_two_pow_sub_one_eq_mod _ 6).trans ?_
    rw [Nat.shiftRight_eq_div_pow]
    omega
  unfold keyFramePrefix startOfKeyFrame
  rw [h1, h1, h2 w hw, h2 h hh, le_two, le_two]
  rfl

/-- **C109.** The frame that is assembled has the bytes the format gives: version 0, or 4 or 6 when it is marked experimental. -/
theorem C109_frame_bytes (keyFrame showFrame experimental referenceUpdate : Bool) (width height : Nat) (first : List UInt8)
    (parts : List (List UInt8)) (hw : width < 2 ^ 14) (hh : height < 2 ^ 14) (hne : parts ≠ []) :
    makeFrame keyFrame showFrame experimental referenceUpdate width height first parts =
      .ok (frame keyFrame (2 * referenceUpdate.toNat + 4 * experimental.toNat) showFrame width height first parts) := by
  unfold makeFrame
  rw [if_neg (by omega), if_neg (by simpa using hne), frameTag_bytes, keyFramePrefix_bytes width height hw hh]
  unfold frame coefficients
  simp only [lengthBytes_le, List.append_assoc, List.flatMap_def]

/-- **C109.** The reader takes a frame that the format lays out apart into what it is made of; `key` and `shown` say what the tag says. -/
theorem C109_reader (keyFrame showFrame acceptPartial : Bool) (width height : Nat) (first : List UInt8) (parts : List (List UInt8))
    (hw : width < 2 ^ 14) (hh : height < 2 ^ 14) (hne : parts ≠ []) (hf : first.length < 2 ^ 19)
    (hd : ∀ p ∈ parts.dropLast, p.length < 2 ^ 24) (hrest : parts ≠ [[]]) :
    ∃ r, splitFrame (frame keyFrame 0 showFrame width height first parts) width height acceptPartial = .ok r ∧
      r.keyFrame = keyFrame ∧ r.showFrame = showFrame ∧ r.experimental = false ∧ r.firstPartition = first ∧ r.corruption = .none ∧
      dctPartitions r.rest parts.length = .ok parts := by
  obtain ⟨bytes, r, hm, h⟩ := C10_container_round_trip keyFrame showFrame false false acceptPartial width height first parts hw hh hne
    (fun h => nomatch h) hf hd hrest
  rw [C109_frame_bytes keyFrame showFrame false false width height first parts hw hh hne] at hm
  cases hm
  exact ⟨r, h⟩

theorem le_three_bytes (x y z : UInt8) : le 3 (x.toNat + 256 * y.toNat + 65536 * z.toNat) = [x, y, z] := by
  have hx := x.toNat_lt; have hy := y.toNat_lt; have hz := z.toNat_lt
  rw [le_three, show (x.toNat + 256 * y.toNat + 65536 * z.toNat) % 256 = x.toNat by omega,
    show (x.toNat + 256 * y.toNat + 65536 * z.toNat) / 256 % 256 = y.toNat by omega,
    show (x.toNat + 256 * y.toNat + 65536 * z.toNat) / 65536 % 256 = z.toNat by omega, UInt8.ofNat_toNat, UInt8.ofNat_toNat, UInt8.ofNat_toNat]

theorem le_two_bytes (x y : UInt8) : le 2 (x.toNat + 256 * y.toNat) = [x, y] := by
  have hx := x.toNat_lt; have hy := y.toNat_lt
  rw [le_two, show (x.toNat + 256 * y.toNat) % 256 = x.toNat by omega, show (x.toNat + 256 * y.toNat) / 256 % 256 = y.toNat by omega,
    UInt8.ofNat_toNat, UInt8.ofNat_toNat]

theorem readLengths_le : ∀ (n : Nat) (c : List UInt8) (ls : List Nat) (c' : List UInt8), readLengths n c = .ok (ls, c') →
    c = ls.flatMap (le 3) ++ c'
  | 0, c, ls, c', h => by
    injection h with h
    injection h with h1 h2
    subst h1 h2
    rfl
  | n + 1, c, ls, c', h => by
    rw [readLengths] at h
    obtain ⟨l, hl, h⟩ := except_bind_ok h
    obtain ⟨c1, hc1, h⟩ := except_bind_ok h
    obtain ⟨⟨ls', c2⟩, hr, h⟩ := except_bind_ok h
    injection h with h
    injection h with h1 h2
    subst h1 h2
    obtain ⟨x, hx, hc⟩ := restOfChunk_ok hc1
    match x, hx with
    | [a, b, d], _ =>
    have hv := (chunkBits_ok hl).2
    rw [hc] at hv
    simp only [List.cons_append, List.nil_append, leValue, List.take, Nat.shiftRight_eq_div_pow, Nat.reduceAdd, Nat.reduceSub, Nat.reduceDiv] at hv
    have ha := a.toNat_lt; have hb := b.toNat_lt; have hd := d.toNat_lt
    have e : l = a.toNat + 256 * b.toNat + 65536 * d.toNat := by omega
    rw [List.flatMap_cons, e, le_three_bytes, List.append_assoc, ← readLengths_le n c1 ls' c2 hr, hc]

/-- The length in the tag of a frame that is accepted as a whole. -/
theorem splitFrame_length {bytes : List UInt8} {width height : Nat} {r : FrameParts} (h : splitFrame bytes width height false = .ok r) :
    chunkBits bytes 5 19 = .ok r.firstPartition.length := by
  have hb : splitFrameBody bytes width height false = .ok r := by
    unfold splitFrame at h
    cases hs : splitFrameBody bytes width height false with
    | error e => rw [hs] at h; cases e <;> exact nomatch h
    | ok p => rw [hs] at h; exact h
  unfold splitFrameBody at hb
  obtain ⟨key, h1, hb⟩ := except_bind_ok hb
  obtain ⟨sh, h2, hb⟩ := except_bind_ok hb
  obtain ⟨version, h3, hb⟩ := except_bind_ok hb
  obtain ⟨ex, h4, hb⟩ := except_bind_ok hb
  obtain ⟨⟨first, rest, cor⟩, h5, hb⟩ := except_bind_ok hb
  simp only at hb
  have hfirst : r.firstPartition = first := by
    by_cases hk : (key == 0) = true
    · rw [if_pos hk] at hb
      obtain ⟨⟨⟩, -, hb⟩ := except_bind_ok hb
      injection hb with hb
      exact hb ▸ rfl
    · rw [if_neg hk] at hb
      injection hb with hb
      exact hb ▸ rfl
  rw [hfirst]
  unfold splitPartitions at h5
  obtain ⟨len, h6, h5⟩ := except_bind_ok h5
  simp only at h5
  by_cases hl : bytes.length ≤ (if (key == 0) = true then 10 else 3) + len
  · rw [if_pos hl] at h5
    exact nomatch h5
  · rw [if_neg hl] at h5
    obtain ⟨f', h7, h5⟩ := except_bind_ok h5
    obtain ⟨r', h8, h5⟩ := except_bind_ok h5
    injection h5 with h5
    injection h5 with h5 _
    rw [← h5, (subChunk_ok h7).1]
    exact h6

/-- **C109.** A frame that the reader accepts, and of which it gives the partitions of coefficients, is laid out as the format says, in
the size of the decoder: nothing else is accepted. -/
theorem C109_accepted (bytes : List UInt8) (width height num : Nat) (r : FrameParts) (parts : List (List UInt8))
    (h : splitFrame bytes width height false = .ok r) (hp : dctPartitions r.rest num = .ok parts) :
    ∃ version, (version = 0 ∧ r.experimental = false ∨ (version = 4 ∨ version = 6) ∧ r.experimental = true) ∧
      bytes = frame r.keyFrame version r.showFrame width height r.firstPartition parts := by
  have hlen := (chunkBits_ok (splitFrame_length h)).2
  have hrest : r.rest = coefficients parts := by
    unfold dctPartitions at hp
    obtain ⟨⟨ls, c⟩, hr, hc⟩ := except_bind_ok hp
    obtain ⟨c1, c2, -⟩ := cutPartitions_ok _ _ _ hc
    rw [readLengths_le _ _ _ _ hr, c1]
    unfold coefficients
    rw [← c2, List.flatMap_map]
  obtain ⟨b, tail, hb, hkey, hshow, hver, hstart⟩ := C11_accepted_frame_start bytes width height r h
  rcases C11_partitions_are_sub_ranges bytes width height false r h with ⟨-, -, header, hl, hf⟩ | ⟨h', -⟩ | ⟨h', -⟩
  rotate_left
  · exact nomatch h'
  · exact nomatch h'
  have tag : ∀ t1 t2 : UInt8, (b.toNat + 256 * (t1.toNat + 256 * (t2.toNat + 256 * 0))) / 2 ^ 5 % 2 ^ 19 = r.firstPartition.length →
      Tag.bytes ⟨r.keyFrame, b.toNat / 2 % 8, r.showFrame, r.firstPartition.length⟩ = [b, t1, t2] := by
    intro t1 t2 ht
    have hb := b.toNat_lt; have h1 := t1.toNat_lt; have h2 := t2.toNat_lt
    have hk : (if r.keyFrame then 0 else 1) = b.toNat % 2 := by
      cases hk : r.keyFrame with
      | true => rw [if_pos rfl, hkey.mp hk]
      | false =>
        have := mt hkey.mpr (by rw [hk]; exact Bool.false_ne_true)
        rw [if_neg Bool.false_ne_true]; omega
    have hs : (if r.showFrame then 16 else 0) = 16 * (b.toNat / 16 % 2) := by
      cases hs : r.showFrame with
      | true => rw [if_pos rfl, hshow.mp hs]
      | false =>
        have := mt hshow.mpr (by rw [hs]; exact Bool.false_ne_true)
        rw [if_neg Bool.false_ne_true]; omega
    unfold Tag.bytes
    simp only [hk, hs]
    rw [← le_three_bytes b t1 t2]
    congr 1
    omega
  refine ⟨b.toNat / 2 % 8, hver, ?_⟩
  unfold frame
  cases hk : r.keyFrame with
  | true =>
    obtain ⟨t1, t2, w0, w1, h0, h1, tail', e, ew, eh⟩ := hstart hk
    rw [hk, if_pos rfl] at hl
    rw [e] at hlen
    simp only [List.cons_append, List.nil_append, leValue, List.take, Nat.shiftRight_eq_div_pow, Nat.reduceAdd, Nat.reduceSub, Nat.reduceDiv] at hlen
    have t := tag t1 t2 hlen.symm
    rw [hk] at t
    rw [t, if_pos rfl]
    have hh : header = [b, t1, t2, 0x9d, 0x01, 0x2a, w0, w1, h0, h1] :=
      (List.append_inj (hf.symm.trans e) hl).1
    unfold startOfKeyFrame
    rw [hf, hh, hrest, ← ew, ← eh, le_two_bytes, le_two_bytes]
    rfl
  | false =>
    rw [hk, if_neg Bool.false_ne_true] at hl
    match header, hl with
    | [x, t1, t2], _ =>
    have : x = b := by
      rw [hb] at hf
      injection hf with hf _
      exact hf.symm
    subst this
    rw [hf] at hlen
    simp only [List.cons_append, List.nil_append, leValue, List.take, Nat.shiftRight_eq_div_pow, Nat.reduceAdd, Nat.reduceSub, Nat.reduceDiv] at hlen
    have t := tag t1 t2 hlen.symm
    rw [hk] at t
    rw [t, if_neg Bool.false_ne_true, hf, hrest]
    rfl

/-! ### Concrete cases -/

/-- A shown key frame of 176 by 144 pixels with a first partition of 9 bytes and two partitions of coefficients. -/
example : frame true 0 true 176 144 (List.replicate 9 7) [[1, 2], [3]] =
    [0x30, 0x01, 0x00, 0x9d, 0x01, 0x2a, 0xb0, 0x00, 0x90, 0x00] ++ List.replicate 9 7 ++ [2, 0, 0, 1, 2, 3] := by decide

/-- A hidden inter frame. -/
example : frame false 0 false 176 144 [5] [[1]] = [0x21, 0x00, 0x00, 5, 1] := by decide

/-- A frame that is accepted, with two partitions of coefficients. -/
example : ∃ r, splitFrame [0x30, 0, 0, 0x9d, 1, 0x2a, 17, 1, 20, 0, 5, 2, 0, 0, 6, 7, 8] 273 20 false = .ok r ∧
    dctPartitions r.rest 2 = .ok [[6, 7], [8]] := ⟨_, rfl, by decide +kernel⟩

end Alfalfa
