import Verif.Spec.WholeFrame
import Verif.Props.HeaderBits
import Verif.Props.CoefficientBits
import Verif.Props.FrameBytes
import Verif.Props.Arithmetic
import Verif.Props.Frame

/-! C111: a whole frame is serialized as the format says. -/

namespace Alfalfa

open FrameSpec

theorem gridAbove_over {α : Type} {w : Nat} (hw : 0 < w) (all : List α) (k : Nat) : gridAbove w all k = over w all k := by
  unfold gridAbove over
  by_cases h : w ≤ k
  · rw [if_pos h, if_neg (by have := Nat.div_pos h hw; omega)]
  · rw [if_neg h, if_pos (Nat.div_eq_of_lt (by omega))]

theorem gridLeft_before {α : Type} (w : Nat) (all : List α) (k : Nat) : gridLeft w all k = before w all k := rfl

theorem gridContext_around {w : Nat} (hw : 0 < w) (h : Nat) (modes : List MBModes) (k : Nat) : gridContext w h modes k = around w h modes k := by
  unfold gridContext around
  rw [gridAbove_over hw, gridLeft_before]
  congr 1
  unfold gridAboveLeft
  by_cases h1 : w ≤ k
  · have := Nat.div_pos h1 hw
    by_cases h2 : k % w = 0
    · rw [if_pos (Or.inr h2), if_neg (fun h => h.2 h2)]
    · rw [if_neg (by omega), if_pos ⟨h1, h2⟩]
  · rw [if_pos (Or.inl (Nat.div_eq_of_lt (by omega))), if_neg (fun h => h1 h.1)]

theorem writeMBs_spec {f : MBContext → MBModes → Option Bits} {g : MBContext → MBModes → Bits} (w h : Nat) (all : List MBModes) :
    ∀ (rest : List MBModes) (k : Nat), (∀ j m, rest[j]? = some m → f (gridContext w h all (k + j)) m = some (g (gridContext w h all (k + j)) m)) →
      writeMBs f w h all k rest = some ((rest.zipIdx k).flatMap fun x => g (gridContext w h all x.2) x.1)
  | [], _, _ => rfl
  | m :: rest, k, hg => by
    have h0 := hg 0 m rfl
    rw [Nat.add_zero] at h0
    have ih := writeMBs_spec w h all rest (k + 1) fun j m' hj => by
      have := hg (j + 1) m' hj
      rwa [show k + (j + 1) = k + 1 + j by omega] at this
    rw [writeMBs, h0, ih]
    rfl

theorem find_lastBefore {P : Nat → Bool} : ∀ {k : Nat} {r : Option Nat}, LastBefore (fun j => P j = true) k r → (List.range k).reverse.find? P = r
  | 0, r, h => by
    cases r with
    | none => rfl
    | some j => exact absurd (h.1 j rfl).1 (Nat.not_lt_zero j)
  | k + 1, r, h => by
    rw [List.range_succ, List.reverse_append, List.reverse_singleton, List.singleton_append, List.find?_cons]
    cases hk : P k with
    | true =>
      simp only
      cases r with
      | none => exact absurd hk (h.2 rfl k (Nat.lt_succ_self k))
      | some j =>
        obtain ⟨h1, -, h3⟩ := h.1 j rfl
        by_cases hj : j = k
        · rw [hj]
        · exact absurd hk (h3 k (by omega) (Nat.lt_succ_self k))
    | false =>
      simp only
      refine find_lastBefore ⟨fun j hj => ?_, fun hn i hi => h.2 hn i (by omega)⟩
      obtain ⟨h1, h2, h3⟩ := h.1 j hj
      have : j ≠ k := fun e => by rw [e, hk] at h2; cases h2
      exact ⟨by omega, h2, fun i a b => h3 i a (by omega)⟩

theorem linkFlag_earlier {modes : List MBModes} {residues : List Residue} {same : Nat → Bool} {k : Nat} {link : Option Nat}
    (h : LastBefore (fun j => same j = true ∧ ∃ m, modes[j]? = some m ∧ m.yMode ≠ B_PRED ∧ m.yMode ≠ SPLITMV) k link) :
    (linkFlag residues link).getD false = earlierY2 modes residues same k := by
  have e : (List.range k).reverse.find? (fun j => same j && (modes[j]?).any fun m => m.yMode ≠ B_PRED && m.yMode ≠ SPLITMV) = link := by
    refine find_lastBefore ?_
    have : (fun j => (same j && (modes[j]?).any fun m => decide (m.yMode ≠ B_PRED) && decide (m.yMode ≠ SPLITMV)) = true) =
        fun j => same j = true ∧ ∃ m, modes[j]? = some m ∧ m.yMode ≠ B_PRED ∧ m.yMode ≠ SPLITMV := by
      funext j
      rw [Bool.and_eq_true]
      congr 1
      cases modes[j]? with
      | none => simp
      | some m => simp
    rw [this]
    exact h
  unfold earlierY2
  rw [e]
  cases link with
  | none => rfl
  | some j =>
    unfold linkFlag
    rw [Option.bind_some]
    show _ = (residues[j]?).any (·.y2.hasNonzero)
    cases residues[j]? with
    | none => rfl
    | some r => rfl

theorem writeResidues_sel {probs : CoeffProbs} {w : Nat} {all : List Residue} {g : MBModes → Residue → Nat → Bits} :
    ∀ (L : List (MBModes × Option Nat × Option Nat)) (rs : List Residue) (k : Nat) (parts : List Bits), L.length = rs.length → 0 < parts.length →
      (∀ j m la ll r, L[j]? = some (m, la, ll) → rs[j]? = some r → writeResidue probs m (linkFlag all la) (linkFlag all ll) (gridAbove w all (k + j))
        (gridLeft w all (k + j)) r = some (g m r (k + j))) →
      ∃ final, writeResidues probs w all k L rs parts = some final ∧ final.length = parts.length ∧ ∀ i p, parts[i]? = some p →
        final[i]? = some (p ++ (((L.map Prod.fst).zip rs).zipIdx k |>.filter fun x => x.2 / w % parts.length == i).flatMap fun x => g x.1.1 x.1.2 x.2)
  | [], rs, k, parts, hl, _, _ => by
    refine ⟨parts, rfl, rfl, fun i p hp => ?_⟩
    rw [hp]
    simp
  | (m, la, ll) :: L, [], _, _, hl, _, _ => nomatch hl
  | (m, la, ll) :: L, r :: rs, k, parts, hl, hp, hg => by
    have h0 := hg 0 m la ll r rfl rfl
    rw [Nat.add_zero] at h0
    have hi : k / w % parts.length < parts.length := Nat.mod_lt _ hp
    obtain ⟨final, f1, f2, f3⟩ := writeResidues_sel (g := g) L rs (k + 1)
      (parts.set (k / w % parts.length) (parts[k / w % parts.length] ++ g m r k)) (Nat.succ.inj hl) (by rw [List.length_set]; exact hp)
      (fun j m' la' ll' r' a b => by
        have := hg (j + 1) m' la' ll' r' a b
        rwa [show k + (j + 1) = k + 1 + j by omega] at this)
    rw [List.length_set] at f2 f3
    refine ⟨final, ?_, f2, fun i p hip => ?_⟩
    · rw [writeResidues, h0]
      simp only [Option.bind_eq_bind, Option.bind_some]
      rw [List.getElem?_eq_getElem hi, Option.bind_some]
      exact f1
    · rw [List.map_cons, List.zip_cons_cons, List.zipIdx_cons, List.filter_cons]
      by_cases he : k / w % parts.length = i
      · subst he
        rw [List.getElem?_eq_getElem hi] at hip
        cases hip
        rw [if_pos (by simp), List.flatMap_cons, ← List.append_assoc]
        exact f3 _ _ (List.getElem?_set_self hi)
      · rw [if_neg (by simpa using he)]
        exact f3 i p (by rw [List.getElem?_set_ne he]; exact hip)

theorem encodeBits_codes (bits : Bits) : ∃ bytes, encodeBits bits = some bytes ∧ Codes bits bytes ∧ bytes.head? ≠ some 255 := by
  obtain ⟨bytes, h1, h2, h3, h4⟩ := C110_writing bits
  exact ⟨bytes, h1, ⟨h2, h4⟩, h3⟩

theorem mapM_codes : ∀ final : List Bits, ∃ parts, final.mapM encodeBits = some parts ∧ parts.length = final.length ∧
    ∀ (i : Nat) b p, final[i]? = some b → parts[i]? = some p → Codes b p ∧ p.head? ≠ some 255
  | [] => ⟨[], rfl, rfl, fun _ _ _ h => nomatch h⟩
  | b :: final => by
    obtain ⟨bytes, h1, h2⟩ := encodeBits_codes b
    obtain ⟨parts, h3, h4, h5⟩ := mapM_codes final
    refine ⟨bytes :: parts, by rw [List.mapM_cons, h1, h3]; rfl, by rw [List.length_cons, List.length_cons, h4], fun i b' p hb hp => ?_⟩
    cases i with
    | zero => cases hb; cases hp; exact h2
    | succ i => exact h5 i b' p hb hp

theorem serialize_parts {H : Type} {K : FrameKind H} {headerOk : H → Prop} {mbOk : H → MBContext → MBModes → Prop} {f : Frame H}
    (hf : f.Ok headerOk mbOk) (t : ProbabilityTables) {header : Bits} {mb : MBContext → MBModes → Bits} (hh : K.writeHeader f.header = header)
    (hmb : ∀ k m, f.modes[k]? = some m → K.writeMB f.header (K.tables t f.header) (gridContext (macroblocks f.width) (macroblocks f.height) f.modes k) m =
      some (mb (gridContext (macroblocks f.width) (macroblocks f.height) f.modes k) m)) :
    ∃ one parts, K.serializeFirst (K.tables t f.header) f = some one ∧ K.serializeTokens (K.tables t f.header) f = some parts ∧
      K.serialize t f = some (frame K.key 0 f.show' f.width f.height one parts) ∧
      (Codes (firstBits header mb f.width f.height f.modes) one ∧ one.head? ≠ some 255) ∧ parts.length = 2 ^ K.log2Partitions f.header ∧
      ∀ i p, parts[i]? = some p → Codes (partitionBits (K.tables t f.header).coeffProbs (macroblocks f.width) (2 ^ K.log2Partitions f.header) i
        f.modes f.residues) p ∧ p.head? ≠ some 255 := by
  have hw : 0 < macroblocks f.width := by have := hf.width.1; unfold macroblocks; omega
  have hmbs := writeMBs_spec (f := K.writeMB f.header (K.tables t f.header)) (g := mb) (macroblocks f.width) (macroblocks f.height) f.modes f.modes 0
    (fun j m hj => by rw [Nat.zero_add]; exact hmb j m hj)
  simp only [gridContext_around hw] at hmbs
  obtain ⟨one, o1, o2⟩ := encodeBits_codes (firstBits header mb f.width f.height f.modes)
  have hfirst : K.serializeFirst (K.tables t f.header) f = some one := by
    unfold FrameKind.serializeFirst
    rw [show macroblockDimension f.width = macroblocks f.width from rfl, show macroblockDimension f.height = macroblocks f.height from rfl, hmbs, hh]
    exact o1
  have hcount : K.partitionCount f.header = 2 ^ K.log2Partitions f.header := by
    unfold FrameKind.partitionCount
    rw [Nat.one_shiftLeft]
  have hlen : (y2Links (macroblocks f.width) f.modes).length = f.modes.length := relinkY2_length _ _ _ _ _
  obtain ⟨final, f1, f2, f3⟩ := writeResidues_sel (probs := (K.tables t f.header).coeffProbs) (w := macroblocks f.width) (all := f.residues)
    (g := coefficientBits (K.tables t f.header).coeffProbs (macroblocks f.width) f.modes f.residues)
    (f.modes.zip (y2Links (macroblocks f.width) f.modes)) f.residues 0 (List.replicate (2 ^ K.log2Partitions f.header) [])
    (by rw [List.length_zip, hlen, Nat.min_self, hf.countResidues]) (by rw [List.length_replicate]; exact Nat.two_pow_pos _)
    (fun j m la ll r hj hr => by
      obtain ⟨z1, z2⟩ := zip_getElem hj
      rw [Nat.zero_add, gridAbove_over hw, gridLeft_before, (C107_macroblock _ m _ _ _ _ r (hf.residues j m r z1 hr)).1]
      obtain ⟨ya, yl⟩ := C57_y2_neighbours (macroblocks f.width) f.modes j la ll z2
      unfold coefficientBits
      rw [linkFlag_earlier (same := fun i => i % macroblocks f.width == j % macroblocks f.width) (by simpa only [beq_iff_eq] using ya),
        linkFlag_earlier (same := fun i => i / macroblocks f.width == j / macroblocks f.width) (by simpa only [beq_iff_eq] using yl)])
  rw [List.length_replicate] at f2 f3
  obtain ⟨parts, p1, p2, p3⟩ := mapM_codes final
  have htokens : K.serializeTokens (K.tables t f.header) f = some parts := by
    unfold FrameKind.serializeTokens
    simp only
    rw [hcount, show macroblockDimension f.width = macroblocks f.width from rfl, f1]
    exact p1
  refine ⟨one, parts, hfirst, htokens, ?_, o2, by rw [p2, f2], fun i p hp => ?_⟩
  · unfold FrameKind.serialize
    simp only
    rw [hfirst, htokens]
    simp only [Option.bind_eq_bind, Option.bind_some]
    rw [C109_frame_bytes K.key f.show' false false f.width f.height one parts hf.width.2 hf.height.2 (by
      intro e
      rw [e, f2] at p2
      exact absurd p2.symm (Nat.two_pow_pos _).ne')]
    rfl
  · have hi : i < 2 ^ K.log2Partitions f.header := by
      have := (List.getElem?_eq_some_iff.mp hp).1
      omega
    have hfin := f3 i [] (by rw [List.getElem?_replicate, if_pos hi])
    have hc := p3 i _ p hfin hp
    rw [List.nil_append, List.map_fst_zip (by rw [hlen])] at hc
    exact hc

theorem serialize_isFrame {H : Type} {K : FrameKind H} {headerOk : H → Prop} {mbOk : H → MBContext → MBModes → Prop} {f : Frame H}
    (hf : f.Ok headerOk mbOk) (t : ProbabilityTables) {header : Bits} {mb : MBContext → MBModes → Bits} (hh : K.writeHeader f.header = header)
    (hmb : ∀ k m, f.modes[k]? = some m → K.writeMB f.header (K.tables t f.header) (gridContext (macroblocks f.width) (macroblocks f.height) f.modes k) m =
      some (mb (gridContext (macroblocks f.width) (macroblocks f.height) f.modes k) m)) :
    ∃ bytes, K.serialize t f = some bytes ∧ IsFrame K.key (firstBits header mb f.width f.height f.modes) (K.tables t f.header).coeffProbs
      (2 ^ K.log2Partitions f.header) f bytes := by
  obtain ⟨one, parts, -, -, h3, h4, h5, h6⟩ := serialize_parts hf t hh hmb
  exact ⟨_, h3, one, parts, rfl, h4.1, h5, fun i p hp => (h6 i p hp).1⟩

/-- **C111**, key frames: the bytes a key frame is serialized to are the frame that the format gives. -/
theorem C111_key_frame (f : Frame KeyFrameHeader) (hf : KeyFrameOk f) : ∃ bytes, keyKind.serialize {} f = some bytes ∧
    IsFrame true (firstBits (HeaderSpec.key f.header) (ModeSpec.keyBits f.header) f.width f.height f.modes)
      (ProbabilityTables.coeffProbUpdate {} f.header.tokenProbUpdate).coeffProbs (2 ^ f.header.log2Partitions) f bytes := by
  refine serialize_isFrame (K := keyKind) hf {} (C108_key_header f.header hf.header).1 fun k m hm => ?_
  have near : ∀ n, n ∈ f.modes → n.IntraOk := fun n hn => by
    obtain ⟨j, hj⟩ := List.getElem?_of_mem hn
    exact (hf.modes j n hj).intra
  refine (C106_key_modes f.header _ m (hf.modes k m hm) (fun n hn => ?_) fun n hn => ?_).1
  · have hn : gridAbove (macroblocks f.width) f.modes k = some n := hn
    unfold gridAbove at hn
    split at hn
    · cases hn
    · exact near n (List.mem_of_getElem? hn)
  · have hn : gridLeft (macroblocks f.width) f.modes k = some n := hn
    unfold gridLeft at hn
    split at hn
    · cases hn
    · exact near n (List.mem_of_getElem? hn)

/-- **C111**, inter frames. -/
theorem C111_inter_frame (f : Frame InterFrameHeader) (hf : InterFrameOk f) (t : ProbabilityTables) : ∃ bytes, interKind.serialize t f = some bytes ∧
    IsFrame false (firstBits (HeaderSpec.inter f.header) (ModeSpec.interBits f.header (t.update f.header)) f.width f.height f.modes)
      (t.update f.header).coeffProbs (2 ^ f.header.log2Partitions) f bytes :=
  serialize_isFrame (K := interKind) hf t (C108_inter_header f.header hf.header).1 fun k m hm =>
    (C106_inter_modes f.header (t.update f.header) _ m (hf.modes k m hm)).1

/-! ### Concrete cases -/

/-- Frames that the theorems are about. -/
example : KeyFrameOk exampleKeyFrame ∧ InterFrameOk exampleInterFrame := ⟨exampleKeyFrame_ok, exampleInterFrame_ok⟩

/-- Four rows of two macroblocks in two partitions: rows 0 and 2, rows 1 and 3. -/
example : ((List.replicate 8 ()).zipIdx.filter fun x => x.2 / 2 % 2 == 1).map Prod.snd = [2, 3, 6, 7] := by decide

/-- The macroblock above number 5 in rows of 3, and the one to the left. -/
example : over 3 [0, 1, 2, 3, 4, 5] 5 = some 2 ∧ before 3 [0, 1, 2, 3, 4, 5] 5 = some 4 ∧ before 3 [0, 1, 2, 3, 4, 5] 3 = none ∧
    over 3 [0, 1, 2, 3, 4, 5] 2 = none := by decide

end Alfalfa
