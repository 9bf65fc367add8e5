import Verif.Props.Packet

/-! Cutting a frame into packets and putting it together again (C23, C24, C25, C26). -/

namespace Alfalfa

/-! ### Cutting -/

/-- The `k`-th piece of a frame. -/
def piece (c s t f n time : Nat) (whole : List UInt8) (k : Nat) : Packet :=
  { connectionId := c, sourceState := s, targetState := t, frameNo := f, fragmentNo := k, fragmentsInThisFrame := n
    timeSinceLast := if k = 0 then time else 0, payload := (whole.drop (1400 * k)).take 1400 }

theorem take_min_length {α : Type} (l : List α) (n : Nat) : l.take (min l.length n) = l.take n := by
  rw [← List.take_take, List.take_length_eq_self]
where
  List.take_length_eq_self : (l.take n).take l.length = l.take n := List.take_of_length_le (by rw [List.length_take]; omega)

theorem outgoing_packet (whole : List UInt8) (c s t f k : Nat) (h : 1400 * k < whole.length) :
    Packet.outgoing whole c s t f k 0 = some (piece c s t f 0 0 whole k, min (1400 * (k + 1)) whole.length) := by
  unfold Packet.outgoing
  have he : whole.isEmpty = false := by
    cases whole with
    | nil => exact absurd h (Nat.not_lt_zero _)
    | cons a l => rfl
  rw [he, if_neg (by simp)]
  show (if whole.length ≤ 1400 * k then _ else _) = _
  rw [if_neg (by omega)]
  have hn : 1400 * k + min (whole.length - 1400 * k) 1400 = min (1400 * (k + 1)) whole.length := by omega
  have ht : (whole.drop (1400 * k)).take (min (whole.length - 1400 * k) 1400) = (whole.drop (1400 * k)).take 1400 := by
    rw [← List.length_drop]; exact take_min_length _ 1400
  refine congrArg some (Prod.ext (Packet.ext rfl rfl rfl rfl rfl rfl rfl ?_ ht) hn)
  exact (ite_self (0 : Nat)).symm

theorem makeFragments_eq (whole : List UInt8) (c s t f : Nat) (hl : whole.length ≤ 1400 * 65536) :
    ∀ fuel k j, (1400 * k < whole.length → j = k) → whole.length ≤ 1400 * (k + fuel) →
      makeFragments whole c s t f fuel j (min (1400 * k) whole.length) =
        some ((List.range' k ((whole.length + 1399) / 1400 - k)).map (piece c s t f 0 0 whole)) := by
  intro fuel
  induction fuel with
  | zero =>
    intro k j _ hf
    rw [makeFragments, if_pos (by omega), show (whole.length + 1399) / 1400 - k = 0 by omega]
    rfl
  | succ fuel ih =>
    intro k j hj hf
    rw [makeFragments]
    by_cases hk : 1400 * k < whole.length
    · rw [if_neg (by omega), hj hk, outgoing_packet whole c s t f k hk]
      show (makeFragments whole c s t f fuel ((k + 1) % 2 ^ 16) (min (1400 * (k + 1)) whole.length) >>= _) = _
      rw [ih (k + 1) ((k + 1) % 2 ^ 16) (fun h => Nat.mod_eq_of_lt (by omega)) (by omega),
        show (whole.length + 1399) / 1400 - k = ((whole.length + 1399) / 1400 - (k + 1)) + 1 by omega, List.range'_succ, List.map_cons]
      rfl
    · rw [if_pos (by omega), show (whole.length + 1399) / 1400 - k = 0 by omega]
      rfl

theorem mapM_setFragments (n : Nat) : ∀ ps : List Packet, (∀ p ∈ ps, p.fragmentNo < n) →
    ps.mapM (·.setFragmentsInThisFrame n) = some (ps.map fun p => { p with fragmentsInThisFrame := n }) := by
  intro ps
  induction ps with
  | nil => intro _; rfl
  | cons p ps ih =>
    intro h
    have h1 : p.setFragmentsInThisFrame n = some { p with fragmentsInThisFrame := n } := if_pos (h p (List.mem_cons_self ..))
    rw [List.mapM_cons, h1, ih (fun q hq => h q (List.mem_cons_of_mem _ hq))]
    rfl

theorem flatten_pieces (whole : List UInt8) (n : Nat) :
    ((List.range n).map fun k => (whole.drop (1400 * k)).take 1400).flatten = whole.take (1400 * n) := by
  induction n with
  | zero => rfl
  | succ n ih =>
    rw [List.range_succ, List.map_append, List.flatten_append, ih, Nat.mul_succ, List.take_add]
    simp

theorem outgoing_eq (whole : List UInt8) (c s t f time fuel : Nat) (h0 : 0 < whole.length) (hl : whole.length ≤ 1400 * 65535)
    (hf : whole.length ≤ 1400 * fuel) :
    FragmentedFrame.outgoing fuel c s t f time whole = some
      { connectionId := c, sourceState := s, targetState := t, frameNo := f, fragmentsInThisFrame := (whole.length + 1399) / 1400
        fragments := (List.range ((whole.length + 1399) / 1400)).map (piece c s t f ((whole.length + 1399) / 1400) time whole)
        remainingFragments := 0 } := by
  obtain ⟨m, hm⟩ : ∃ m, (whole.length + 1399) / 1400 = m + 1 := ⟨(whole.length + 1399) / 1400 - 1, by omega⟩
  have h1 := makeFragments_eq whole c s t f (by omega) fuel 0 0 (fun _ => rfl) (by omega)
  rw [Nat.mul_zero, Nat.zero_min, hm, Nat.sub_zero, List.range'_succ, List.map_cons] at h1
  unfold FragmentedFrame.outgoing
  rw [h1, hm]
  show ((({ piece c s t f 0 0 whole 0 with timeSinceLast := time } :: (List.range' (0 + 1) m).map (piece c s t f 0 0 whole)).mapM
    (·.setFragmentsInThisFrame ((((List.range' (0 + 1) m).map (piece c s t f 0 0 whole)).length + 1) % 2 ^ 16))) >>= _) = _
  rw [List.length_map, List.length_range', Nat.mod_eq_of_lt (by omega), mapM_setFragments]
  · show some ({ .. } : FragmentedFrame) = _
    refine congrArg some (FragmentedFrame.ext rfl rfl rfl rfl ?_ ?_ rfl)
    · rfl
    · dsimp only
      rw [List.map_cons, List.map_map, List.range_eq_range', List.range'_succ, List.map_cons]
      congr 1
      refine List.map_congr_left fun k hk => ?_
      have := (List.mem_range'_1.mp hk).1
      show ({ piece c s t f 0 0 whole k with fragmentsInThisFrame := m + 1 } : Packet) = _
      unfold piece
      rw [if_neg (by omega : ¬ k = 0), if_neg (by omega : ¬ k = 0)]
  · intro p hp
    obtain rfl | hp := List.mem_cons.mp hp
    · exact Nat.succ_pos m
    · obtain ⟨k, hk, rfl⟩ := List.mem_map.mp hp
      have := (List.mem_range'_1.mp hk).2
      show k < m + 1
      omega

theorem piece_length (c s t f n time : Nat) (whole : List UInt8) (k : Nat) :
    (piece c s t f n time whole k).payload.length = min 1400 (whole.length - 1400 * k) := by
  rw [piece, List.length_take, List.length_drop]

theorem pieces_cut (whole : List UInt8) (c s t f time n : Nat) (hn : n = (whole.length + 1399) / 1400) :
    CutOf c s t f time whole ((List.range n).map (piece c s t f n time whole)) := by
  have get : ∀ k p, ((List.range n).map (piece c s t f n time whole))[k]? = some p → k < n ∧ p = piece c s t f n time whole k := by
    intro k p h
    rw [List.getElem?_map, Option.map_eq_some_iff] at h
    obtain ⟨a, ha, rfl⟩ := h
    obtain ⟨hk, rfl⟩ := List.getElem?_eq_some_iff.mp ha
    rw [List.length_range] at hk
    exact ⟨hk, by rw [List.getElem_range]⟩
  have mem : ∀ p ∈ (List.range n).map (piece c s t f n time whole), ∃ k, k < n ∧ p = piece c s t f n time whole k := by
    intro p hp
    obtain ⟨k, hk, rfl⟩ := List.mem_map.mp hp
    exact ⟨k, List.mem_range.mp hk, rfl⟩
  refine ⟨?_, ?_, ?_, ?_, ?_, ?_, ?_, ?_⟩
  · rw [List.map_map]
    exact (flatten_pieces whole n).trans (List.take_of_length_le (by omega))
  · rw [List.length_map, List.length_range, hn]
  · intro k p h
    rw [(get k p h).2]; rfl
  · intro p hp
    obtain ⟨k, _, rfl⟩ := mem p hp
    rw [List.length_map, List.length_range]; rfl
  · intro p hp
    obtain ⟨k, _, rfl⟩ := mem p hp
    rw [piece_length]; omega
  · intro p hp
    obtain ⟨k, hk, rfl⟩ := List.mem_iff_getElem.mp hp
    rw [List.length_dropLast, List.length_map, List.length_range] at hk
    rw [List.getElem_dropLast, List.getElem_map, List.getElem_range, piece_length]
    omega
  · intro p hp
    obtain ⟨k, _, rfl⟩ := mem p hp
    exact ⟨rfl, rfl, rfl, rfl, rfl⟩
  · intro k p h
    rw [(get k p h).2]; rfl

/-- **C23.** A frame of 1 to 65535·1400 bytes is cut into packets numbered from 0, all but the last of them full, all announcing their
number, which concatenate to the frame; the loop needs one round per packet. -/
theorem C23_fragmentation (whole : List UInt8) (c s t f time fuel : Nat) (h0 : 0 < whole.length) (hl : whole.length ≤ 65535 * 1400)
    (hf : (whole.length + 1399) / 1400 ≤ fuel) :
    ∃ ff, FragmentedFrame.outgoing fuel c s t f time whole = some ff ∧ CutOf c s t f time whole ff.fragments ∧
      ff.complete = true ∧ ff.fragmentsInThisFrame = ff.fragments.length ∧ ff.packets = .ok ff.fragments ∧ ff.frame = .ok whole := by
  refine ⟨_, outgoing_eq whole c s t f time fuel h0 (by omega) (by omega), pieces_cut whole c s t f time _ rfl, rfl, ?_, ?_, ?_⟩
  · simp
  · unfold FragmentedFrame.packets
    rw [if_neg]
    simp [FragmentedFrame.complete]
  · unfold FragmentedFrame.frame
    rw [if_neg (by simp [FragmentedFrame.complete])]
    exact congrArg Except.ok (pieces_cut whole c s t f time _ rfl).payloads

/-- Every packet of the cut can be sent. -/
theorem CutOf.fragment {c s t f time : Nat} {whole : List UInt8} {ps : List Packet} (h : CutOf c s t f time whole ps)
    (hc : c < 2 ^ 16) (hs : s < 2 ^ 32) (ht : t < 2 ^ 32) (hf : f < 2 ^ 32) (htime : time < 2 ^ 32) (hn : ps.length < 2 ^ 16)
    (p : Packet) (hp : p ∈ ps) : p.Fragment := by
  obtain ⟨hv, h1, h2, h3, h4⟩ := h.same p hp
  have ha := h.announced p hp
  have hz := h.size p hp
  obtain ⟨k, hk, rfl⟩ := List.mem_iff_getElem.mp hp
  have hk' : ps[k]? = some ps[k] := List.getElem?_eq_getElem hk
  have hnum := h.number k _ hk'
  have htm := h.time k _ hk'
  refine ⟨⟨by omega, by omega, by omega, by omega, by omega, ?_⟩, hv, by omega, ?_⟩
  · rw [htm]; split <;> omega
  · intro he; rw [he] at hz; exact absurd hz.1 (Nat.lt_irrefl 0)

theorem makeFragments_never (whole : List UInt8) (c s t f : Nat) (hl : 65536 * 1400 < whole.length) :
    ∀ fuel k next, k < 65536 → next ≤ 65536 * 1400 → makeFragments whole c s t f fuel k next = none := by
  intro fuel
  induction fuel with
  | zero => intro k next _ hn; rw [makeFragments, if_neg (by omega)]
  | succ fuel ih =>
    intro k next hk hn
    rw [makeFragments, if_neg (by omega), outgoing_packet whole c s t f k (by omega)]
    show (makeFragments whole c s t f fuel _ _ >>= _) = none
    rw [ih _ _ (Nat.mod_lt _ (by omega)) (by omega)]
    rfl

theorem makeFragments_mono (whole : List UInt8) (c s t f : Nat) : ∀ fuel k next ps, makeFragments whole c s t f fuel k next = some ps →
    makeFragments whole c s t f (fuel + 1) k next = some ps := by
  intro fuel
  induction fuel with
  | zero =>
    intro k next ps h
    rw [makeFragments] at h
    by_cases hn : whole.length ≤ next
    · rw [makeFragments, if_pos hn]; rwa [if_pos hn] at h
    · rw [if_neg hn] at h; exact nomatch h
  | succ fuel ih =>
    intro k next ps h
    rw [makeFragments] at h ⊢
    by_cases hn : whole.length ≤ next
    · rw [if_pos hn] at h ⊢; exact h
    · rw [if_neg hn] at h ⊢
      cases hp : Packet.outgoing whole c s t f k 0 with
      | none => rw [hp] at h; exact nomatch h
      | some q =>
        rw [hp] at h
        change (makeFragments whole c s t f fuel _ _ >>= _) = _ at h
        obtain ⟨rest, hr, h⟩ := Option.bind_eq_some_iff.mp h
        show (makeFragments whole c s t f (fuel + 1) _ _ >>= _) = _
        exact Option.bind_eq_some_iff.mpr ⟨rest, ih _ _ rest hr, h⟩

theorem makeFragments_mono_add (whole : List UInt8) (c s t f k next : Nat) (ps : List Packet) (fuel d : Nat)
    (h : makeFragments whole c s t f fuel k next = some ps) : makeFragments whole c s t f (fuel + d) k next = some ps := by
  induction d with
  | zero => exact h
  | succ d ih => exact makeFragments_mono _ _ _ _ _ _ _ _ _ ih

/-- Outside that range no amount of work gives packets: an empty frame is an access to the front of an empty vector, a frame of 65536
fragments fails an assertion because the count wraps to 0, and with a longer one the fragment number wraps and the loop never ends. -/
theorem C23_other_lengths (whole : List UInt8) (h : whole.length = 0 ∨ 65535 * 1400 < whole.length) (c s t f time fuel : Nat) :
    FragmentedFrame.outgoing fuel c s t f time whole = none := by
  unfold FragmentedFrame.outgoing
  rcases h with h | h
  · cases fuel with
    | zero => rw [makeFragments, if_pos (by omega)]; rfl
    | succ fuel => rw [makeFragments, if_pos (by omega)]; rfl
  · by_cases hl : 65536 * 1400 < whole.length
    · rw [makeFragments_never whole c s t f hl fuel 0 0 (by omega) (by omega)]; rfl
    · cases hm : makeFragments whole c s t f fuel 0 0 with
      | none => rfl
      | some ps =>
        obtain ⟨m, hm'⟩ : ∃ m, m = 65535 := ⟨_, rfl⟩
        have h1 := makeFragments_eq whole c s t f (by omega) (fuel + 65536) 0 0 (fun _ => rfl) (by omega)
        rw [Nat.mul_zero, Nat.zero_min, makeFragments_mono_add _ _ _ _ _ _ _ _ _ _ hm,
          show (whole.length + 1399) / 1400 - 0 = m + 1 by omega, List.range'_succ, List.map_cons] at h1
        have h1 := Option.some.inj h1
        rw [h1]
        have hw : (((List.range' (0 + 1) m).map (piece c s t f 0 0 whole)).length + 1) % 2 ^ 16 = 0 := by
          rw [List.length_map, List.length_range', hm']; decide
        show ((({ piece c s t f 0 0 whole 0 with timeSinceLast := time } :: (List.range' (0 + 1) m).map (piece c s t f 0 0 whole)).mapM
          (·.setFragmentsInThisFrame ((((List.range' (0 + 1) m).map (piece c s t f 0 0 whole)).length + 1) % 2 ^ 16))) >>= _) = _
        rw [hw, List.mapM_cons]
        rfl

end Alfalfa
