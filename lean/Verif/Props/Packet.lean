import Verif.Spec.Packet
import Verif.Props.Container

/-! Packets and acknowledgements on the wire (C20, C21, C22). -/

namespace Alfalfa

theorem putField_length (n v : Nat) : (putField n v).length = n := by
  induction n generalizing v with
  | zero => rfl
  | succ n ih => rw [putField, List.length_cons, ih]

theorem leValue_putField (n v : Nat) (h : v < 256 ^ n) : leValue (putField n v) = v := by
  induction n generalizing v with
  | zero => rw [Nat.pow_zero] at h; rw [putField, leValue]; omega
  | succ n ih =>
    rw [putField, leValue, ih (v / 256) (by rw [Nat.pow_succ] at h; omega), UInt8.toNat_ofNat']
    omega

theorem putField_leValue (c : List UInt8) : putField c.length (leValue c) = c := by
  induction c with
  | nil => rfl
  | cons b c ih =>
    have hb := b.toNat_lt
    rw [List.length_cons, leValue, putField, show (b.toNat + 256 * leValue c) / 256 = leValue c by omega, ih,
      show (b.toNat + 256 * leValue c) % 256 = b.toNat by omega, UInt8.ofNat_toNat]

theorem leValue_lt (c : List UInt8) : leValue c < 256 ^ c.length := by
  induction c with
  | nil => exact Nat.one_pos
  | cons b c ih =>
    have hb := b.toNat_lt
    rw [leValue, List.length_cons, Nat.pow_succ]; omega

theorem getField_at {str a rest : List UInt8} {off n v : Nat} (h : str = a ++ (putField n v ++ rest)) (ha : a.length = off)
    (hv : v < 256 ^ n) : getField str off n = .ok v := by
  have := subChunk_append a (putField n v) rest
  rw [putField_length, ha] at this
  rw [getField, h, this]
  exact congrArg _ (leValue_putField n v hv)

/-- What a field that was read says about the bytes. -/
theorem getField_ok {str : List UInt8} {off n v : Nat} (h : getField str off n = .ok v) :
    v < 256 ^ n ∧ str.drop off = putField n v ++ str.drop (off + n) ∧ off + n ≤ str.length := by
  unfold getField at h
  cases hc : subChunk str off n with
  | error e => rw [hc] at h; exact nomatch h
  | ok c =>
    rw [hc] at h
    have hv : leValue c = v := Except.ok.inj h
    obtain ⟨hl, x, y, hx, hs⟩ := subChunk_ok hc
    subst hv
    refine ⟨hl ▸ leValue_lt c, ?_, ?_⟩
    · rw [hs, ← hx, ← hl, putField_leValue, List.drop_left, ← List.append_assoc, ← List.length_append, List.drop_left]
    · rw [hs]; simp only [List.length_append]; omega

theorem getField_error {str : List UInt8} {off n : Nat} {e : NetError} (h : getField str off n = .error e) :
    e = .outOfRange ∧ str.length < off + n := by
  unfold getField at h
  cases hc : subChunk str off n with
  | ok c => rw [hc] at h; exact nomatch h
  | error e' =>
    rw [hc] at h
    refine ⟨(Except.error.inj h).symm, ?_⟩
    unfold subChunk at hc
    by_cases h1 : str.length < off
    · omega
    · rw [if_neg h1] at hc
      by_cases h2 : str.length < off + n
      · exact h2
      · rw [if_neg h2] at hc; exact nomatch hc

theorem net_bind_ok {ε α β : Type} {x : Except ε α} {f : α → Except ε β} {b : β} (h : (x >>= f) = .ok b) :
    ∃ a, x = .ok a ∧ f a = .ok b := by
  cases x with
  | error e => exact nomatch h
  | ok a => exact ⟨a, rfl, h⟩

theorem net_bind_error {ε α β : Type} {x : Except ε α} {f : α → Except ε β} {e : ε} (h : (x >>= f) = .error e) :
    x = .error e ∨ ∃ a, x = .ok a ∧ f a = .error e := by
  cases x with
  | error e' => exact Or.inl (congrArg Except.error (Except.error.inj h))
  | ok a => exact Or.inr ⟨a, rfl, h⟩

/-- **C20.** A packet that is a fragment of a frame has a wire form, and the receiver makes the same packet of it. -/
theorem C20_packet_round_trip (p : Packet) (h : p.Fragment) : ∃ bytes, p.toBytes = some bytes ∧ Packet.parse bytes = .ok p := by
  have hn := h.number
  have hk : p.fragmentNo < 256 ^ 2 := Nat.lt_trans hn h.fragmentsInThisFrame
  refine ⟨_, if_neg (by omega), ?_⟩
  generalize hs : (putField 2 p.connectionId ++ (putField 4 p.sourceState ++ (putField 4 p.targetState ++ (putField 4 p.frameNo ++
    (putField 2 p.fragmentNo ++ (putField 2 p.fragmentsInThisFrame ++ (putField 4 p.timeSinceLast ++ p.payload))))))) = str
  have f1 : getField str 0 2 = .ok p.connectionId := getField_at (a := []) hs.symm rfl h.connectionId
  have f2 : getField str 2 4 = .ok p.sourceState :=
    getField_at (a := putField 2 p.connectionId) hs.symm (by simp [putField_length]) h.sourceState
  have f3 : getField str 6 4 = .ok p.targetState :=
    getField_at (a := putField 2 p.connectionId ++ putField 4 p.sourceState) (by rw [← hs]; simp only [List.append_assoc] <;> rfl)
      (by simp [putField_length]) h.targetState
  have f4 : getField str 10 4 = .ok p.frameNo :=
    getField_at (a := putField 2 p.connectionId ++ putField 4 p.sourceState ++ putField 4 p.targetState)
      (by rw [← hs]; simp only [List.append_assoc] <;> rfl) (by simp [putField_length]) h.frameNo
  have f5 : getField str 14 2 = .ok p.fragmentNo :=
    getField_at (a := putField 2 p.connectionId ++ putField 4 p.sourceState ++ putField 4 p.targetState ++ putField 4 p.frameNo)
      (by rw [← hs]; simp only [List.append_assoc] <;> rfl) (by simp [putField_length]) hk
  have f6 : getField str 16 2 = .ok p.fragmentsInThisFrame :=
    getField_at (a := putField 2 p.connectionId ++ putField 4 p.sourceState ++ putField 4 p.targetState ++ putField 4 p.frameNo ++
      putField 2 p.fragmentNo) (by rw [← hs]; simp only [List.append_assoc] <;> rfl) (by simp [putField_length]) h.fragmentsInThisFrame
  have f7 : getField str 18 4 = .ok p.timeSinceLast :=
    getField_at (a := putField 2 p.connectionId ++ putField 4 p.sourceState ++ putField 4 p.targetState ++ putField 4 p.frameNo ++
      putField 2 p.fragmentNo ++ putField 2 p.fragmentsInThisFrame) (by rw [← hs]; simp only [List.append_assoc] <;> rfl)
      (by simp [putField_length]) h.timeSinceLast
  have f8 : getRest str 22 = .ok p.payload := by
    have hr := restOfChunk_append (putField 2 p.connectionId ++ putField 4 p.sourceState ++ putField 4 p.targetState ++
      putField 4 p.frameNo ++ putField 2 p.fragmentNo ++ putField 2 p.fragmentsInThisFrame ++ putField 4 p.timeSinceLast) p.payload
    simp only [List.append_assoc, List.length_append, putField_length] at hr
    rw [hs] at hr
    rw [getRest, hr]
  have hp : p.payload.isEmpty = false := by simpa using h.payload
  unfold Packet.parse
  rw [f1, f2, f3, f4, f5, f6, f7, f8]
  show (if p.fragmentsInThisFrame ≤ p.fragmentNo then _ else if p.payload.isEmpty = true then _ else _) = _
  rw [if_neg (by omega), hp, if_neg (by simp)]
  exact congrArg Except.ok (Packet.ext h.valid.symm rfl rfl rfl rfl rfl rfl rfl rfl)

theorem readStates_put (str pre : List UInt8) (i : Nat) (ss : List Nat) (hs : ∀ s ∈ ss, s < 2 ^ 32)
    (h : str = pre ++ (ss.map (putField 4)).flatten) (hpre : pre.length = 20 + i * 4) : readStates str i ss.length = .ok ss := by
  induction ss generalizing pre i with
  | nil => rfl
  | cons s ss ih =>
    rw [List.map_cons, List.flatten_cons] at h
    rw [List.length_cons, readStates, getField_at h hpre (hs s (List.mem_cons_self ..))]
    show (readStates str (i + 1) ss.length >>= _) = _
    rw [ih (pre ++ putField 4 s) (i + 1) (fun t ht => hs t (List.mem_cons_of_mem _ ht)) (by rw [h, List.append_assoc])
        (by rw [List.length_append, putField_length]; omega)]
    rfl

/-- **C21.** An acknowledgement survives the wire. -/
theorem C21_ack_round_trip (a : AckPacket) (h : a.Fits) : AckPacket.parse a.toBytes = .ok a := by
  have hc : a.completeStates.length % 2 ^ 32 = a.completeStates.length := Nat.mod_eq_of_lt h.count
  generalize hs : a.toBytes = str
  unfold AckPacket.toBytes at hs
  rw [hc] at hs
  have f1 : getField str 0 2 = .ok a.connectionId := getField_at (a := []) hs.symm rfl h.connectionId
  have f2 : getField str 2 4 = .ok a.frameNo := getField_at (a := putField 2 a.connectionId) hs.symm (by simp [putField_length]) h.frameNo
  have f3 : getField str 6 2 = .ok a.fragmentNo :=
    getField_at (a := putField 2 a.connectionId ++ putField 4 a.frameNo) (by rw [← hs]; simp only [List.append_assoc] <;> rfl)
      (by simp [putField_length]) h.fragmentNo
  have f4 : getField str 8 4 = .ok a.avgDelay :=
    getField_at (a := putField 2 a.connectionId ++ putField 4 a.frameNo ++ putField 2 a.fragmentNo)
      (by rw [← hs]; simp only [List.append_assoc] <;> rfl) (by simp [putField_length]) h.avgDelay
  have f5 : getField str 12 4 = .ok a.currentState :=
    getField_at (a := putField 2 a.connectionId ++ putField 4 a.frameNo ++ putField 2 a.fragmentNo ++ putField 4 a.avgDelay)
      (by rw [← hs]; simp only [List.append_assoc] <;> rfl) (by simp [putField_length]) h.currentState
  have f6 : getField str 16 4 = .ok a.completeStates.length :=
    getField_at (a := putField 2 a.connectionId ++ putField 4 a.frameNo ++ putField 2 a.fragmentNo ++ putField 4 a.avgDelay ++
      putField 4 a.currentState) (by rw [← hs]; simp only [List.append_assoc] <;> rfl) (by simp [putField_length]) h.count
  have f7 := readStates_put str (putField 2 a.connectionId ++ putField 4 a.frameNo ++ putField 2 a.fragmentNo ++ putField 4 a.avgDelay ++
    putField 4 a.currentState ++ putField 4 a.completeStates.length) 0 a.completeStates h.completeStates
    (by rw [← hs]; simp only [List.append_assoc] <;> rfl) (by simp [putField_length])
  unfold AckPacket.parse
  rw [f1, f2, f3, f4, f5, f6]
  show (readStates str 0 a.completeStates.length >>= _) = _
  rw [f7]
  rfl

/-- **C22.** Any byte string received as a packet is refused with one of the two exceptions of the parser, or is the exact wire form of
the packet it is parsed to, and that packet is a fragment of a frame. -/
theorem C22_packet_parser_safe (str : List UInt8) :
    match Packet.parse str with
    | .ok p => p.Fragment ∧ p.toBytes = some str
    | .error e => (e = .outOfRange ∧ str.length < 22) ∨ (e = .invalidPacket ∧ 22 ≤ str.length) := by
  cases hp : Packet.parse str with
  | ok p =>
    show p.Fragment ∧ p.toBytes = some str
    unfold Packet.parse at hp
    obtain ⟨a1, h1, hp⟩ := net_bind_ok hp
    obtain ⟨a2, h2, hp⟩ := net_bind_ok hp
    obtain ⟨a3, h3, hp⟩ := net_bind_ok hp
    obtain ⟨a4, h4, hp⟩ := net_bind_ok hp
    obtain ⟨a5, h5, hp⟩ := net_bind_ok hp
    obtain ⟨a6, h6, hp⟩ := net_bind_ok hp
    obtain ⟨a7, h7, hp⟩ := net_bind_ok hp
    obtain ⟨b1, e1, l1⟩ := getField_ok h1
    obtain ⟨b2, e2, l2⟩ := getField_ok h2
    obtain ⟨b3, e3, l3⟩ := getField_ok h3
    obtain ⟨b4, e4, l4⟩ := getField_ok h4
    obtain ⟨b5, e5, l5⟩ := getField_ok h5
    obtain ⟨b6, e6, l6⟩ := getField_ok h6
    obtain ⟨b7, e7, l7⟩ := getField_ok h7
    have hrest : getRest str 22 = .ok (str.drop 22) := by
      unfold getRest restOfChunk subChunk
      rw [if_neg (by omega), if_neg (by omega), List.take_of_length_le (by rw [List.length_drop])]
    rw [hrest] at hp
    change (if a6 ≤ a5 then _ else if (str.drop 22).isEmpty = true then _ else _) = _ at hp
    by_cases hn : a6 ≤ a5
    · rw [if_pos hn] at hp; exact nomatch hp
    rw [if_neg hn] at hp
    by_cases he : (str.drop 22).isEmpty = true
    · rw [if_pos he] at hp; exact nomatch hp
    rw [if_neg he] at hp
    have hp := Except.ok.inj hp
    subst hp
    refine ⟨⟨⟨b1, b2, b3, b4, b6, b7⟩, rfl, Nat.lt_of_not_le hn, by simpa using he⟩, ?_⟩
    unfold Packet.toBytes
    rw [if_neg (by show ¬ a6 = 0; omega)]
    show some (putField 2 a1 ++ (putField 4 a2 ++ (putField 4 a3 ++ (putField 4 a4 ++ (putField 2 a5 ++ (putField 2 a6 ++
      (putField 4 a7 ++ str.drop 22))))))) = some str
    rw [← e7, ← e6, ← e5, ← e4, ← e3, ← e2, ← e1, List.drop_zero]
  | error e =>
    show (e = .outOfRange ∧ str.length < 22) ∨ (e = .invalidPacket ∧ 22 ≤ str.length)
    unfold Packet.parse at hp
    obtain h | ⟨a1, h1, hp⟩ := net_bind_error hp
    · have := getField_error h; exact Or.inl ⟨this.1, by omega⟩
    obtain h | ⟨a2, h2, hp⟩ := net_bind_error hp
    · have := getField_error h; exact Or.inl ⟨this.1, by omega⟩
    obtain h | ⟨a3, h3, hp⟩ := net_bind_error hp
    · have := getField_error h; exact Or.inl ⟨this.1, by omega⟩
    obtain h | ⟨a4, h4, hp⟩ := net_bind_error hp
    · have := getField_error h; exact Or.inl ⟨this.1, by omega⟩
    obtain h | ⟨a5, h5, hp⟩ := net_bind_error hp
    · have := getField_error h; exact Or.inl ⟨this.1, by omega⟩
    obtain h | ⟨a6, h6, hp⟩ := net_bind_error hp
    · have := getField_error h; exact Or.inl ⟨this.1, by omega⟩
    obtain h | ⟨a7, h7, hp⟩ := net_bind_error hp
    · have := getField_error h; exact Or.inl ⟨this.1, by omega⟩
    have l7 := (getField_ok h7).2.2
    have hrest : getRest str 22 = .ok (str.drop 22) := by
      unfold getRest restOfChunk subChunk
      rw [if_neg (by omega), if_neg (by omega), List.take_of_length_le (by rw [List.length_drop])]
    rw [hrest] at hp
    change (if a6 ≤ a5 then _ else if (str.drop 22).isEmpty = true then _ else _) = _ at hp
    refine Or.inr ⟨?_, by omega⟩
    by_cases hn : a6 ≤ a5
    · rw [if_pos hn] at hp; exact (Except.error.inj hp).symm
    rw [if_neg hn] at hp
    by_cases he : (str.drop 22).isEmpty = true
    · rw [if_pos he] at hp; exact (Except.error.inj hp).symm
    · rw [if_neg he] at hp; exact nomatch hp

theorem readStates_ok {str : List UInt8} {n i : Nat} {ss : List Nat} (h : readStates str i n = .ok ss) :
    ss.length = n ∧ (∀ s ∈ ss, s < 2 ^ 32) ∧ str.drop (20 + i * 4) = (ss.map (putField 4)).flatten ++ str.drop (20 + (i + n) * 4) := by
  induction n generalizing i ss with
  | zero =>
    have := Except.ok.inj h
    subst this
    exact ⟨rfl, (fun s hs => by simp at hs), rfl⟩
  | succ n ih =>
    rw [readStates] at h
    obtain ⟨s, h1, h⟩ := net_bind_ok h
    obtain ⟨rest, h2, h⟩ := net_bind_ok h
    have := Except.ok.inj h
    subst this
    obtain ⟨hl, hb, he⟩ := ih h2
    obtain ⟨hs, hd, _⟩ := getField_ok h1
    refine ⟨by rw [List.length_cons, hl], ?_, ?_⟩
    · intro t ht
      obtain rfl | ht := List.mem_cons.mp ht
      · exact hs
      · exact hb t ht
    · rw [List.map_cons, List.flatten_cons, List.append_assoc, hd, show 20 + i * 4 + 4 = 20 + (i + 1) * 4 by omega, he,
        show i + 1 + n = i + (n + 1) by omega]

theorem readStates_error {str : List UInt8} {n i : Nat} {e : NetError} (h : readStates str i n = .error e) :
    e = .outOfRange ∧ str.length < 20 + (i + n) * 4 := by
  induction n generalizing i with
  | zero => exact nomatch h
  | succ n ih =>
    rw [readStates] at h
    obtain h | ⟨s, _, h⟩ := net_bind_error h
    · have := getField_error h; exact ⟨this.1, by omega⟩
    obtain h | ⟨rest, _, h⟩ := net_bind_error h
    · have := ih h; exact ⟨this.1, by omega⟩
    · exact nomatch h

/-- **C22, acknowledgements.** Any byte string received as an acknowledgement is refused, because it is too short, or starts with the
wire form of the acknowledgement it is parsed to, whose fields fit. -/
theorem C22_ack_parser_safe (str : List UInt8) :
    match AckPacket.parse str with
    | .ok a => a.Fits ∧ a.toBytes <+: str
    | .error e => e = .outOfRange ∧ (str.length < 20 ∨ str.length < 20 + 4 * leValue ((str.drop 16).take 4)) := by
  cases hp : AckPacket.parse str with
  | ok a =>
    show a.Fits ∧ a.toBytes <+: str
    unfold AckPacket.parse at hp
    obtain ⟨a1, h1, hp⟩ := net_bind_ok hp
    obtain ⟨a2, h2, hp⟩ := net_bind_ok hp
    obtain ⟨a3, h3, hp⟩ := net_bind_ok hp
    obtain ⟨a4, h4, hp⟩ := net_bind_ok hp
    obtain ⟨a5, h5, hp⟩ := net_bind_ok hp
    obtain ⟨a6, h6, hp⟩ := net_bind_ok hp
    obtain ⟨a7, h7, hp⟩ := net_bind_ok hp
    obtain ⟨b1, e1, l1⟩ := getField_ok h1
    obtain ⟨b2, e2, l2⟩ := getField_ok h2
    obtain ⟨b3, e3, l3⟩ := getField_ok h3
    obtain ⟨b4, e4, l4⟩ := getField_ok h4
    obtain ⟨b5, e5, l5⟩ := getField_ok h5
    obtain ⟨b6, e6, l6⟩ := getField_ok h6
    obtain ⟨hl, hb, he⟩ := readStates_ok h7
    have hp := Except.ok.inj hp
    subst hp
    subst hl
    refine ⟨⟨b1, b2, b3, b4, b5, hb, b6⟩, str.drop (20 + (0 + a7.length) * 4), ?_⟩
    unfold AckPacket.toBytes
    rw [Nat.mod_eq_of_lt (show a7.length < 2 ^ 32 from b6)]
    show (putField 2 a1 ++ (putField 4 a2 ++ (putField 2 a3 ++ (putField 4 a4 ++ (putField 4 a5 ++ (putField 4 a7.length ++
      (a7.map (putField 4)).flatten)))))) ++ _ = str
    simp only [List.append_assoc]
    rw [← he, show 20 + 0 * 4 = 20 from rfl, ← e6, ← e5, ← e4, ← e3, ← e2, ← e1, List.drop_zero]
  | error e =>
    show e = .outOfRange ∧ (str.length < 20 ∨ str.length < 20 + 4 * leValue ((str.drop 16).take 4))
    unfold AckPacket.parse at hp
    obtain h | ⟨a1, h1, hp⟩ := net_bind_error hp
    · have := getField_error h; exact ⟨this.1, by omega⟩
    obtain h | ⟨a2, h2, hp⟩ := net_bind_error hp
    · have := getField_error h; exact ⟨this.1, by omega⟩
    obtain h | ⟨a3, h3, hp⟩ := net_bind_error hp
    · have := getField_error h; exact ⟨this.1, by omega⟩
    obtain h | ⟨a4, h4, hp⟩ := net_bind_error hp
    · have := getField_error h; exact ⟨this.1, by omega⟩
    obtain h | ⟨a5, h5, hp⟩ := net_bind_error hp
    · have := getField_error h; exact ⟨this.1, by omega⟩
    obtain h | ⟨a6, h6, hp⟩ := net_bind_error hp
    · have := getField_error h; exact ⟨this.1, by omega⟩
    obtain h | ⟨a7, h7, hp⟩ := net_bind_error hp
    · have hr := readStates_error h
      obtain ⟨hv, hd, hl⟩ := getField_ok h6
      rw [hd, List.take_append_of_le_length (by rw [putField_length]), List.take_of_length_le (by rw [putField_length]),
        leValue_putField 4 a6 hv]
      exact ⟨hr.1, Or.inr (by omega)⟩
    · exact nomatch hp

/-! ### Examples -/

def examplePacket : Packet :=
  { connectionId := 1337, sourceState := 0xdeadbeef, targetState := 77, frameNo := 70000, fragmentNo := 3, fragmentsInThisFrame := 300
    timeSinceLast := 41000, payload := [1, 2, 255] }

theorem examplePacket_fragment : examplePacket.Fragment := by
  refine ⟨⟨?_, ?_, ?_, ?_, ?_, ?_⟩, rfl, ?_, ?_⟩ <;> decide

example : ∃ bytes, examplePacket.toBytes = some bytes ∧ Packet.parse bytes = .ok examplePacket :=
  C20_packet_round_trip _ examplePacket_fragment

example : examplePacket.toBytes =
    some [0x39, 5, 0xef, 0xbe, 0xad, 0xde, 77, 0, 0, 0, 0x70, 0x11, 1, 0, 3, 0, 44, 1, 0x28, 0xa0, 0, 0, 1, 2, 255] := by decide

def exampleAck : AckPacket :=
  { connectionId := 1337, frameNo := 70000, fragmentNo := 3, avgDelay := 900, currentState := 0xdeadbeef, completeStates := [5, 0xffffffff, 5] }

example : AckPacket.parse exampleAck.toBytes = .ok exampleAck :=
  C21_ack_round_trip _ (by refine ⟨?_, ?_, ?_, ?_, ?_, ?_, ?_⟩ <;> decide)

/-- An acknowledgement that announces more states than it carries is refused. -/
example : AckPacket.parse (exampleAck.toBytes.take 30) = .error .outOfRange := by decide

/-- A fragment numbered past the count is refused, and so is an empty one. -/
example : Packet.parse (List.replicate 30 7) = .error .invalidPacket ∧
    Packet.parse (putField 2 1 ++ List.replicate 12 0 ++ putField 2 0 ++ putField 2 1 ++ putField 4 0) = .error .invalidPacket := by decide

end Alfalfa
