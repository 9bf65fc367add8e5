import Verif.Model.Receiver
import Verif.Props.Reassembly

/-! The receiver over any sequence of datagrams (C27, C28). -/

namespace Alfalfa

variable {D : Type} (P : Playing D)

/-! ### Progress -/

/-- From `r` to `r'` the receiver moved forward: frame numbers grow, and what was handed to the decoder in between are frames of the numbers passed,
each at most once and in increasing order. -/
structure Advances (r r' : Receiver D) : Prop where
  next : r.nextFrameNo ≤ r'.nextFrameNo
  handed : ∃ new, r'.handed = r.handed ++ new ∧ (new.map (·.1)).Pairwise (· < ·) ∧ ∀ h ∈ new, r.nextFrameNo ≤ h.1 ∧ h.1 < r'.nextFrameNo

theorem Advances.refl (r : Receiver D) : Advances r r :=
  ⟨Nat.le_refl _, [], by simp, List.Pairwise.nil, fun h hh => absurd hh List.not_mem_nil⟩

theorem Advances.trans {a b c : Receiver D} (h1 : Advances a b) (h2 : Advances b c) : Advances a c := by
  obtain ⟨n1, x, e1, p1, r1⟩ := h1
  obtain ⟨n2, y, e2, p2, r2⟩ := h2
  refine ⟨Nat.le_trans n1 n2, x ++ y, by rw [e2, e1, List.append_assoc], ?_, ?_⟩
  · rw [List.map_append, List.pairwise_append]
    refine ⟨p1, p2, ?_⟩
    intro i hi j hj
    obtain ⟨a', ha, rfl⟩ := List.mem_map.mp hi
    obtain ⟨b', hb, rfl⟩ := List.mem_map.mp hj
    have := r1 a' ha
    have := r2 b' hb
    omega
  · intro h hh
    obtain hh | hh := List.mem_append.mp hh
    · have := r1 h hh; omega
    · have := r2 h hh; omega

theorem enqueueFrame_eq {r r' : Receiver D} {k : Nat} {b : List UInt8} (h : r.enqueueFrame P k b = some r') :
    (b = [] ∧ r' = r) ∨ (b ≠ [] ∧ ∃ d, P.decode r.player b = some d ∧ r' = { r with player := d, handed := r.handed ++ [(k, r.player, b)] }) := by
  unfold Receiver.enqueueFrame at h
  by_cases hb : b.length = 0
  · rw [if_pos hb] at h
    exact Or.inl ⟨List.length_eq_zero_iff.mp hb, (Option.some.inj h).symm⟩
  · rw [if_neg hb] at h
    obtain ⟨d, hd, h⟩ := Option.bind_eq_some_iff.mp h
    exact Or.inr ⟨fun he => hb (by rw [he]; rfl), d, hd, (Option.some.inj h).symm⟩

/-- What showing unfinished frames does. -/
theorem showPartial_spec (n : Nat) : ∀ (r r' : Receiver D) (i : Nat), r.showPartial P i n = some r' →
    r'.nextFrameNo = r.nextFrameNo ∧ r'.currentState = r.currentState ∧ r'.initialState = r.initialState ∧ r'.completeStates = r.completeStates ∧
    r'.decoders = r.decoders ∧ (∀ k, r'.fragmentedFrames k = if i ≤ k ∧ k < i + n then none else r.fragmentedFrames k) ∧
    ∃ new, r'.handed = r.handed ++ new ∧ (new.map (·.1)).Pairwise (· < ·) ∧
      ∀ h ∈ new, i ≤ h.1 ∧ h.1 < i + n ∧ h.2.2 ≠ [] ∧ ∃ f, r.fragmentedFrames h.1 = some f ∧ h.2.2 = f.partialFrame := by
  induction n with
  | zero =>
    intro r r' i h
    have := Option.some.inj h
    subst this
    refine ⟨rfl, rfl, rfl, rfl, rfl, ?_, [], by simp, List.Pairwise.nil, fun h hh => absurd hh List.not_mem_nil⟩
    intro k; rw [if_neg (by omega)]
  | succ n ih =>
    intro r r' i h
    rw [Receiver.showPartial] at h
    cases hf : r.fragmentedFrames i with
    | none =>
      rw [hf] at h
      obtain ⟨h1, h2, h3, h4, h5, h6, new, h7, h8, h9⟩ := ih r r' (i + 1) h
      refine ⟨h1, h2, h3, h4, h5, ?_, new, h7, h8, ?_⟩
      · intro k
        rw [h6]
        by_cases hk : k = i
        · subst hk; rw [hf, ite_self, ite_self]
        · by_cases hk2 : i + 1 ≤ k ∧ k < i + 1 + n
          · rw [if_pos hk2, if_pos (by omega)]
          · rw [if_neg hk2, if_neg (by omega)]
      · intro x hx
        obtain ⟨a, b, c⟩ := h9 x hx
        exact ⟨by omega, by omega, c⟩
    | some f =>
      rw [hf] at h
      obtain ⟨r1, he, h⟩ := Option.bind_eq_some_iff.mp h
      obtain ⟨h1, h2, h3, h4, h5, h6, new, h7, h8, h9⟩ := ih _ r' (i + 1) h
      have hr1 : r1.nextFrameNo = r.nextFrameNo ∧ r1.currentState = r.currentState ∧ r1.initialState = r.initialState ∧
          r1.completeStates = r.completeStates ∧ r1.decoders = r.decoders ∧ r1.fragmentedFrames = r.fragmentedFrames ∧
          ∃ new, r1.handed = r.handed ++ new ∧ ((new = []) ∨ ∃ d, new = [(i, d, f.partialFrame)] ∧ f.partialFrame ≠ []) := by
        obtain ⟨_, rfl⟩ | ⟨hne, d, _, rfl⟩ := enqueueFrame_eq P he
        · exact ⟨rfl, rfl, rfl, rfl, rfl, rfl, [], by simp, Or.inl rfl⟩
        · exact ⟨rfl, rfl, rfl, rfl, rfl, rfl, _, rfl, Or.inr ⟨_, rfl, hne⟩⟩
      obtain ⟨e1, e2, e3, e4, e5, e6, m, e7, e8⟩ := hr1
      refine ⟨h1.trans e1, h2.trans e2, h3.trans e3, h4.trans e4, h5.trans e5, ?_, m ++ new, ?_, ?_, ?_⟩
      · intro k
        rw [h6]
        show (if i + 1 ≤ k ∧ k < i + 1 + n then none else if k = i then none else r1.fragmentedFrames k) = _
        rw [e6]
        by_cases hk : k = i
        · rw [if_pos hk, ite_self, if_pos (by omega)]
        · rw [if_neg hk]
          by_cases hk2 : i + 1 ≤ k ∧ k < i + 1 + n
          · rw [if_pos hk2, if_pos (by omega)]
          · rw [if_neg hk2, if_neg (by omega)]
      · rw [h7]; show r1.handed ++ new = _; rw [e7, List.append_assoc]
      · rw [List.map_append, List.pairwise_append]
        refine ⟨?_, h8, ?_⟩
        · obtain rfl | ⟨d, rfl, _⟩ := e8
          · exact List.Pairwise.nil
          · exact List.pairwise_singleton ..
        · intro a ha b hb
          obtain ⟨x, hx, rfl⟩ := List.mem_map.mp hb
          have := h9 x hx
          obtain rfl | ⟨d, rfl, _⟩ := e8
          · simp at ha
          · simp at ha
            omega
      · intro x hx
        obtain hx | hx := List.mem_append.mp hx
        · obtain rfl | ⟨d, rfl, hne⟩ := e8
          · simp at hx
          · rw [List.mem_singleton] at hx
            subst hx
            exact ⟨by dsimp only; omega, by dsimp only; omega, hne, f, hf, rfl⟩
        · obtain ⟨a, b, c, g, hg, hp⟩ := h9 x hx
          refine ⟨by omega, by omega, c, g, ?_, hp⟩
          change (if x.1 = i then none else r1.fragmentedFrames x.1) = some g at hg
          rw [if_neg (by omega), e6] at hg
          exact hg

theorem skipTo_spec {r r' : Receiver D} {k : Nat} (hk : r.nextFrameNo ≤ k) (h : r.skipTo P k = some r') :
    r'.nextFrameNo = k ∧ r'.initialState = r.initialState ∧ r'.completeStates = r.completeStates ∧ r'.decoders = r.decoders ∧
    (r'.currentState = P.minihash r'.player ∨ (r' = r)) ∧
    (∀ j, r'.fragmentedFrames j = if r.nextFrameNo ≤ j ∧ j < k then none else r.fragmentedFrames j) ∧
    ∃ new, r'.handed = r.handed ++ new ∧ (new.map (·.1)).Pairwise (· < ·) ∧
      ∀ h ∈ new, r.nextFrameNo ≤ h.1 ∧ h.1 < k ∧ h.2.2 ≠ [] ∧ ∃ f, r.fragmentedFrames h.1 = some f ∧ h.2.2 = f.partialFrame := by
  unfold Receiver.skipTo at h
  by_cases hlt : r.nextFrameNo < k
  · rw [if_pos hlt] at h
    obtain ⟨r1, h1, h⟩ := Option.bind_eq_some_iff.mp h
    have := Option.some.inj h
    subst this
    obtain ⟨_, _, a3, a4, a5, a6, a7⟩ := showPartial_spec P _ _ _ _ h1
    rw [Nat.add_sub_cancel' hk] at a6 a7
    exact ⟨rfl, a3, a4, a5, Or.inl rfl, a6, a7⟩
  · rw [if_neg hlt] at h
    have := Option.some.inj h
    subst this
    refine ⟨by omega, rfl, rfl, rfl, Or.inr rfl, ?_, [], by simp, List.Pairwise.nil, fun h hh => absurd hh List.not_mem_nil⟩
    intro j; rw [if_neg (by omega)]

theorem addPacket_spec {r r' : Receiver D} {p : Packet} (h : r.addPacket p = some r') :
    ∃ g, r' = { r with fragmentedFrames := g } ∧ (∀ j, j ≠ p.frameNo → g j = r.fragmentedFrames j) ∧
      ((∃ f f', r.fragmentedFrames p.frameNo = some f ∧ f.addPacket p = (f', none) ∧ g p.frameNo = some f') ∨
       (r.fragmentedFrames p.frameNo = none ∧ ∃ f', FragmentedFrame.incoming CONNECTION_ID p = .ok f' ∧ g p.frameNo = some f')) := by
  unfold Receiver.addPacket at h
  cases hf : r.fragmentedFrames p.frameNo with
  | some f =>
    rw [hf] at h
    dsimp only at h
    generalize hfa : f.addPacket p = fa at h
    obtain ⟨f', e⟩ := fa
    cases e with
    | some e => exact nomatch h
    | none =>
      have := Option.some.inj h
      subst this
      refine ⟨_, rfl, ?_, Or.inl ⟨f, f', rfl, hfa, ?_⟩⟩
      · intro j hj; exact if_neg hj
      · exact if_pos rfl
  | none =>
    rw [hf] at h
    cases hi : FragmentedFrame.incoming CONNECTION_ID p with
    | error e => rw [hi] at h; exact nomatch h
    | ok f' =>
      rw [hi] at h
      have := Option.some.inj h
      subst this
      refine ⟨_, rfl, ?_, Or.inr ⟨rfl, f', rfl, ?_⟩⟩
      · intro j hj; exact if_neg hj
      · show (if p.frameNo = p.frameNo then (r.fragmentedFrames p.frameNo).or (some f') else _) = some f'
        rw [if_pos rfl, hf]; rfl

theorem loadSource_spec (r : Receiver D) (s : Nat) : ∃ d c, r.loadSource s = { r with player := d, currentState := c } ∧
    ((c = r.currentState ∧ d = r.player ∧ (c = s ∨ r.decoders s = none)) ∨ (c = s ∧ r.decoders s = some d)) := by
  unfold Receiver.loadSource
  by_cases hc : r.currentState = s
  · rw [if_neg (not_not.mpr hc)]
    exact ⟨r.player, r.currentState, rfl, Or.inl ⟨rfl, rfl, Or.inl hc⟩⟩
  · rw [if_pos hc]
    cases hd : r.decoders s with
    | none => exact ⟨r.player, r.currentState, rfl, Or.inl ⟨rfl, rfl, Or.inr rfl⟩⟩
    | some d => exact ⟨d, s, rfl, Or.inr ⟨rfl, rfl⟩⟩

theorem prune_spec {r r' : Receiver D} {s : Nat} (h : r.prune s = some r') :
    ∃ cs ds, r' = { r with completeStates := cs, decoders := ds } ∧
      ((cs = r.completeStates ∧ ds = r.decoders ∧ (r.currentState ≠ s ∨ s = r.initialState)) ∨
       (r.currentState = s ∧ s ≠ r.initialState ∧ pruneStates s r.completeStates r.decoders = some (cs, ds))) := by
  unfold Receiver.prune at h
  by_cases hc : r.currentState = s ∧ s ≠ r.initialState
  · rw [if_pos hc] at h
    obtain ⟨⟨cs, ds⟩, hp, h⟩ := Option.bind_eq_some_iff.mp h
    exact ⟨cs, ds, (Option.some.inj h).symm, Or.inr ⟨hc.1, hc.2, hp⟩⟩
  · rw [if_neg hc] at h
    refine ⟨r.completeStates, r.decoders, (Option.some.inj h).symm, Or.inl ⟨rfl, rfl, ?_⟩⟩
    by_cases h1 : r.currentState = s
    · exact Or.inr (not_not.mp fun h2 => hc ⟨h1, h2⟩)
    · exact Or.inl h1

/-- The cases of finishing a frame, with everything that changes. -/
theorem finishFrame_spec {r r' : Receiver D} (h : r.finishFrame P = some r') :
    r' = r ∨ ∃ f frame r1 r2, r.fragmentedFrames r.nextFrameNo = some f ∧ f.complete = true ∧ f.frame = .ok frame ∧
      (r.loadSource f.sourceState).prune f.sourceState = some r1 ∧ r1.enqueueFrame P r.nextFrameNo frame = some r2 ∧
      r' = { r2.saveState P f.targetState with
              fragmentedFrames := r.fragmentedFrames.erase r.nextFrameNo, nextFrameNo := r.nextFrameNo + 1 } := by
  unfold Receiver.finishFrame at h
  cases hf : r.fragmentedFrames r.nextFrameNo with
  | none => rw [hf] at h; exact Or.inl (Option.some.inj h).symm
  | some f =>
    rw [hf] at h
    dsimp only at h
    by_cases hc : f.complete = true
    · rw [if_pos hc] at h
      obtain ⟨r1, h1, h⟩ := Option.bind_eq_some_iff.mp h
      obtain ⟨frame, h2, h⟩ := Option.bind_eq_some_iff.mp h
      obtain ⟨r2, h3, h⟩ := Option.bind_eq_some_iff.mp h
      have hframe : f.frame = .ok frame := by
        cases hfr : f.frame with
        | error e => rw [hfr] at h2; exact nomatch h2
        | ok b => rw [hfr] at h2; exact congrArg _ (Option.some.inj h2)
      obtain ⟨d, c, e1, _⟩ := loadSource_spec r f.sourceState
      obtain ⟨cs, ds, e2, _⟩ := prune_spec h1
      have e1n : r1.nextFrameNo = r.nextFrameNo := by rw [e2, e1]
      have e1f : r1.fragmentedFrames = r.fragmentedFrames := by rw [e2, e1]
      have e2n : r2.nextFrameNo = r1.nextFrameNo ∧ r2.fragmentedFrames = r1.fragmentedFrames := by
        obtain ⟨_, rfl⟩ | ⟨_, d, _, rfl⟩ := enqueueFrame_eq P h3 <;> exact ⟨rfl, rfl⟩
      have hsave : (r2.saveState P f.targetState).nextFrameNo = r2.nextFrameNo ∧ (r2.saveState P f.targetState).fragmentedFrames = r2.fragmentedFrames := by
        unfold Receiver.saveState
        dsimp only
        split <;> exact ⟨rfl, rfl⟩
      refine Or.inr ⟨f, frame, r1, r2, rfl, hc, hframe, h1, e1n ▸ h3, ?_⟩
      have := Option.some.inj h
      rw [← this, hsave.1, hsave.2, e2n.1, e2n.2, e1n, e1f]
    · rw [if_neg hc] at h; exact Or.inl (Option.some.inj h).symm

theorem saveState_handed (r : Receiver D) (t : Nat) : (r.saveState P t).handed = r.handed ∧ (r.saveState P t).player = r.player ∧
    (r.saveState P t).currentState = P.minihash r.player ∧ (r.saveState P t).initialState = r.initialState := by
  unfold Receiver.saveState
  dsimp only
  split <;> exact ⟨rfl, rfl, rfl, rfl⟩

theorem finishFrame_advances {r r' : Receiver D} (h : r.finishFrame P = some r') : Advances r r' := by
  obtain rfl | ⟨f, frame, r1, r2, _, _, _, h1, h2, rfl⟩ := finishFrame_spec P h
  · exact Advances.refl _
  · obtain ⟨d, c, e1, _⟩ := loadSource_spec r f.sourceState
    obtain ⟨cs, ds, e2, _⟩ := prune_spec h1
    have hr1 : r1.handed = r.handed := by rw [e2, e1]
    refine ⟨Nat.le_succ _, ?_⟩
    show ∃ new : List (Nat × D × List UInt8), (r2.saveState P f.targetState).handed = _ ∧ _ ∧ ∀ h ∈ new, r.nextFrameNo ≤ h.1 ∧ h.1 < r.nextFrameNo + 1
    rw [(saveState_handed P r2 f.targetState).1]
    obtain ⟨_, rfl⟩ | ⟨_, d, _, rfl⟩ := enqueueFrame_eq P h2
    · exact ⟨[], by rw [hr1, List.append_nil], List.Pairwise.nil, fun h hh => absurd hh List.not_mem_nil⟩
    · refine ⟨[(r.nextFrameNo, r1.player, frame)], by rw [hr1], List.pairwise_singleton .., ?_⟩
      intro x hx
      rw [List.mem_singleton] at hx
      subst hx
      exact ⟨Nat.le_refl _, Nat.lt_succ_self _⟩

/-- The phases of the callback. -/
theorem receive_spec {r r' : Receiver D} {wire : List UInt8} {avg : Nat} {ack : Option AckPacket} (h : r.receive P wire avg = some (r', ack)) :
    ∃ p, Packet.parse wire = .ok p ∧ ((p.frameNo < r.nextFrameNo ∧ r' = r ∧ ack = none) ∨
      (r.nextFrameNo ≤ p.frameNo ∧ ∃ r1 r2, r.skipTo P p.frameNo = some r1 ∧ r1.addPacket p = some r2 ∧ r2.finishFrame P = some r' ∧
        ack = some { connectionId := 1337, frameNo := p.frameNo, fragmentNo := p.fragmentNo, avgDelay := avg
                     currentState := r'.currentState, completeStates := r'.completeStates })) := by
  unfold Receiver.receive at h
  cases hp : Packet.parse wire with
  | error e => rw [hp] at h; exact nomatch h
  | ok p =>
    rw [hp] at h
    change (if p.frameNo < r.nextFrameNo then _ else _) = _ at h
    refine ⟨p, rfl, ?_⟩
    by_cases hlt : p.frameNo < r.nextFrameNo
    · rw [if_pos hlt] at h
      have := Prod.mk.inj (Option.some.inj h)
      exact Or.inl ⟨hlt, this.1.symm, this.2.symm⟩
    · rw [if_neg hlt] at h
      obtain ⟨r1, h1, h⟩ := Option.bind_eq_some_iff.mp h
      obtain ⟨r2, h2, h⟩ := Option.bind_eq_some_iff.mp h
      obtain ⟨r3, h3, h⟩ := Option.bind_eq_some_iff.mp h
      have := Prod.mk.inj (Option.some.inj h)
      obtain ⟨e1, e2⟩ := this
      subst e1
      exact Or.inr ⟨by omega, r1, r2, h1, h2, h3, e2.symm⟩

theorem receive_advances {r r' : Receiver D} {wire : List UInt8} {avg : Nat} {ack : Option AckPacket}
    (h : r.receive P wire avg = some (r', ack)) : Advances r r' := by
  obtain ⟨p, _, ⟨_, rfl, _⟩ | ⟨hle, r1, r2, h1, h2, h3, _⟩⟩ := receive_spec P h
  · exact Advances.refl _
  · obtain ⟨a1, _, _, _, _, _, new, a2, a3, a4⟩ := skipTo_spec P hle h1
    have s1 : Advances r r1 := ⟨by omega, new, a2, a3, fun x hx => by have := a4 x hx; omega⟩
    obtain ⟨g, rfl, _⟩ := addPacket_spec h2
    have s2 : Advances r1 { r1 with fragmentedFrames := g } :=
      ⟨Nat.le_refl _, [], by simp, List.Pairwise.nil, fun h hh => absurd hh List.not_mem_nil⟩
    exact (s1.trans s2).trans (finishFrame_advances P h3)

theorem run_advances (ws : List (List UInt8 × Nat)) : ∀ {r r' : Receiver D}, r.run P ws = some r' → Advances r r' := by
  induction ws with
  | nil => intro r r' h; rw [← Option.some.inj h]; exact Advances.refl _
  | cons w ws ih =>
    intro r r' h
    obtain ⟨⟨r1, ack⟩, h1, h⟩ := Option.bind_eq_some_iff.mp h
    exact (receive_advances P h1).trans (ih h)

/-- **C27.** Over any sequence of datagrams the receiver survives, in any order and with any repetition, the number of the frame it waits for never
decreases, and the frames handed to the decoder are of numbers that strictly increase, all of them below the one it waits for. -/
theorem C27_receiver_monotone (d : D) (before after : List (List UInt8 × Nat)) (r r' : Receiver D)
    (h1 : (Receiver.start P d).run P before = some r) (h2 : r.run P after = some r') :
    r.nextFrameNo ≤ r'.nextFrameNo ∧ (∃ new, r'.handed = r.handed ++ new ∧ ∀ h ∈ new, r.nextFrameNo ≤ h.1) ∧
      (r'.handed.map (·.1)).Pairwise (· < ·) ∧ ∀ h ∈ r'.handed, h.1 < r'.nextFrameNo := by
  have a1 := run_advances P _ h1
  have a2 := run_advances P _ h2
  obtain ⟨new, e, hp, hr⟩ := (a1.trans a2).handed
  rw [show (Receiver.start P d).handed = [] from rfl, List.nil_append] at e
  obtain ⟨n2, e2, _, r2⟩ := a2.handed
  refine ⟨a2.next, ⟨n2, e2, fun h hh => (r2 h hh).1⟩, e ▸ hp, ?_⟩
  intro h hh
  exact (hr h (e ▸ hh)).2

/-- **C27.** A packet of a frame before the one it waits for changes nothing and is not acknowledged. -/
theorem C27_old_packet (r : Receiver D) (p : Packet) (wire : List UInt8) (avg : Nat) (hp : Packet.parse wire = .ok p)
    (h : p.frameNo < r.nextFrameNo) : r.receive P wire avg = some (r, none) := by
  unfold Receiver.receive
  rw [hp]
  show (if p.frameNo < r.nextFrameNo then _ else _) = _
  rw [if_pos h]

end Alfalfa
