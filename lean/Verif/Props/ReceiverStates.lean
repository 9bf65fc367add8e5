import Verif.Spec.Receiver
import Verif.Props.Receiver

/-! The states a receiver advertises (C28), what it hands to its decoder (C27), and what ends it (C59). -/

namespace Alfalfa

variable {D : Type} (P : Playing D)

/-! ### What always holds -/

/-- What holds of a receiver after any datagrams. -/
structure Receiver.Ok (r : Receiver D) : Prop where
  known : ∀ s d, r.decoders s = some d → P.minihash d = s
  current : r.currentState = P.minihash r.player
  initial : ∃ d, r.decoders r.initialState = some d
  notInitial : r.initialState ∉ r.completeStates
  one : ∀ k f, r.fragmentedFrames k = some f → k = r.nextFrameNo

theorem start_ok (d : D) : (Receiver.start P d).Ok P := by
  refine ⟨?_, rfl, ⟨d, if_pos rfl⟩, List.not_mem_nil, fun k f h => nomatch h⟩
  intro s e h
  change (if s = P.minihash d then some d else none) = some e at h
  by_cases hs : s = P.minihash d
  · rw [if_pos hs] at h; rw [← Option.some.inj h, hs]
  · rw [if_neg hs] at h; exact nomatch h

theorem pruneStates_spec (s : Nat) : ∀ (cs : List Nat) (m : NatMap D) (cs' : List Nat) (m' : NatMap D), pruneStates s cs m = some (cs', m') →
    ∃ pre rest, cs' = s :: rest ∧ cs = pre ++ cs' ∧ s ∉ pre ∧ ∀ j, m' j = if j ∈ pre then none else m j := by
  intro cs
  induction cs with
  | nil => intro m cs' m' h; exact nomatch h
  | cons c cs ih =>
    intro m cs' m' h
    rw [pruneStates] at h
    by_cases hc : c = s
    · rw [if_neg (not_not.mpr hc)] at h
      have := Prod.mk.inj (Option.some.inj h)
      refine ⟨[], cs, by rw [← this.1, hc], this.1 ▸ rfl, List.not_mem_nil, ?_⟩
      intro j; rw [if_neg List.not_mem_nil, this.2]
    · rw [if_pos hc] at h
      obtain ⟨pre, rest, e1, e2, e3, e4⟩ := ih _ _ _ h
      refine ⟨c :: pre, rest, e1, by rw [e2]; rfl, ?_, ?_⟩
      · intro hm
        obtain h | h := List.mem_cons.mp hm
        · exact hc h.symm
        · exact e3 h
      · intro j
        rw [e4]
        show (if j ∈ pre then none else if j = c then none else m j) = _
        by_cases hj : j ∈ pre
        · rw [if_pos hj, if_pos (List.mem_cons_of_mem _ hj)]
        · rw [if_neg hj]
          by_cases hjc : j = c
          · rw [if_pos hjc, if_pos (hjc ▸ List.mem_cons_self ..)]
          · rw [if_neg hjc, if_neg]
            intro hm
            obtain h | h := List.mem_cons.mp hm
            · exact hjc h
            · exact hj h

/-- Pruning succeeds if the source is among the states. -/
theorem pruneStates_mem (s : Nat) : ∀ (cs : List Nat) (m : NatMap D), s ∈ cs → ∃ x, pruneStates s cs m = some x := by
  intro cs
  induction cs with
  | nil => intro m h; exact absurd h List.not_mem_nil
  | cons c cs ih =>
    intro m h
    rw [pruneStates]
    by_cases hc : c = s
    · rw [if_neg (not_not.mpr hc)]; exact ⟨_, rfl⟩
    · rw [if_pos hc]
      obtain h | h := List.mem_cons.mp h
      · exact absurd h.symm hc
      · exact ih _ h

theorem finishFrame_ok {r r' : Receiver D} (hr : r.Ok P) (h : r.finishFrame P = some r') : r'.Ok P ∧ r'.initialState = r.initialState := by
  obtain rfl | ⟨f, frame, r1, r2, _, _, _, h1, h2, rfl⟩ := finishFrame_spec P h
  · exact ⟨hr, rfl⟩
  obtain ⟨d, c, e1, h3⟩ := loadSource_spec r f.sourceState
  rw [e1] at h1
  obtain ⟨cs, ds, e2, h4⟩ := prune_spec h1
  dsimp only at e2 h4
  -- after pruning
  have hknown : ∀ s d, ds s = some d → P.minihash d = s := by
    intro s x hs
    obtain ⟨_, rfl, _⟩ | ⟨_, _, hp⟩ := h4
    · exact hr.known s x hs
    · obtain ⟨pre, rest, _, _, _, hm⟩ := pruneStates_spec _ _ _ _ _ hp
      rw [hm] at hs
      by_cases hj : s ∈ pre
      · rw [if_pos hj] at hs; exact nomatch hs
      · rw [if_neg hj] at hs; exact hr.known s x hs
  have hinit : ∃ d, ds r.initialState = some d := by
    obtain ⟨_, rfl, _⟩ | ⟨_, _, hp⟩ := h4
    · exact hr.initial
    · obtain ⟨pre, rest, _, hcs, _, hm⟩ := pruneStates_spec _ _ _ _ _ hp
      rw [hm, if_neg]
      · exact hr.initial
      · intro hj; exact hr.notInitial (hcs ▸ List.mem_append_left _ hj)
  have hnot : r.initialState ∉ cs := by
    obtain ⟨rfl, _, _⟩ | ⟨_, _, hp⟩ := h4
    · exact hr.notInitial
    · obtain ⟨pre, rest, _, hcs, _, _⟩ := pruneStates_spec _ _ _ _ _ hp
      intro hj; exact hr.notInitial (hcs ▸ List.mem_append_right _ hj)
  have hr2 : r2.decoders = ds ∧ r2.initialState = r.initialState ∧ r2.completeStates = cs := by
    obtain ⟨_, rfl⟩ | ⟨_, x, _, rfl⟩ := enqueueFrame_eq P h2 <;> rw [e2] <;> exact ⟨rfl, rfl, rfl⟩
  obtain ⟨g1, g2, g3⟩ := hr2
  refine ⟨⟨?_, ?_, ?_, ?_, ?_⟩, ?_⟩
  · intro s x hs
    change (r2.saveState P f.targetState).decoders s = some x at hs
    unfold Receiver.saveState at hs
    dsimp only at hs
    split at hs
    · change (if s = P.minihash r2.player then (r2.decoders (P.minihash r2.player)).or (some r2.player) else r2.decoders s) = some x at hs
      rw [g1] at hs
      by_cases hsp : s = P.minihash r2.player
      · rw [if_pos hsp] at hs
        cases hd : ds (P.minihash r2.player) with
        | some y =>
          rw [hd] at hs
          rw [← Option.some.inj hs, hsp]
          exact hknown _ _ hd
        | none =>
          rw [hd] at hs
          rw [← Option.some.inj hs, hsp]
      · rw [if_neg hsp] at hs; exact hknown s x hs
    · change r2.decoders s = some x at hs
      rw [g1] at hs; exact hknown s x hs
  · show (r2.saveState P f.targetState).currentState = P.minihash (r2.saveState P f.targetState).player
    rw [(saveState_handed P r2 _).2.2.1, (saveState_handed P r2 _).2.1]
  · show ∃ d, (r2.saveState P f.targetState).decoders (r2.saveState P f.targetState).initialState = some d
    rw [(saveState_handed P r2 _).2.2.2]
    obtain ⟨y, hy⟩ := hinit
    unfold Receiver.saveState
    dsimp only
    split
    · rename_i hc
      refine ⟨y, ?_⟩
      show (if r2.initialState = P.minihash r2.player then _ else r2.decoders r2.initialState) = _
      rw [if_neg (fun h => hc.2 h.symm), g1, g2, hy]
    · exact ⟨y, by rw [g1, g2, hy]⟩
  · show (r2.saveState P f.targetState).initialState ∉ (r2.saveState P f.targetState).completeStates
    rw [(saveState_handed P r2 _).2.2.2]
    unfold Receiver.saveState
    dsimp only
    split
    · rename_i hc
      show r2.initialState ∉ r2.completeStates ++ [P.minihash r2.player]
      rw [List.mem_append, List.mem_singleton, g2, g3]
      rintro (h | h)
      · exact hnot h
      · exact hc.2 (by rw [g2, h])
    · rw [g2, g3]; exact hnot
  · intro k x hk
    change (if k = r.nextFrameNo then none else r.fragmentedFrames k) = some x at hk
    by_cases hkn : k = r.nextFrameNo
    · rw [if_pos hkn] at hk; exact nomatch hk
    · rw [if_neg hkn] at hk; exact absurd (hr.one k x hk) hkn
  · show (r2.saveState P f.targetState).initialState = r.initialState
    rw [(saveState_handed P r2 _).2.2.2, g2]

theorem receive_ok {r r' : Receiver D} {wire : List UInt8} {avg : Nat} {ack : Option AckPacket} (hr : r.Ok P)
    (h : r.receive P wire avg = some (r', ack)) : r'.Ok P ∧ r'.initialState = r.initialState := by
  obtain ⟨p, _, ⟨_, rfl, _⟩ | ⟨hle, r1, r2, h1, h2, h3, _⟩⟩ := receive_spec P h
  · exact ⟨hr, rfl⟩
  obtain ⟨a1, a2, a3, a4, a5, a6, _⟩ := skipTo_spec P hle h1
  have ok1 : r1.Ok P := by
    refine ⟨a4 ▸ hr.known, ?_, ?_, ?_, ?_⟩
    · obtain h | h := a5
      · exact h
      · rw [h]; exact hr.current
    · rw [a4, a2]; exact hr.initial
    · rw [a2, a3]; exact hr.notInitial
    · intro k f hk
      rw [a6] at hk
      by_cases hkr : r.nextFrameNo ≤ k ∧ k < p.frameNo
      · rw [if_pos hkr] at hk; exact nomatch hk
      · rw [if_neg hkr] at hk
        have := hr.one k f hk
        omega
  obtain ⟨g, e, hg, _⟩ := addPacket_spec h2
  have ok2 : r2.Ok P := by
    rw [e]
    refine ⟨ok1.known, ok1.current, ok1.initial, ok1.notInitial, ?_⟩
    intro k f hk
    change g k = some f at hk
    show k = r1.nextFrameNo
    by_cases hkp : k = p.frameNo
    · rw [hkp, a1]
    · rw [hg k hkp] at hk; exact ok1.one k f hk
  obtain ⟨h4, h5⟩ := finishFrame_ok P ok2 h3
  refine ⟨h4, ?_⟩
  rw [h5, e, ← a2]

/-- The receivers that can come about from a start. -/
inductive Receiver.Reaches (d : D) : Receiver D → Prop
  | start : Reaches d (Receiver.start P d)
  | step {r r' : Receiver D} {wire : List UInt8} {avg : Nat} {ack : Option AckPacket} (h : Reaches d r)
      (hs : r.receive P wire avg = some (r', ack)) : Reaches d r'

theorem reaches_ok {d : D} {r : Receiver D} (h : Receiver.Reaches P d r) : r.Ok P ∧ r.initialState = P.minihash d := by
  induction h with
  | start => exact ⟨start_ok P d, rfl⟩
  | step h hs ih =>
    obtain ⟨h1, h2⟩ := receive_ok P ih.1 hs
    exact ⟨h1, h2.trans ih.2⟩

/-- **C28, what an acknowledgement says.** After any datagrams, an acknowledgement reports the hash of the receiver's decoder and the complete states as
they are; each decoder the receiver keeps has the hash it is kept under; the initial state is always kept; and at most one unfinished frame is held. -/
theorem C28_acknowledgement (d : D) {r r' : Receiver D} {wire : List UInt8} {avg : Nat} {ack : AckPacket} (h : Receiver.Reaches P d r)
    (hs : r.receive P wire avg = some (r', some ack)) :
    ack.connectionId = 1337 ∧ ack.currentState = P.minihash r'.player ∧ ack.completeStates = r'.completeStates ∧
      (∀ p, Packet.parse wire = .ok p → ack.frameNo = p.frameNo ∧ ack.fragmentNo = p.fragmentNo ∧ ack.avgDelay = avg) ∧
      (∀ s x, r'.decoders s = some x → P.minihash x = s) ∧ (∃ x, r'.decoders (P.minihash d) = some x) ∧
      (∀ k f, r'.fragmentedFrames k = some f → k = r'.nextFrameNo) := by
  obtain ⟨hok, hinit⟩ := reaches_ok P (Receiver.Reaches.step h hs)
  obtain ⟨p, hp, ⟨_, _, h⟩ | ⟨_, _, _, _, _, _, e⟩⟩ := receive_spec P hs
  · exact nomatch h
  · have e := Option.some.inj e
    subst e
    refine ⟨rfl, hok.current, rfl, ?_, hok.known, hinit ▸ hok.initial, hok.one⟩
    intro q hq
    rw [hp] at hq
    rw [← Except.ok.inj hq]
    exact ⟨rfl, rfl, rfl⟩

/-! ### Where the decoders come from -/

/-- Each decoder in the receiver was there at the start or was made by one of its calls of the decoder. -/
structure Receiver.Held (d : D) (r : Receiver D) : Prop where
  player : r.Had P d r.player ∧ P.Occurs d r.player
  decoders : ∀ s x, r.decoders s = some x → r.Had P d x ∧ P.Occurs d x
  handed : ∀ y ∈ r.handed, r.Had P d y.2.1 ∧ P.Occurs d y.2.1

theorem enqueueFrame_held {d : D} {r r' : Receiver D} {k : Nat} {b : List UInt8} (hr : r.Held P d) (h : r.enqueueFrame P k b = some r') : r'.Held P d := by
  obtain ⟨_, rfl⟩ | ⟨_, y, hy, rfl⟩ := enqueueFrame_eq P h
  · exact hr
  have mono : ∀ {x}, r.Had P d x → Receiver.Had P d { r with player := y, handed := r.handed ++ [(k, r.player, b)] } x := by
    rintro x (rfl | ⟨z, hz, e⟩)
    · exact .inl rfl
    · exact .inr ⟨z, List.mem_append_left _ hz, e⟩
  refine ⟨⟨.inr ⟨_, List.mem_append_right _ (List.mem_singleton.mpr rfl), hy⟩, .next hr.player.2 hy⟩, fun s x hx => ?_, fun z hz => ?_⟩
  · exact ⟨mono (hr.decoders s x hx).1, (hr.decoders s x hx).2⟩
  · obtain hz | hz := List.mem_append.mp hz
    · exact ⟨mono (hr.handed z hz).1, (hr.handed z hz).2⟩
    · rw [List.mem_singleton.mp hz]
      exact ⟨mono hr.player.1, hr.player.2⟩

theorem showPartial_held {d : D} (n : Nat) : ∀ {r r' : Receiver D} {i : Nat}, r.Held P d → r.showPartial P i n = some r' → r'.Held P d := by
  induction n with
  | zero => intro r r' i hr h; rw [← Option.some.inj h]; exact hr
  | succ n ih =>
    intro r r' i hr h
    rw [Receiver.showPartial] at h
    cases hf : r.fragmentedFrames i with
    | none => rw [hf] at h; exact ih hr h
    | some f =>
      rw [hf] at h
      obtain ⟨r1, h1, h2⟩ := Option.bind_eq_some_iff.mp h
      obtain ⟨a, b, c⟩ := enqueueFrame_held P hr h1
      refine ih ?_ h2
      exact ⟨a, b, c⟩

theorem skipTo_held {d : D} {r r' : Receiver D} {k : Nat} (hr : r.Held P d) (h : r.skipTo P k = some r') : r'.Held P d := by
  unfold Receiver.skipTo at h
  split at h
  · obtain ⟨r1, h1, h⟩ := Option.bind_eq_some_iff.mp h
    obtain ⟨a, b, c⟩ := showPartial_held P _ hr h1
    rw [← Option.some.inj h]
    exact ⟨a, b, c⟩
  · rw [← Option.some.inj h]; exact hr

theorem prune_held {d : D} {r r' : Receiver D} {s : Nat} (hr : r.Held P d) (h : r.prune s = some r') : r'.Held P d := by
  obtain ⟨cs, ds, rfl, ⟨_, rfl, _⟩ | ⟨_, _, hp⟩⟩ := prune_spec h
  · exact ⟨hr.player, hr.decoders, hr.handed⟩
  · obtain ⟨_, _, _, _, _, hm⟩ := pruneStates_spec _ _ _ _ _ hp
    refine ⟨hr.player, fun s x hx => ?_, hr.handed⟩
    change ds s = some x at hx
    rw [hm] at hx
    split at hx
    · exact nomatch hx
    · exact hr.decoders s x hx

theorem loadSource_held {d : D} {r : Receiver D} (s : Nat) (hr : r.Held P d) : (r.loadSource s).Held P d := by
  obtain ⟨x, c, e, ⟨_, rfl, _⟩ | ⟨_, hx⟩⟩ := loadSource_spec r s
  · rw [e]; exact ⟨hr.player, hr.decoders, hr.handed⟩
  · rw [e]; exact ⟨hr.decoders s x hx, hr.decoders, hr.handed⟩

theorem finishFrame_held {d : D} {r r' : Receiver D} (hr : r.Held P d) (h : r.finishFrame P = some r') : r'.Held P d := by
  obtain rfl | ⟨f, frame, r1, r2, _, _, _, h1, h2, rfl⟩ := finishFrame_spec P h
  · exact hr
  have hr2 := enqueueFrame_held P (prune_held P (loadSource_held P f.sourceState hr) h1) h2
  unfold Receiver.saveState
  dsimp only
  split
  · refine ⟨hr2.player, fun s x hx => ?_, hr2.handed⟩
    change (if s = P.minihash r2.player then (r2.decoders (P.minihash r2.player)).or (some r2.player) else r2.decoders s) = some x at hx
    split at hx
    · rcases hs : r2.decoders (P.minihash r2.player) with _ | z
      · rw [hs] at hx
        rw [← Option.some.inj hx]; exact hr2.player
      · rw [hs] at hx
        rw [← Option.some.inj hx]; exact hr2.decoders _ z hs
    · exact hr2.decoders s x hx
  · exact ⟨hr2.player, hr2.decoders, hr2.handed⟩

theorem receive_held {d : D} {r r' : Receiver D} {wire : List UInt8} {avg : Nat} {ack : Option AckPacket} (hr : r.Held P d)
    (h : r.receive P wire avg = some (r', ack)) : r'.Held P d := by
  obtain ⟨p, _, ⟨_, rfl, _⟩ | ⟨_, r1, r2, h1, h2, h3, _⟩⟩ := receive_spec P h
  · exact hr
  · obtain ⟨g, rfl, _⟩ := addPacket_spec h2
    obtain ⟨a, b, c⟩ := skipTo_held P hr h1
    refine finishFrame_held P ?_ h3
    exact ⟨a, b, c⟩

theorem start_held (d : D) : (Receiver.start P d).Held P d := by
  refine ⟨⟨.inl rfl, .first⟩, fun s x hx => ?_, fun y hy => absurd hy List.not_mem_nil⟩
  change (if s = P.minihash d then some d else none) = some x at hx
  split at hx
  · rw [← Option.some.inj hx]; exact ⟨.inl rfl, .first⟩
  · exact nomatch hx

theorem reaches_held {d : D} {r : Receiver D} (h : Receiver.Reaches P d r) : r.Held P d := by
  induction h with
  | start => exact start_held P d
  | step h hs ih => exact receive_held P ih hs

/-! ### Advertised states are kept, if none is advertised twice -/

/-- The receivers that can come about from datagrams that `W` allows, when no state is ever advertised twice at a time. -/
inductive Receiver.ReachesFresh (W : List UInt8 → Prop) (d : D) : Receiver D → Prop
  | start : ReachesFresh W d (Receiver.start P d)
  | step {r r' : Receiver D} {wire : List UInt8} {avg : Nat} {ack : Option AckPacket} (h : ReachesFresh W d r) (hw : W wire)
      (hs : r.receive P wire avg = some (r', ack)) (hn : r'.completeStates.Nodup) : ReachesFresh W d r'

variable {W : List UInt8 → Prop}

theorem ReachesFresh.reaches {d : D} {r : Receiver D} (h : Receiver.ReachesFresh P W d r) : Receiver.Reaches P d r := by
  induction h with
  | start => exact .start
  | step h hw hs hn ih => exact .step ih hs

theorem ReachesFresh.nodup {d : D} {r : Receiver D} (h : Receiver.ReachesFresh P W d r) : r.completeStates.Nodup := by
  cases h with
  | start => exact List.nodup_nil
  | step h hw hs hn => exact hn

theorem finishFrame_available {r r' : Receiver D} (ha : ∀ s ∈ r.completeStates, ∃ d, r.decoders s = some d) (hn : r.completeStates.Nodup)
    (h : r.finishFrame P = some r') : ∀ s ∈ r'.completeStates, ∃ d, r'.decoders s = some d := by
  obtain rfl | ⟨f, frame, r1, r2, _, _, _, h1, h2, rfl⟩ := finishFrame_spec P h
  · exact ha
  obtain ⟨d, c, e1, h3⟩ := loadSource_spec r f.sourceState
  rw [e1] at h1
  obtain ⟨cs, ds, e2, h4⟩ := prune_spec h1
  dsimp only at e2 h4
  have hav : ∀ s ∈ cs, ∃ d, ds s = some d := by
    intro s hs
    obtain ⟨rfl, rfl, _⟩ | ⟨_, _, hp⟩ := h4
    · exact ha s hs
    · obtain ⟨pre, rest, _, hcs, _, hm⟩ := pruneStates_spec _ _ _ _ _ hp
      rw [hm, if_neg]
      · exact ha s (hcs ▸ List.mem_append_right _ hs)
      · intro hj
        rw [hcs] at hn
        exact (List.nodup_append.mp hn).2.2 s hj s hs rfl
  have hr2 : r2.decoders = ds ∧ r2.completeStates = cs := by
    obtain ⟨_, rfl⟩ | ⟨_, x, _, rfl⟩ := enqueueFrame_eq P h2 <;> rw [e2] <;> exact ⟨rfl, rfl⟩
  obtain ⟨g1, g3⟩ := hr2
  intro s hs
  change s ∈ (r2.saveState P f.targetState).completeStates at hs
  show ∃ d, (r2.saveState P f.targetState).decoders s = some d
  unfold Receiver.saveState at hs ⊢
  dsimp only at hs ⊢
  split at hs
  · rename_i hc
    rw [if_pos hc]
    change s ∈ r2.completeStates ++ [P.minihash r2.player] at hs
    show ∃ d, (if s = P.minihash r2.player then (r2.decoders (P.minihash r2.player)).or (some r2.player) else r2.decoders s) = some d
    by_cases hsp : s = P.minihash r2.player
    · rw [if_pos hsp]
      cases r2.decoders (P.minihash r2.player) with
      | some y => exact ⟨y, rfl⟩
      | none => exact ⟨r2.player, rfl⟩
    · rw [if_neg hsp, g1]
      obtain h | h := List.mem_append.mp hs
      · exact hav s (g3 ▸ h)
      · exact absurd (List.mem_singleton.mp h) hsp
  · rename_i hc
    rw [if_neg hc]
    exact g1 ▸ hav s (g3 ▸ hs)

/-- **C28 (partial).** As long as no state is advertised twice at a time, every state the receiver advertises is one it can load, and what it would load
has that state.  Missing: the same without the condition, which is false. -/
theorem C28_advertised_states_available_partial (d : D) {r : Receiver D} (h : Receiver.ReachesFresh P W d r) :
    ∀ s ∈ r.completeStates, ∃ x, r.decoders s = some x ∧ P.minihash x = s := by
  have hok := (reaches_ok P (ReachesFresh.reaches P h)).1
  suffices ∀ s ∈ r.completeStates, ∃ x, r.decoders s = some x by
    intro s hs
    obtain ⟨x, hx⟩ := this s hs
    exact ⟨x, hx, hok.known s x hx⟩
  clear hok
  induction h with
  | start => intro s hs; exact absurd hs List.not_mem_nil
  | step h hw hs hn ih =>
    obtain ⟨p, _, ⟨_, rfl, _⟩ | ⟨hle, r1, r2, h1, h2, h3, _⟩⟩ := receive_spec P hs
    · exact ih
    · obtain ⟨_, _, a3, a4, _, _, _⟩ := skipTo_spec P hle h1
      obtain ⟨g, e, _⟩ := addPacket_spec h2
      refine finishFrame_available P ?_ ?_ h3
      · rw [e]; show ∀ s ∈ r1.completeStates, ∃ d, r1.decoders s = some d
        rw [a3, a4]; exact ih
      · rw [e]; show r1.completeStates.Nodup
        rw [a3]; exact ReachesFresh.nodup P h

/-- **C28 (partial), its use.** When the frame the receiver waits for is complete and was coded against a state it advertises, or against the initial state,
then the frame is decoded by a decoder in exactly that state, and no assertion fails. -/
theorem C28_decodes_against_source_partial (d : D) {r : Receiver D} (h : Receiver.ReachesFresh P W d r) (f : FragmentedFrame) (frame : List UInt8)
    (hsrc : f.sourceState ∈ r.completeStates ∨ f.sourceState = P.minihash d) (hc : f.complete = true) (hf : f.frame = .ok frame) (hne : frame ≠ []) :
    ∃ x, P.minihash x = f.sourceState ∧
      match P.decode x frame with
      | none => ({ r with fragmentedFrames := fun k => if k = r.nextFrameNo then some f else none } : Receiver D).finishFrame P = none
      | some y => ∃ r', ({ r with fragmentedFrames := fun k => if k = r.nextFrameNo then some f else none } : Receiver D).finishFrame P = some r' ∧
          r'.player = y ∧ r'.handed = r.handed ++ [(r.nextFrameNo, x, frame)] ∧ r'.nextFrameNo = r.nextFrameNo + 1 ∧
          (P.minihash y = f.targetState → f.targetState ≠ P.minihash d → f.targetState ∈ r'.completeStates) := by
  have hav := C28_advertised_states_available_partial P d h
  obtain ⟨hok, hinit⟩ := reaches_ok P (ReachesFresh.reaches P h)
  generalize hq : ({ r with fragmentedFrames := fun k => if k = r.nextFrameNo then some f else none } : Receiver D) = q
  have hload : ∃ x, P.minihash x = f.sourceState ∧ q.loadSource f.sourceState = { q with player := x, currentState := f.sourceState } := by
    unfold Receiver.loadSource
    have hqc : q.currentState = r.currentState := by rw [← hq]
    have hqd : q.decoders = r.decoders := by rw [← hq]
    by_cases hcur : r.currentState = f.sourceState
    · rw [if_neg (not_not.mpr (hqc.trans hcur))]
      refine ⟨q.player, ?_, ?_⟩
      · rw [← hcur, hok.current, ← hq]
      · rw [← hcur, ← hqc]
    · rw [if_pos (fun h => hcur (hqc.symm.trans h)), hqd]
      have : ∃ x, r.decoders f.sourceState = some x := by
        obtain h | h := hsrc
        · obtain ⟨x, hx, _⟩ := hav _ h; exact ⟨x, hx⟩
        · rw [h, ← hinit]; exact hok.initial
      obtain ⟨x, hx⟩ := this
      rw [hx]
      exact ⟨x, hok.known _ _ hx, rfl⟩
  obtain ⟨x, hx, hl⟩ := hload
  refine ⟨x, hx, ?_⟩
  have hprune : ∃ cs ds, (q.loadSource f.sourceState).prune f.sourceState =
      some { q with player := x, currentState := f.sourceState, completeStates := cs, decoders := ds } := by
    rw [hl]
    unfold Receiver.prune
    dsimp only
    by_cases hs : f.sourceState = q.initialState
    · rw [if_neg (fun h => h.2 hs)]; exact ⟨_, _, rfl⟩
    · rw [if_pos ⟨rfl, hs⟩]
      have hmem : f.sourceState ∈ q.completeStates := by
        rw [← hq]
        obtain h | h := hsrc
        · exact h
        · refine absurd ?_ hs
          rw [← hq, h]; exact hinit.symm
      obtain ⟨⟨cs, ds⟩, hp⟩ := pruneStates_mem f.sourceState q.completeStates q.decoders hmem
      rw [hp]
      exact ⟨cs, ds, rfl⟩
  obtain ⟨cs, ds, hp⟩ := hprune
  have hqf : q.fragmentedFrames q.nextFrameNo = some f := by rw [← hq]; exact if_pos rfl
  have hqh : q.handed = r.handed ∧ q.nextFrameNo = r.nextFrameNo ∧ q.initialState = P.minihash d := by
    rw [← hq]; exact ⟨rfl, rfl, hinit⟩
  have hlen : ¬ frame.length = 0 := fun h => hne (List.length_eq_zero_iff.mp h)
  unfold Receiver.finishFrame
  rw [hqf]
  dsimp only
  rw [if_pos hc, hp, hf]
  show match P.decode x frame with
      | none => (Receiver.enqueueFrame P _ _ frame >>= _) = none
      | some y => ∃ r', (Receiver.enqueueFrame P _ _ frame >>= _) = some r' ∧ _
  unfold Receiver.enqueueFrame
  rw [if_neg hlen]
  dsimp only
  cases hd : P.decode x frame with
  | none => rfl
  | some y =>
    refine ⟨_, rfl, ?_, ?_, ?_, ?_⟩
    · exact (saveState_handed P _ _).2.1
    · refine (saveState_handed P _ _).1.trans ?_
      show q.handed ++ [(q.nextFrameNo, x, frame)] = _
      rw [hqh.1, hqh.2.1]
    · have : ∀ (z : Receiver D) t, (z.saveState P t).nextFrameNo = z.nextFrameNo := by
        intro z t; unfold Receiver.saveState; dsimp only; split <;> rfl
      show (Receiver.saveState P _ _).nextFrameNo + 1 = _
      rw [this, ← hqh.2.1]
    · intro hy ht
      show f.targetState ∈ (Receiver.saveState P _ f.targetState).completeStates
      unfold Receiver.saveState
      dsimp only
      rw [if_pos ⟨hy, by rw [hy, hqh.2.2]; exact ht⟩]
      exact List.mem_append_right _ (List.mem_singleton.mpr hy.symm)

end Alfalfa
