import Verif.Spec.System
import Verif.Props.ReceiverFrames
import Mathlib.Data.List.Basic

/-! The receiver inside the system: what its variables have to do with the frames that were sent. -/

namespace Alfalfa

variable {D : Type} (P : Playing D)

/-- A frame that was sent, in the form of the statements about the receiver. -/
def sentFrame (f : FragmentedFrame) : SentFrame :=
  { source := f.sourceState, target := f.targetState, time := ((f.fragments.head?).map (·.timeSinceLast)).getD 0
    whole := (f.fragments.map (·.payload)).flatten, packets := f.fragments }

/-- The frames that were sent, by number. -/
def sentAt (sent : List FragmentedFrame) (k : Nat) : SentFrame := ((sent[k]?).map sentFrame).getD ⟨0, 0, 0, [], []⟩

theorem sentAt_some {sent : List FragmentedFrame} {k : Nat} {f : FragmentedFrame} (h : sent[k]? = some f) : sentAt sent k = sentFrame f := by
  unfold sentAt; rw [h]; rfl

theorem sentAt_none {sent : List FragmentedFrame} {k : Nat} (h : sent[k]? = none) : sentAt sent k = ⟨0, 0, 0, [], []⟩ := by
  unfold sentAt; rw [h]; rfl

theorem sentAt_append {sent : List FragmentedFrame} {k : Nat} (f : FragmentedFrame) (h : k < sent.length) : sentAt (sent ++ [f]) k = sentAt sent k := by
  unfold sentAt; rw [List.getElem?_append_left h]

/-- A frame with packets was sent. -/
theorem sentAt_packets {sent : List FragmentedFrame} {k : Nat} (h : (sentAt sent k).packets ≠ []) : ∃ f, sent[k]? = some f ∧ sentAt sent k = sentFrame f := by
  cases hk : sent[k]? with
  | none => rw [sentAt_none hk] at h; exact absurd rfl h
  | some f => exact ⟨f, rfl, sentAt_some hk⟩

/-- An assembly whose usable part is the whole frame is complete. -/
theorem FromSent.partial_whole {f : FragmentedFrame} {s : SentFrame} {c k : Nat} (h : FromSent f s c k) (hs : s.As c k)
    (hw : f.partialFrame = s.whole) : f.complete = true := by
  obtain ⟨n, h1, h2, h3⟩ := takeWhile_eq_take (·.valid) f.fragments
  have htake : f.fragments.take n = s.packets.take n := by
    refine List.ext_getElem (by simp [h.length]) fun j hj hj' => ?_
    have hm := List.getElem_mem hj
    rw [List.length_take] at hj hj'
    have hv := h3 _ hm
    rw [List.getElem_take] at hv
    rw [List.getElem_take, List.getElem_take]
    exact h.slot hs j (by omega) (by omega) hv
  have hpf : f.partialFrame = s.whole.take (1400 * n) := by
    unfold FragmentedFrame.partialFrame
    rw [h2, htake, hs.cut.prefix n (h.length ▸ h1)]
  obtain ⟨ds, hd, _⟩ := h.holds
  have hlen : n = f.fragments.length := by
    by_contra hne
    have h4 : n < s.packets.length := by rw [← h.length]; omega
    have h5 := congrArg List.length (hpf.symm.trans hw)
    rw [List.length_take] at h5
    have h6 := hs.cut.count
    omega
  rw [hlen, List.take_length] at h3
  unfold FragmentedFrame.complete
  rw [beq_iff_eq, hd.remaining, List.countP_eq_zero]
  intro q hq
  rw [h3 q hq]; decide

theorem showPartial_player (n : Nat) : ∀ (r r' : Receiver D) (i : Nat), r.showPartial P i n = some r' →
    (r'.player = r.player ∧ r'.handed = r.handed) ∨
    ∃ new x, r'.handed = r.handed ++ new ++ [x] ∧ P.decode x.2.1 x.2.2 = some r'.player := by
  induction n with
  | zero => intro r r' i h; rw [← Option.some.inj h]; exact Or.inl ⟨rfl, rfl⟩
  | succ n ih =>
    intro r r' i h
    rw [Receiver.showPartial] at h
    cases hf : r.fragmentedFrames i with
    | none => rw [hf] at h; exact ih r r' (i + 1) h
    | some f =>
      rw [hf] at h
      obtain ⟨r1, h1, h2⟩ := Option.bind_eq_some_iff.mp h
      clear h hf
      obtain ⟨_, rfl⟩ | ⟨_, y, hy, rfl⟩ := enqueueFrame_eq P h1
      · have := ih _ r' (i + 1) h2
        exact this
      · obtain ⟨e1, e2⟩ | ⟨new, x, e1, e2⟩ := ih _ r' (i + 1) h2
        · refine Or.inr ⟨[], (i, r.player, f.partialFrame), ?_, ?_⟩
          · rw [e2, List.append_nil]
          · rw [e1]; exact hy
        · refine Or.inr ⟨(i, r.player, f.partialFrame) :: new, x, ?_, e2⟩
          rw [e1]
          simp

theorem skipTo_player {r r' : Receiver D} {k : Nat} (h : r.skipTo P k = some r') :
    (r'.player = r.player ∧ r'.handed = r.handed) ∨
    ∃ new x, r'.handed = r.handed ++ new ++ [x] ∧ P.decode x.2.1 x.2.2 = some r'.player := by
  unfold Receiver.skipTo at h
  by_cases hlt : r.nextFrameNo < k
  · rw [if_pos hlt] at h
    obtain ⟨r1, h1, h⟩ := Option.bind_eq_some_iff.mp h
    have := Option.some.inj h
    subst this
    exact showPartial_player P _ _ r1 _ h1
  · rw [if_neg hlt] at h
    rw [← Option.some.inj h]
    exact Or.inl ⟨rfl, rfl⟩

/-- The receiver in the system, but for the frame it waits for, which may be complete. -/
structure RInv (initial : Nat) (sent : List FragmentedFrame) (r : Receiver D) : Prop where
  ok : r.Ok P
  start : r.initialState = initial
  genuine : r.Genuine (sentAt sent)
  packets : ∀ k f, r.fragmentedFrames k = some f → (sentAt sent k).packets ≠ []
  sub : r.completeStates.Sublist ((sent.map (·.targetState)).take r.nextFrameNo)
  dom : ∀ s x, r.decoders s = some x → s = initial ∨ s ∈ r.completeStates
  hash : r.currentState = initial ∨ ∃ x ∈ r.handed, ∃ y, P.decode x.2.1 x.2.2 = some y ∧ P.minihash y = r.currentState
  current : r.currentState ∈ sent.map (·.targetState) → r.completeStates.getLast? = some r.currentState

/-- The frames it holds are not complete. -/
def Receiver.Waiting (r : Receiver D) : Prop := ∀ k f, r.fragmentedFrames k = some f → f.complete = false

theorem start_rinv (d : D) : RInv P (P.minihash d) [] (Receiver.start P d) where
  ok := start_ok P d
  start := rfl
  genuine := start_genuine P _ d
  packets := fun _ _ h => (nomatch h)
  sub := List.nil_sublist _
  dom := by
    intro s x h
    change (if s = P.minihash d then some d else none) = some x at h
    by_cases hs : s = P.minihash d
    · exact Or.inl hs
    · rw [if_neg hs] at h; exact nomatch h
  hash := Or.inl rfl
  current := fun h => absurd h List.not_mem_nil

section
variable {P}
variable {initial : Nat} {sent : List FragmentedFrame}

theorem RInv.skip (hsent : ∀ k, (sentAt sent k).packets ≠ [] → (sentAt sent k).As CONNECTION_ID k) {r r' : Receiver D} {k : Nat}
    (hr : RInv P initial sent r) (hw : r.Waiting) (hk : r.nextFrameNo ≤ k) (h : r.skipTo P k = some r')
    (hn : System.NoAccident P initial sent r'.handed) : RInv P initial sent r' ∧ r'.Waiting ∧ r'.completeStates = r.completeStates := by
  obtain ⟨a1, a2, a3, a4, a5, a6, new, a7, a8, a9⟩ := skipTo_spec P hk h
  obtain ⟨g1, g2⟩ := skipTo_genuine P hsent hr.genuine hr.packets hk h
  have hcur : r'.currentState = P.minihash r'.player := by
    obtain h | h := a5
    · exact h
    · rw [h]; exact hr.ok.current
  have hor : r'.currentState = r.currentState ∨ ∃ x ∈ new, x ∈ r'.handed ∧ P.decode x.2.1 x.2.2 = some r'.player := by
    obtain ⟨e, _⟩ | ⟨new', x, e1, e2⟩ := skipTo_player P h
    · exact Or.inl (by rw [hcur, e, hr.ok.current])
    · have hm : x ∈ r'.handed := by rw [e1]; simp
      refine Or.inr ⟨x, ?_, hm, e2⟩
      have e3 : new = new' ++ [x] := by
        rw [e1, List.append_assoc] at a7
        exact (List.append_cancel_left a7).symm
      rw [e3]; simp
  refine ⟨⟨⟨a4 ▸ hr.ok.known, hcur, ?_, ?_, ?_⟩, a2.trans hr.start, g1, fun j f hf => hr.packets j f (g2 j f hf), ?_, ?_, ?_, ?_⟩, ?_, a3⟩
  · rw [a2, a4]; exact hr.ok.initial
  · rw [a2, a3]; exact hr.ok.notInitial
  · intro j f hf
    rw [a6] at hf
    by_cases hj : r.nextFrameNo ≤ j ∧ j < k
    · rw [if_pos hj] at hf; exact nomatch hf
    · rw [if_neg hj] at hf
      have := hr.ok.one j f hf
      rw [a1]
      omega
  · rw [a3, a1]
    exact hr.sub.trans (List.take_sublist_take_left hk)
  · rw [a3, a4]; exact hr.dom
  · obtain e | ⟨x, _, hx, hy⟩ := hor
    · rw [e]
      obtain h0 | ⟨x, hx, hy⟩ := hr.hash
      · exact Or.inl h0
      · exact Or.inr ⟨x, by rw [a7]; exact List.mem_append_left _ hx, hy⟩
    · exact Or.inr ⟨x, hx, _, hy, hcur.symm⟩
  · obtain e | ⟨x, hnew, hx, hy⟩ := hor
    · rw [e, a3]; exact hr.current
    · intro hin
      exfalso
      rw [hcur] at hin
      obtain ⟨f, hf, _, hbytes⟩ := hn.decoded x.1 x.2.1 x.2.2 _ hx hy hin
      obtain ⟨_, _, _, g, hg, hp⟩ := a9 x hnew
      have hfs := hr.genuine.frames x.1 g hg
      have hcomp := hfs.partial_whole (hsent _ (hr.packets x.1 g hg)) (by
        rw [← hp, ← hbytes, sentAt_some hf]; rfl)
      rw [hw x.1 g hg] at hcomp
      exact nomatch hcomp
  · exact fun j f hf => hw j f (g2 j f hf)

theorem RInv.add {r r' : Receiver D} {p : Packet} (hr : RInv P initial sent r) (hs : (sentAt sent p.frameNo).As CONNECTION_ID p.frameNo)
    (hp : p ∈ (sentAt sent p.frameNo).packets) (hk : r.nextFrameNo = p.frameNo) (h : r.addPacket p = some r') :
    RInv P initial sent r' ∧ (∀ k f, r'.fragmentedFrames k = some f → k = r'.nextFrameNo) ∧ r'.handed = r.handed ∧ r'.completeStates = r.completeStates ∧
      r'.nextFrameNo = r.nextFrameNo := by
  obtain ⟨g, f, h1, h2, h3, h4⟩ := addPacket_genuine hr.genuine hs hp
  rw [h1] at h
  have h := Option.some.inj h
  subst h
  have hone : ∀ k f, g k = some f → k = r.nextFrameNo := by
    intro k x hx
    by_cases he : k = p.frameNo
    · rw [he, hk]
    · rw [h3 k he] at hx; exact hr.ok.one k x hx
  refine ⟨⟨⟨hr.ok.known, hr.ok.current, hr.ok.initial, hr.ok.notInitial, hone⟩, hr.start, h4, ?_, hr.sub, hr.dom, hr.hash, hr.current⟩, hone, rfl, rfl, rfl⟩
  intro k x hx
  change g k = some x at hx
  by_cases he : k = p.frameNo
  · rw [he]; exact mem_ne_nil hp
  · rw [h3 k he] at hx; exact hr.packets k x hx

theorem finishFrame_waiting {r r' : Receiver D} (hone : ∀ k f, r.fragmentedFrames k = some f → k = r.nextFrameNo) (h : r.finishFrame P = some r') :
    r'.Waiting := by
  cases hf : r.fragmentedFrames r.nextFrameNo with
  | none =>
    unfold Receiver.finishFrame at h
    rw [hf] at h
    rw [← Option.some.inj h]
    intro k f hk
    rw [hone k f hk, hf] at hk; exact nomatch hk
  | some f =>
    by_cases hc : f.complete = true
    · obtain rfl | ⟨f', frame, r1, r2, _, _, _, h1, h2, rfl⟩ := finishFrame_spec P h
      · exfalso
        unfold Receiver.finishFrame at h
        rw [hf] at h
        dsimp only at h
        rw [if_pos hc] at h
        obtain ⟨r1, h1, h⟩ := Option.bind_eq_some_iff.mp h
        obtain ⟨frame, h2, h⟩ := Option.bind_eq_some_iff.mp h
        obtain ⟨r2, h3, h⟩ := Option.bind_eq_some_iff.mp h
        have hn := congrArg Receiver.nextFrameNo (Option.some.inj h)
        have e1 : r1.nextFrameNo = r'.nextFrameNo := by
          obtain ⟨d, c, e1, _⟩ := loadSource_spec r' f.sourceState
          obtain ⟨cs, ds, e2, _⟩ := prune_spec h1
          rw [e2, e1]
        have e2 : r2.nextFrameNo = r1.nextFrameNo := by
          obtain ⟨_, rfl⟩ | ⟨_, y, _, rfl⟩ := enqueueFrame_eq P h3 <;> rfl
        have e3 : (r2.saveState P f.targetState).nextFrameNo = r2.nextFrameNo := by
          unfold Receiver.saveState
          dsimp only
          split <;> rfl
        change (r2.saveState P f.targetState).nextFrameNo + 1 = r'.nextFrameNo at hn
        omega
      · intro k g hk
        change (if k = r.nextFrameNo then none else r.fragmentedFrames k) = some g at hk
        by_cases he : k = r.nextFrameNo
        · rw [if_pos he] at hk; exact nomatch hk
        · rw [if_neg he] at hk; exact absurd (hone k g hk) he
    · unfold Receiver.finishFrame at h
      rw [hf] at h
      dsimp only at h
      rw [if_neg hc] at h
      rw [← Option.some.inj h]
      intro k g hk
      rw [hone k g hk, hf] at hk
      rw [← Option.some.inj hk]
      simpa using hc

theorem mem_sublist_take {c : Nat} {l targets : List Nat} {n : Nat} (h : l.Sublist (targets.take n)) (hc : c ∈ l) : c ∈ targets :=
  List.mem_of_mem_take (h.subset hc)

theorem RInv.finish (hsent : ∀ k, (sentAt sent k).packets ≠ [] → (sentAt sent k).As CONNECTION_ID k) {r r' : Receiver D}
    (hr : RInv P initial sent r) (hne : ∀ k, (sentAt sent k).packets ≠ [] → (sentAt sent k).whole ≠ []) (h : r.finishFrame P = some r')
    (hn : System.NoAccident P initial sent r'.handed) :
    RInv P initial sent r' ∧ (∃ pre cs app, r.completeStates = pre ++ cs ∧ r'.completeStates = cs ++ app ∧ (pre = [] ∨ cs ≠ []) ∧
      (app = [] ∨ ∃ f, sent[r.nextFrameNo]? = some f ∧ app = [f.targetState])) := by
  have hg := finishFrame_genuine P hsent hr.genuine hr.packets h
  have hokk := finishFrame_ok P hr.ok h
  obtain rfl | ⟨f, frame, r1, r2, hf, hc, hfr, h1, h2, rfl⟩ := finishFrame_spec P h
  · exact ⟨hr, [], r'.completeStates, [], rfl, by simp, Or.inl rfl, Or.inl rfl⟩
  have hfs := hr.genuine.frames _ f hf
  have hpk := hr.packets _ f hf
  obtain ⟨fs, hfsent, hfat⟩ := sentAt_packets hpk
  have hwhole := hfs.frame (hsent _ hpk) hc
  rw [hfr] at hwhole
  have hwhole := Except.ok.inj hwhole
  have htarget : f.targetState = fs.targetState := by rw [hfs.target, hfat]; rfl
  have htmem : fs.targetState ∈ sent.map (·.targetState) := List.mem_map_of_mem (List.mem_of_getElem? hfsent)
  have htget : (sent.map (·.targetState))[r.nextFrameNo]? = some fs.targetState := by rw [List.getElem?_map, hfsent]; rfl
  obtain ⟨d, c, e1, h3⟩ := loadSource_spec r f.sourceState
  rw [e1] at h1
  obtain ⟨cs, ds, e2, h4⟩ := prune_spec h1
  dsimp only at e2 h4
  subst e2
  obtain ⟨hb, _⟩ | ⟨_, y, hy, e3⟩ := enqueueFrame_eq P h2
  · exact absurd (hwhole ▸ hb) (hne _ hpk)
  subst e3
  dsimp only at hy
  have hnod : r.completeStates.Nodup := by
    have h0 := (List.nodup_cons.mp hn.fresh).2
    exact hr.sub.nodup ((List.take_sublist _ _).nodup h0)
  -- the prune
  obtain ⟨pre, hpre, hds, hcsne⟩ : ∃ pre, r.completeStates = pre ++ cs ∧ (∀ j, ds j = if j ∈ pre then none else r.decoders j) ∧ (pre = [] ∨ cs ≠ []) := by
    obtain ⟨e1, e2, _⟩ | ⟨_, _, h5⟩ := h4
    · exact ⟨[], by simp [e1], by simp [e2], Or.inl rfl⟩
    · obtain ⟨pre, rest, e1, e2, _, e4⟩ := pruneStates_spec _ _ _ _ _ h5
      exact ⟨pre, e2, e4, Or.inr (by rw [e1]; exact List.cons_ne_nil _ _)⟩
  have hcsub : cs.Sublist ((sent.map (·.targetState)).take r.nextFrameNo) := by
    refine List.Sublist.trans ?_ hr.sub
    rw [hpre]; exact List.sublist_append_right _ _
  have hdom : ∀ s x, ds s = some x → s = initial ∨ s ∈ cs := by
    intro s x hx
    rw [hds] at hx
    by_cases hp : s ∈ pre
    · rw [if_pos hp] at hx; exact nomatch hx
    · rw [if_neg hp] at hx
      obtain h | h := hr.dom s x hx
      · exact Or.inl h
      · rw [hpre] at h
        obtain h | h := List.mem_append.mp h
        · exact absurd h hp
        · exact Or.inr h
  have htake : (sent.map (·.targetState)).take (r.nextFrameNo + 1) = (sent.map (·.targetState)).take r.nextFrameNo ++ [fs.targetState] := by
    rw [List.take_add_one, htget]; rfl
  -- the new state
  generalize hq : ({ r with player := y, currentState := c, completeStates := cs, decoders := ds, handed := r.handed ++ [(r.nextFrameNo, d, frame)] } :
    Receiver D) = q at *
  have hqp : q.player = y := by rw [← hq]
  have hqh : q.handed = r.handed ++ [(r.nextFrameNo, d, frame)] := by rw [← hq]
  have hqc : q.completeStates = cs := by rw [← hq]
  have hqd : q.decoders = ds := by rw [← hq]
  have hqi : q.initialState = initial := by rw [← hq]; exact hr.start
  have hnh : ∀ x, x ∈ q.handed → x ∈ (q.saveState P f.targetState).handed := by
    intro x hx; rw [(saveState_handed P q f.targetState).1]; exact hx
  have hcase : P.minihash y ∈ sent.map (·.targetState) → P.minihash y = f.targetState := by
    intro hin
    obtain ⟨g, hg1, hg2, _⟩ := hn.decoded r.nextFrameNo d frame y (hnh _ (by rw [hqh]; simp)) hy hin
    rw [hfsent] at hg1
    rw [htarget, Option.some.inj hg1, hg2]
  have hcur : (q.saveState P f.targetState).currentState = P.minihash y := by
    rw [(saveState_handed P q f.targetState).2.2.1, hqp]
  have hshape : ∃ app, (q.saveState P f.targetState).completeStates = cs ++ app ∧
      (∀ s x, (q.saveState P f.targetState).decoders s = some x → s = initial ∨ s ∈ cs ++ app) ∧
      (app = [] ∨ app = [fs.targetState]) ∧ (P.minihash y ∈ sent.map (·.targetState) → app = [fs.targetState]) := by
    by_cases hs : P.minihash y = f.targetState ∧ P.minihash y ≠ initial
    · refine ⟨[fs.targetState], ?_, ?_, Or.inr rfl, fun _ => rfl⟩
      · unfold Receiver.saveState
        dsimp only
        rw [hqp, hqi, if_pos hs, hqc, hs.1, htarget]
      · intro s x hx
        unfold Receiver.saveState at hx
        dsimp only at hx
        rw [hqp, hqi, if_pos hs, hqd] at hx
        change (if s = P.minihash y then (ds (P.minihash y)).or (some y) else ds s) = some x at hx
        by_cases he : s = P.minihash y
        · right; rw [he, hs.1, htarget]; simp
        · rw [if_neg he] at hx
          obtain h | h := hdom s x hx
          · exact Or.inl h
          · exact Or.inr (List.mem_append_left _ h)
    · refine ⟨[], ?_, ?_, Or.inl rfl, ?_⟩
      · unfold Receiver.saveState
        dsimp only
        rw [hqp, hqi, if_neg hs, hqc, List.append_nil]
      · intro s x hx
        unfold Receiver.saveState at hx
        dsimp only at hx
        rw [hqp, hqi, if_neg hs, hqd] at hx
        rw [List.append_nil]
        exact hdom s x hx
      · intro hin
        have h5 := hcase hin
        refine absurd ⟨h5, ?_⟩ hs
        intro h6
        rw [h6] at hin
        exact (List.nodup_cons.mp hn.fresh).1 hin
  obtain ⟨app, hs1, hs2, hs3, hs4⟩ := hshape
  refine ⟨⟨hokk.1, hokk.2.trans hr.start, hg.1, fun j g hg' => hr.packets j g (hg.2 j g hg'), ?_, ?_, ?_, ?_⟩, ?_⟩
  · show List.Sublist (q.saveState P f.targetState).completeStates ((sent.map (·.targetState)).take (r.nextFrameNo + 1))
    rw [hs1, htake]
    obtain rfl | rfl := hs3
    · rw [List.append_nil]; exact hcsub.trans (List.sublist_append_left _ _)
    · exact hcsub.append (List.Sublist.refl _)
  · show ∀ s x, (q.saveState P f.targetState).decoders s = some x → s = initial ∨ s ∈ (q.saveState P f.targetState).completeStates
    rw [hs1]; exact hs2
  · right
    refine ⟨(r.nextFrameNo, d, frame), hnh _ (by rw [hqh]; simp), y, hy, hcur.symm⟩
  · show (q.saveState P f.targetState).currentState ∈ _ → (q.saveState P f.targetState).completeStates.getLast? = some (q.saveState P f.targetState).currentState
    rw [hcur, hs1]
    intro hin
    rw [hs4 hin, hcase hin, htarget]
    simp
  · refine ⟨pre, cs, app, hpre, hs1, hcsne, ?_⟩
    · obtain h | h := hs3
      · exact Or.inl h
      · exact Or.inr ⟨fs, hfsent, h⟩

/-- How far the last of the complete states is: the number of frames up to the one that leads to it; none is 0. -/
def rank (targets l : List Nat) : Nat :=
  match l.getLast? with
  | none => 0
  | some c => targets.idxOf c + 1

theorem rank_nil (targets : List Nat) : rank targets [] = 0 := rfl

theorem rank_last {targets l : List Nat} {c : Nat} (h : l.getLast? = some c) : rank targets l = targets.idxOf c + 1 := by
  unfold rank; rw [h]

theorem rank_append {targets l : List Nat} (t : Nat) (h : ∀ c, l.getLast? = some c → c ∈ targets) : rank (targets ++ [t]) l = rank targets l := by
  unfold rank
  cases hl : l.getLast? with
  | none => rfl
  | some c => dsimp only; rw [List.idxOf_append_of_mem (h c hl)]

theorem idxOf_take_lt {c : Nat} {targets : List Nat} {n : Nat} (h : c ∈ targets.take n) : targets.idxOf c < n := by
  have h1 : (targets.take n).idxOf c < (targets.take n).length := List.idxOf_lt_length_of_mem h
  have h2 : targets.idxOf c = (targets.take n).idxOf c := by
    conv => lhs; rw [← List.take_append_drop n targets]
    rw [List.idxOf_append_of_mem h]
  rw [h2]
  rw [List.length_take] at h1
  omega

theorem rank_le_of_sub {targets l : List Nat} {n : Nat} (h : l.Sublist (targets.take n)) : rank targets l ≤ n := by
  unfold rank
  cases hl : l.getLast? with
  | none => exact Nat.zero_le _
  | some c => exact idxOf_take_lt (h.subset (List.mem_of_getLast? hl))

theorem getLast?_append_ne {α : Type} (pre cs : List α) (h : cs ≠ []) : (pre ++ cs).getLast? = cs.getLast? := by
  obtain ⟨c, hc⟩ : ∃ c, cs.getLast? = some c := ⟨_, List.getLast?_eq_some_getLast h⟩
  rw [List.getLast?_append, hc]; rfl

/-- A hash that a decoder had. -/
def Seen (P : Playing D) (initial : Nat) (handed : List (Nat × D × List UInt8)) (h : Nat) : Prop :=
  h = initial ∨ ∃ x ∈ handed, ∃ y, P.decode x.2.1 x.2.2 = some y ∧ P.minihash y = h

theorem Seen.mono {handed new : List (Nat × D × List UInt8)} {h : Nat} (hs : Seen P initial handed h) : Seen P initial (handed ++ new) h := by
  obtain h0 | ⟨x, hx, hy⟩ := hs
  · exact Or.inl h0
  · exact Or.inr ⟨x, List.mem_append_left _ hx, hy⟩

/-- The target of a new frame was not seen before. -/
theorem target_not_seen {f : FragmentedFrame} {handed : List (Nat × D × List UInt8)} (hn : System.NoAccident P initial (sent ++ [f]) handed)
    (hh : ∀ x ∈ handed, x.1 < sent.length) : ¬ Seen P initial handed f.targetState := by
  have hnod := hn.fresh
  rintro (h0 | ⟨x, hx, y, hy, he⟩)
  · rw [List.nodup_cons] at hnod
    exact hnod.1 (by rw [← h0]; simp)
  · obtain ⟨g, hg, ht, _⟩ := hn.decoded x.1 x.2.1 x.2.2 y hx hy (by rw [he]; simp)
    rw [List.getElem?_append_left (hh x hx)] at hg
    rw [List.nodup_cons, List.map_append, List.nodup_append] at hnod
    refine hnod.2.2.2 g.targetState (List.mem_map_of_mem (List.mem_of_getElem? hg)) f.targetState (by simp) ?_
    rw [ht, he]

theorem RInv.handed_lt {r : Receiver D} (hr : RInv P initial sent r) : ∀ x ∈ r.handed, x.1 < sent.length := by
  intro x hx
  obtain ⟨h1, n, hn, h2⟩ := hr.genuine.handed x hx
  by_contra hlt
  rw [sentAt_none (List.getElem?_eq_none (by omega))] at h2
  exact h1 (by rw [h2]; exact List.take_nil)

theorem RInv.grow {r : Receiver D} (hr : RInv P initial sent r) (f : FragmentedFrame) (hn : System.NoAccident P initial (sent ++ [f]) r.handed) :
    RInv P initial (sent ++ [f]) r := by
  have hlt : ∀ k g, r.fragmentedFrames k = some g → k < sent.length := by
    intro k g hg
    by_contra hge
    exact hr.packets k g hg (by rw [sentAt_none (List.getElem?_eq_none (by omega))])
  refine ⟨hr.ok, hr.start, ⟨?_, ?_⟩, ?_, ?_, hr.dom, hr.hash, ?_⟩
  · intro k g hg
    rw [sentAt_append f (hlt k g hg)]; exact hr.genuine.frames k g hg
  · intro x hx
    rw [sentAt_append f (hr.handed_lt x hx)]; exact hr.genuine.handed x hx
  · intro k g hg
    rw [sentAt_append f (hlt k g hg)]; exact hr.packets k g hg
  · refine hr.sub.trans ?_
    rw [List.map_append]
    rw [List.take_append]
    exact List.sublist_append_left _ _
  · intro hc
    rw [List.map_append] at hc
    obtain hc | hc := List.mem_append.mp hc
    · exact hr.current hc
    · have hs : Seen P initial r.handed r.currentState := hr.hash
      rw [List.mem_singleton.mp hc] at hs
      exact absurd hs (target_not_seen hn hr.handed_lt)

/-- One datagram that was sent. -/
theorem RInv.receive (hsent : ∀ k, (sentAt sent k).packets ≠ [] → (sentAt sent k).As CONNECTION_ID k)
    (hwh : ∀ k, (sentAt sent k).packets ≠ [] → (sentAt sent k).whole ≠ []) {r r' : Receiver D}
    (hr : RInv P initial sent r) (hw : r.Waiting) {wire : List UInt8} {avg : Nat} {ack : Option AckPacket} {p : Packet} (hpw : Packet.parse wire = .ok p)
    (hp : p ∈ (sentAt sent p.frameNo).packets) (h : r.receive P wire avg = some (r', ack)) (hn : System.NoAccident P initial sent r'.handed) :
    RInv P initial sent r' ∧ r'.Waiting ∧ rank (sent.map (·.targetState)) r.completeStates ≤ rank (sent.map (·.targetState)) r'.completeStates ∧
      (∃ new, r'.handed = r.handed ++ new) ∧
      (ack = none ∨ ack = some { connectionId := 1337, frameNo := p.frameNo, fragmentNo := p.fragmentNo, avgDelay := avg
                                 currentState := r'.currentState, completeStates := r'.completeStates }) := by
  obtain ⟨new, hnew, _⟩ := (receive_advances P h).handed
  obtain ⟨q, hq, ⟨_, rfl, rfl⟩ | ⟨hle, r1, r2, h1, h2, h3, he⟩⟩ := receive_spec P h
  · exact ⟨hr, hw, Nat.le_refl _, ⟨[], by simp⟩, Or.inl rfl⟩
  rw [hpw] at hq
  have hq := Except.ok.inj hq
  subst hq
  have hmono : ∀ (h1 h2 : List (Nat × D × List UInt8)), (∃ new, h2 = h1 ++ new) → System.NoAccident P initial sent h2 → System.NoAccident P initial sent h1 := by
    rintro h1 h2 ⟨new, rfl⟩ hn
    exact ⟨hn.fresh, fun k d b d' hin => hn.decoded k d b d' (List.mem_append_left _ hin)⟩
  obtain ⟨new3, hnew3, _⟩ := (finishFrame_advances P h3).handed
  have e2 : r2.handed = r1.handed := by obtain ⟨g, rfl, _⟩ := addPacket_spec h2; rfl
  obtain ⟨i1, w1, c1⟩ := hr.skip hsent hw hle h1 (hmono _ _ ⟨new3, by rw [hnew3, e2]⟩ hn)
  have hk : r1.nextFrameNo = p.frameNo := (skipTo_spec P hle h1).1
  obtain ⟨i2, o2, _, c2, n2⟩ := i1.add (hsent _ (mem_ne_nil hp)) hp hk h2
  have w3 := finishFrame_waiting o2 h3
  obtain ⟨i3, pre, cs, app, s1, s2, s3, s4⟩ := i2.finish hsent hwh h3 hn
  refine ⟨i3, w3, ?_, ⟨new, hnew⟩, Or.inr he⟩
  rw [← c1, ← c2]
  obtain rfl | ⟨f, hf, rfl⟩ := s4
  · rw [List.append_nil] at s2
    rw [s2, s1]
    obtain rfl | hcs := s3
    · exact Nat.le_refl _
    · unfold rank; rw [getLast?_append_ne _ _ hcs]
  · have h5 := rank_le_of_sub i2.sub
    have h6 : rank (sent.map (·.targetState)) r'.completeStates = (sent.map (·.targetState)).idxOf f.targetState + 1 := by
      rw [s2]; exact rank_last (by simp)
    have h7 : (sent.map (·.targetState)).idxOf f.targetState = r2.nextFrameNo := by
      have hlt : r2.nextFrameNo < (sent.map (·.targetState)).length := by
        rw [List.length_map]; exact (List.getElem?_eq_some_iff.mp hf).1
      have hget : (sent.map (·.targetState))[r2.nextFrameNo] = f.targetState := by
        have h8 : (sent.map (·.targetState))[r2.nextFrameNo]? = some f.targetState := by rw [List.getElem?_map, hf]; rfl
        exact (List.getElem?_eq_some_iff.mp h8).2
      rw [← hget]
      exact List.Nodup.idxOf_getElem (List.nodup_cons.mp hn.fresh).2 _ hlt
    omega

/-- The receiver does not end. -/
theorem RInv.survives (hsent : ∀ k, (sentAt sent k).packets ≠ [] → (sentAt sent k).As CONNECTION_ID k) {r : Receiver D}
    (hr : RInv P initial sent r) (hw : r.Waiting) {wire : List UInt8} (avg : Nat) {p : Packet} (hpw : Packet.parse wire = .ok p)
    (hp : p ∈ (sentAt sent p.frameNo).packets)
    {d : D} (hh : r.Held P d)
    (hdec : ∀ k x n, P.Occurs d x → (sentAt sent k).whole.take (1400 * n) ≠ [] → P.decode x ((sentAt sent k).whole.take (1400 * n)) ≠ none)
    (hsrc : (sentAt sent p.frameNo).source = initial ∨ (sentAt sent p.frameNo).source ∈ sent.map (·.targetState))
    (hn : ∀ r1, r.skipTo P p.frameNo = some r1 → System.NoAccident P initial sent r1.handed) :
    ∃ r' ack, r.receive P wire avg = some (r', ack) ∧ (ack = none ↔ p.frameNo < r.nextFrameNo) := by
  by_cases hlt : p.frameNo < r.nextFrameNo
  · exact ⟨r, none, C27_old_packet P r p wire avg hpw hlt, by simp [hlt]⟩
  refine receive_survives P (sentAt sent) hr.ok hr.genuine hr.packets hsent wire avg p hpw hp hh (hdec _) (hdec _) ?_
  intro r1 h1 hc h0
  have hsrc : (sentAt sent p.frameNo).source ∈ sent.map (·.targetState) := by
    obtain h | h := hsrc
    · exact absurd (h.trans hr.start.symm) h0
    · exact h
  obtain ⟨i1, _, c1⟩ := hr.skip hsent hw (by omega) h1 (hn r1 h1)
  obtain hc | ⟨x, hx⟩ := hc
  · rw [← c1]
    have := i1.current (hc ▸ hsrc)
    rw [← hc]
    exact List.mem_of_getLast? this
  · obtain h | h := hr.dom _ x hx
    · exact absurd (h.trans hr.start.symm) h0
    · exact h

end

end Alfalfa
