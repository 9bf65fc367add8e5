import Verif.Model.Sender
import Verif.Props.Reassembly

/-! The sender: size control (C30) and acknowledgements (C31). -/

namespace Alfalfa

variable {E : Type} (minihash : E → Nat)

/-! ### What the callbacks change -/

/-- What can be said about an end of an encode without the choice of the output. -/
theorem endEncode_spec {s s' : Sender E} {results : List (E × List UInt8)} {time : Nat} {ff : Option FragmentedFrame}
    (h : s.endEncode minihash results time = some (s', ff)) :
    ∃ size choice, s.frameSize = some size ∧
      chooseOutput s.mode size s.skippedCount (List.zipWith (EncodeJob.output minihash) s.jobs results) = some choice ∧
      ((choice = none ∧ s' = { s with skippedCount := s.skippedCount + 1, jobs := [] } ∧ ff = none) ∨
       ∃ best o f count, choice = some best ∧ (List.zipWith (EncodeJob.output minihash) s.jobs results)[best]? = some o ∧
         FragmentedFrame.outgoing o.frame.length s.connectionId o.sourceMinihash (minihash o.encoder) s.frameNo time o.frame = some f ∧
         s.newCount f.fragmentsInThisFrame = some count ∧ ff = some f ∧
         s' = { s with lastQuantizer := o.yAcQi, cumulativeFpf := s.cumulativeFpf ++ [count], receiverAssumedState := some (minihash o.encoder)
                       encoders := s.encoders.insertNew (minihash o.encoder) o.encoder, encoderStates := s.encoderStates ++ [minihash o.encoder]
                       skippedCount := 0, frameNo := s.frameNo + 1, jobs := [] }) := by
  unfold Sender.endEncode at h
  obtain ⟨size, h1, h⟩ := Option.bind_eq_some_iff.mp h
  obtain ⟨choice, h2, h⟩ := Option.bind_eq_some_iff.mp h
  refine ⟨size, choice, h1, h2, ?_⟩
  cases choice with
  | none =>
    have := Prod.mk.inj (Option.some.inj h)
    exact Or.inl ⟨rfl, this.1.symm, this.2.symm⟩
  | some best =>
    dsimp only at h
    obtain ⟨o, h3, h⟩ := Option.bind_eq_some_iff.mp h
    obtain ⟨f, h4, h⟩ := Option.bind_eq_some_iff.mp h
    obtain ⟨count, h5, h⟩ := Option.bind_eq_some_iff.mp h
    have := Prod.mk.inj (Option.some.inj h)
    exact Or.inr ⟨best, o, f, count, rfl, h3, h4, h5, this.2.symm, this.1.symm⟩

theorem cleanUp_eq {s s' : Sender E} (h : s.cleanUp = some s') : ∃ states encoders, s' = { s with encoderStates := states, encoders } ∧
    ((states = s.encoderStates ∧ encoders = s.encoders) ∨ ∃ acked, s.receiverLastAckedState = some acked ∧ acked ≠ s.initialState ∧
      (s.encoders acked).isSome = true ∧ cleanUp acked s.receiverAssumedState s.encoderStates s.encoders = some (states, encoders)) := by
  unfold Sender.cleanUp at h
  obtain ⟨la, hla⟩ : ∃ la, la = s.receiverLastAckedState := ⟨_, rfl⟩
  rw [← hla] at h
  cases la with
  | none => exact ⟨_, _, (Option.some.inj h).symm, Or.inl ⟨rfl, rfl⟩⟩
  | some acked =>
    dsimp only at h
    by_cases hc : acked ≠ s.initialState ∧ (s.encoders acked).isSome = true
    · rw [if_pos hc] at h
      obtain ⟨⟨st, en⟩, h1, h⟩ := Option.bind_eq_some_iff.mp h
      rw [hla] at h
      exact ⟨st, en, (Option.some.inj h).symm, Or.inr ⟨acked, hla.symm, hc.1, hc.2, h1⟩⟩
    · rw [if_neg hc] at h
      exact ⟨_, _, (Option.some.inj h).symm, Or.inl ⟨rfl, rfl⟩⟩

theorem startEncode_spec {s s' : Sender E} {now : Int} {cc : Nat} {due : Bool} (h : s.startEncode now cc due = some s') :
    (s.jobs ≠ [] ∧ s' = s) ∨ (s.jobs = [] ∧ ∃ s1 source until_ e, s.cleanUp = some s1 ∧ s1.select now = some (source, until_) ∧
      s1.encoders source = some e ∧ s' = { s1 with conservativeUntil := until_, jobs := encodeJobs s.mode s.lastQuantizer e cc }) := by
  unfold Sender.startEncode at h
  by_cases hj : s.jobs = []
  · rw [hj] at h
    rw [if_neg (by simp)] at h
    obtain ⟨s1, h1, h⟩ := Option.bind_eq_some_iff.mp h
    obtain ⟨⟨source, u⟩, h2, h⟩ := Option.bind_eq_some_iff.mp h
    obtain ⟨e, h3, h⟩ := Option.bind_eq_some_iff.mp h
    by_cases hd : s1.mode = .conventional ∧ due = true ∧ s1.avgDelay = 0
    · rw [if_pos hd] at h; exact nomatch h
    · rw [if_neg hd] at h
      obtain ⟨st, en, e1, _⟩ := cleanUp_eq h1
      refine Or.inr ⟨hj, s1, source, u, e, h1, h2, h3, ?_⟩
      rw [← Option.some.inj h, e1]
  · rw [if_pos (by simpa using hj)] at h
    exact Or.inl ⟨hj, (Option.some.inj h).symm⟩

theorem acknowledge_spec {s s' : Sender E} {a : AckPacket} (h : s.acknowledge a = some s') :
    (a.connectionId ≠ s.connectionId ∧ s' = s) ∨ (a.connectionId = s.connectionId ∧
      ∃ seq, ackSeqNo a.frameNo a.fragmentNo s.cumulativeFpf = some seq ∧
        ((s.lastAcked ≠ MAX64 ∧ seq < s.lastAcked ∧ s' = s) ∨ ((s.lastAcked = MAX64 ∨ s.lastAcked ≤ seq) ∧
          s' = { s with lastAcked := seq, avgDelay := a.avgDelay, receiverLastAckedState := some a.currentState
                        receiverCompleteStates := a.completeStates }))) := by
  unfold Sender.acknowledge at h
  by_cases hc : a.connectionId = s.connectionId
  · rw [if_neg (not_not.mpr hc)] at h
    obtain ⟨seq, h1, h⟩ := Option.bind_eq_some_iff.mp h
    refine Or.inr ⟨hc, seq, h1, ?_⟩
    by_cases hl : s.lastAcked ≠ MAX64 ∧ seq < s.lastAcked
    · rw [if_pos hl] at h; exact Or.inl ⟨hl.1, hl.2, (Option.some.inj h).symm⟩
    · rw [if_neg hl] at h
      refine Or.inr ⟨?_, (Option.some.inj h).symm⟩
      by_cases h0 : s.lastAcked = MAX64
      · exact Or.inl h0
      · exact Or.inr (Nat.le_of_not_lt fun hlt => hl ⟨h0, hlt⟩)
  · rw [if_pos hc] at h; exact Or.inl ⟨hc, (Option.some.inj h).symm⟩

/-! ### C30 -/

/-- What the search returns: the first of the largest outputs that fit, or what it started with. -/
theorem bestOutput_spec (size : Nat) (os : List (EncodeOutput E)) : ∀ (i best diff : Nat),
    (bestOutput size os i best diff = best ∧ ∀ o ∈ os, o.frame.length ≤ size → diff ≤ size - o.frame.length) ∨
    (∃ k o, bestOutput size os i best diff = i + k ∧ os[k]? = some o ∧ o.frame.length ≤ size ∧ size - o.frame.length < diff ∧
      ∀ o' ∈ os, o'.frame.length ≤ size → o'.frame.length ≤ o.frame.length) := by
  induction os with
  | nil => intro i best diff; exact Or.inl ⟨rfl, fun o h => absurd h List.not_mem_nil⟩
  | cons x os ih =>
    intro i best diff
    rw [bestOutput]
    by_cases hx : x.frame.length ≤ size ∧ size - x.frame.length < diff
    · rw [if_pos hx]
      obtain ⟨h1, h2⟩ | ⟨k, o, h1, h2, h3, h4, h5⟩ := ih (i + 1) i (size - x.frame.length)
      · refine Or.inr ⟨0, x, h1, rfl, hx.1, hx.2, ?_⟩
        intro o' ho' hf
        obtain rfl | ho' := List.mem_cons.mp ho'
        · exact Nat.le_refl _
        · have := h2 o' ho' hf; omega
      · refine Or.inr ⟨k + 1, o, by omega, h2, h3, by omega, ?_⟩
        intro o' ho' hf
        obtain rfl | ho' := List.mem_cons.mp ho'
        · omega
        · exact h5 o' ho' hf
    · rw [if_neg hx]
      obtain ⟨h1, h2⟩ | ⟨k, o, h1, h2, h3, h4, h5⟩ := ih (i + 1) best diff
      · refine Or.inl ⟨h1, ?_⟩
        intro o' ho' hf
        obtain rfl | ho' := List.mem_cons.mp ho'
        · by_contra hlt; exact hx ⟨hf, by omega⟩
        · exact h2 o' ho' hf
      · refine Or.inr ⟨k + 1, o, by omega, h2, h3, h4, ?_⟩
        intro o' ho' hf
        obtain rfl | ho' := List.mem_cons.mp ho'
        · by_contra hlt; exact hx ⟨hf, by omega⟩
        · exact h5 o' ho' hf

/-- The choice with any number instead of the largest of 64 bits. -/
def chooseWith (M size skippedCount : Nat) (os : List (EncodeOutput E)) : Option (Option Nat) :=
  if bestOutput size os 0 M M = M then do
    let last ← os.getLast?
    if skippedCount < 3 ∨ last.jobName ≠ .failSmall then some none else some (some (os.length - 1))
  else some (some (bestOutput size os 0 M M))

theorem chooseOutput_eq (mode : OperationMode) (hm : mode ≠ .conventional) (size skippedCount : Nat) (os : List (EncodeOutput E)) :
    chooseOutput mode size skippedCount os = chooseWith MAX64 size skippedCount os := by
  cases mode with
  | conventional => exact absurd rfl hm
  | s1 => rfl
  | s2 => rfl

theorem zipWith_get {α β γ : Type} (f : α → β → γ) (as : List α) (bs : List β) (k : Nat) (c : γ) (h : (List.zipWith f as bs)[k]? = some c) :
    ∃ a b, as[k]? = some a ∧ bs[k]? = some b ∧ c = f a b := by
  rw [List.getElem?_zipWith] at h
  cases ha : as[k]? with
  | none => rw [ha] at h; exact nomatch h
  | some a =>
    rw [ha] at h
    cases hb : bs[k]? with
    | none => rw [hb] at h; exact nomatch h
    | some b => rw [hb] at h; exact ⟨a, b, rfl, rfl, (Option.some.inj h).symm⟩

/-- **C30.** In the modes that control the size, with one non-empty result per job, the sender, given a budget, does one of three things.  It sends a
result that fits the budget, and no result that fits is larger, so this one is closest to the budget; or nothing fits, and it skips the frame, and it had
skipped fewer than three frames in a row (or the last job is not the one that makes small frames); or nothing fits, it had skipped three
frames or more, and it sends the result of the last job, which is the one that makes small frames. -/
theorem C30_size_control {s s' : Sender E} {results : List (E × List UInt8)} {time budget : Nat} {ff : Option FragmentedFrame}
    (hm : s.mode ≠ .conventional) (hr : results.length = s.jobs.length) (hne : ∀ r ∈ results, r.2 ≠ []) (hl : results.length < MAX64)
    (hb : s.frameSize = some budget) (hbl : budget ≤ MAX64) (h : s.endEncode minihash results time = some (s', ff)) :
    (∃ (k : Nat) (r : E × List UInt8) (f : FragmentedFrame), results[k]? = some r ∧ ff = some f ∧ (f.fragments.map (·.payload)).flatten = r.2 ∧ s'.skippedCount = 0 ∧
        s'.receiverAssumedState = some (minihash r.1) ∧ r.2.length ≤ budget ∧ ∀ r' ∈ results, r'.2.length ≤ budget → r'.2.length ≤ r.2.length) ∨
    (ff = none ∧ (∀ r ∈ results, budget < r.2.length) ∧ s'.skippedCount = s.skippedCount + 1 ∧
        (s.skippedCount < 3 ∨ ∀ j, s.jobs.getLast? = some j → j.name ≠ .failSmall)) ∨
    (∃ (r : E × List UInt8) (f : FragmentedFrame) (j : EncodeJob E), results.getLast? = some r ∧ ff = some f ∧ (f.fragments.map (·.payload)).flatten = r.2 ∧ s'.skippedCount = 0 ∧
        s'.receiverAssumedState = some (minihash r.1) ∧
        (∀ r ∈ results, budget < r.2.length) ∧ 3 ≤ s.skippedCount ∧ s.jobs.getLast? = some j ∧ j.name = .failSmall) := by
  obtain ⟨size, choice, h1, h2, h3⟩ := endEncode_spec minihash h
  rw [hb] at h1
  have h1 := Option.some.inj h1
  subst h1
  obtain ⟨os, hos⟩ : ∃ os, os = List.zipWith (EncodeJob.output minihash) s.jobs results := ⟨_, rfl⟩
  rw [← hos] at h2 h3
  have hlen : os.length = results.length := by rw [hos, List.length_zipWith]; omega
  have hget : ∀ (k : Nat) (r : E × List UInt8), results[k]? = some r → ∃ j o, s.jobs[k]? = some j ∧ os[k]? = some o ∧ o.frame = r.2 ∧ o.encoder = r.1 ∧ o.jobName = j.name := by
    intro k r hk
    obtain ⟨hk1, hk2⟩ := List.getElem?_eq_some_iff.mp hk
    have hj : k < s.jobs.length := hr ▸ hk1
    subst hk2
    refine ⟨s.jobs[k], EncodeJob.output minihash s.jobs[k] results[k], List.getElem?_eq_getElem hj, ?_, rfl, rfl, rfl⟩
    rw [hos, List.getElem?_zipWith, List.getElem?_eq_getElem hj, List.getElem?_eq_getElem hk1]
  have hall : ∀ r ∈ results, ∃ o ∈ os, o.frame = r.2 := by
    intro r hrm
    obtain ⟨k, hk⟩ := List.mem_iff_getElem?.mp hrm
    obtain ⟨j, o, _, ho, hf, _⟩ := hget k r hk
    exact ⟨o, List.mem_of_getElem? ho, hf⟩
  have hback : ∀ o ∈ os, ∃ r ∈ results, o.frame = r.2 := by
    intro o hom
    obtain ⟨k, hk⟩ := List.mem_iff_getElem?.mp hom
    rw [hos] at hk
    obtain ⟨a, b, _, hb', rfl⟩ := zipWith_get _ _ _ _ _ hk
    exact ⟨b, List.mem_of_getElem? hb', rfl⟩
  -- a frame that is cut is put together again
  have hcut : ∀ (o : EncodeOutput E) (f : FragmentedFrame),
      FragmentedFrame.outgoing o.frame.length s.connectionId o.sourceMinihash (minihash o.encoder) s.frameNo time o.frame = some f → o.frame ≠ [] →
      (f.fragments.map (·.payload)).flatten = o.frame := by
    intro o f hf hne'
    have hpos : 0 < o.frame.length := List.length_pos_iff.mpr hne'
    by_cases hbig : o.frame.length ≤ 65535 * 1400
    · obtain ⟨g, hg, hc, _⟩ := C23_fragmentation o.frame s.connectionId o.sourceMinihash (minihash o.encoder) s.frameNo time o.frame.length hpos hbig
        (by omega)
      rw [hf] at hg
      rw [Option.some.inj hg]
      exact hc.payloads
    · have hn := C23_other_lengths o.frame (Or.inr (by omega)) s.connectionId o.sourceMinihash (minihash o.encoder) s.frameNo time o.frame.length
      rw [hf] at hn; exact nomatch hn
  rw [chooseOutput_eq s.mode hm] at h2
  unfold chooseWith at h2
  generalize MAX64 = M at h2 hl hbl
  obtain ⟨hbest, hnone⟩ | ⟨k, o, hbest, hk, hfit, _, hmax⟩ := bestOutput_spec budget os 0 M M
  · -- nothing fits
    have hnofit : ∀ r ∈ results, budget < r.2.length := by
      intro r hrm
      obtain ⟨o, ho, hf⟩ := hall r hrm
      by_contra hle
      have h5 := hnone o ho (by rw [hf]; omega)
      have h6 : 0 < r.2.length := List.length_pos_iff.mpr (hne r hrm)
      rw [hf] at h5
      omega
    rw [if_pos hbest] at h2
    obtain ⟨last, hlast, h2⟩ := Option.bind_eq_some_iff.mp h2
    have hlastIdx : os[os.length - 1]? = some last := by rw [← hlast, List.getLast?_eq_getElem?]
    obtain ⟨j, r, hj, hrr, hlo⟩ : ∃ j r, s.jobs[os.length - 1]? = some j ∧ results[os.length - 1]? = some r ∧ last = EncodeJob.output minihash j r := by
      rw [hos] at hlastIdx
      have := zipWith_get _ _ _ _ _ hlastIdx
      rw [← hos] at this
      exact this
    have hjl : s.jobs.getLast? = some j := by rw [List.getLast?_eq_getElem?, ← hr, ← hlen]; exact hj
    have hrl : results.getLast? = some r := by rw [List.getLast?_eq_getElem?, ← hlen]; exact hrr
    by_cases hcond : s.skippedCount < 3 ∨ last.jobName ≠ .failSmall
    · rw [if_pos hcond] at h2
      have h2 := Option.some.inj h2
      obtain ⟨_, rfl, rfl⟩ | ⟨best, _, _, _, hbad, _⟩ := h3
      · refine Or.inr (Or.inl ⟨rfl, hnofit, rfl, ?_⟩)
        obtain hc | hc := hcond
        · exact Or.inl hc
        · refine Or.inr ?_
          intro j' hj'
          rw [hjl] at hj'
          rw [← Option.some.inj hj']
          rw [hlo] at hc
          exact hc
      · rw [← h2] at hbad; exact nomatch hbad
    · rw [if_neg hcond] at h2
      have h2 := Option.some.inj h2
      rw [not_or, not_not] at hcond
      obtain ⟨hbad, _⟩ | ⟨best, o, f, count, hb1, hb2, hb3, hb4, hb5, rfl⟩ := h3
      · rw [← h2] at hbad; exact nomatch hbad
      · rw [← h2] at hb1
        have hb1 := Option.some.inj hb1
        rw [← hb1, hlastIdx] at hb2
        have hb2 := Option.some.inj hb2
        subst hb2
        refine Or.inr (Or.inr ⟨r, f, j, hrl, hb5, ?_, rfl, ?_, hnofit, by omega, hjl, ?_⟩)
        · rw [hcut last f hb3 (by rw [hlo]; exact hne r (List.mem_of_getElem? hrr)), hlo]; rfl
        · show some (minihash last.encoder) = _; rw [hlo]; rfl
        · have := hcond.2; rw [hlo] at this; exact this
  · rw [Nat.zero_add] at hbest
    have hklt : k < os.length := (List.getElem?_eq_some_iff.mp hk).1
    rw [hbest, if_neg (by omega)] at h2
    have h2 := Option.some.inj h2
    obtain ⟨hbad, _⟩ | ⟨best, o', f, count, hb1, hb2, hb3, hb4, hb5, rfl⟩ := h3
    · rw [← h2] at hbad; exact nomatch hbad
    · rw [← h2] at hb1
      have hb1 := Option.some.inj hb1
      rw [← hb1, hk] at hb2
      have hb2 := Option.some.inj hb2
      subst hb2
      obtain ⟨a, r, _, hrk, hoe⟩ := zipWith_get _ _ _ _ _ (hos ▸ hk)
      refine Or.inl ⟨k, r, f, hrk, hb5, ?_, rfl, ?_, ?_, ?_⟩
      · rw [hcut o f hb3 (by rw [hoe]; exact hne r (List.mem_of_getElem? hrk)), hoe]; rfl
      · show some (minihash o.encoder) = _; rw [hoe]; rfl
      · rw [hoe] at hfit; exact hfit
      · intro r' hr' hf'
        obtain ⟨o', ho', hfo⟩ := hall r' hr'
        have := hmax o' ho' (by rw [hfo]; exact hf')
        rw [hfo, hoe] at this
        exact this

/-- A run. -/
theorem sender_run_cons {s : Sender E} {e : SenderEvent E} {rest : List (SenderEvent E)} {x : Sender E × List FragmentedFrame}
    (h : s.run minihash (e :: rest) = some x) : ∃ s1 ff more, s.step minihash e = some (s1, ff) ∧ s1.run minihash rest = some (x.1, more) ∧
      x.2 = ff.toList ++ more := by
  obtain ⟨⟨s1, ff⟩, h1, h⟩ := Option.bind_eq_some_iff.mp h
  obtain ⟨⟨s2, more⟩, h2, h⟩ := Option.bind_eq_some_iff.mp h
  have := Option.some.inj h
  subst this
  exact ⟨s1, ff, more, h1, h2, rfl⟩

/-- **C30, over any history.** In the modes that control the size, when each encode that ends has a result for both of its jobs, never more than three
frames are skipped in a row. -/
theorem C30_skips_bounded (connectionId : Nat) (mode : OperationMode) (hm : mode ≠ .conventional) (base : E) (now : Int)
    (events : List (SenderEvent E)) (hr : ∀ results time, SenderEvent.endEncode results time ∈ events → results.length = 2)
    (s : Sender E) (sent : List FragmentedFrame) (h : (Sender.start minihash connectionId mode base now).run minihash events = some (s, sent)) :
    s.skippedCount ≤ 3 := by
  have key : ∀ (events : List (SenderEvent E)) (s0 s : Sender E) (sent : List FragmentedFrame), s0.mode ≠ .conventional → s0.skippedCount ≤ 3 →
      (s0.jobs = [] ∨ ∃ a b, s0.jobs = [a, b] ∧ b.name = .failSmall) →
      (∀ results time, SenderEvent.endEncode results time ∈ events → results.length = 2) → s0.run minihash events = some (s, sent) → s.skippedCount ≤ 3 := by
    intro events
    induction events with
    | nil =>
      intro s0 s sent _ h3 _ _ h
      rw [← (Prod.mk.inj (Option.some.inj h)).1]; exact h3
    | cons e events ih =>
      intro s0 s sent hm h3 hj hr h
      obtain ⟨s1, ff, more, h1, h2, _⟩ := sender_run_cons minihash h
      suffices s1.mode ≠ .conventional ∧ s1.skippedCount ≤ 3 ∧ (s1.jobs = [] ∨ ∃ a b, s1.jobs = [a, b] ∧ b.name = .failSmall) by
        exact ih s1 s more this.1 this.2.1 this.2.2 (fun r t hrt => hr r t (List.mem_cons_of_mem _ hrt)) h2
      cases e with
      | startEncode now cc due =>
        obtain ⟨s2, hs2, he⟩ := Option.map_eq_some_iff.mp h1
        have he := (Prod.mk.inj he).1
        subst he
        obtain ⟨_, rfl⟩ | ⟨_, s3, source, u, enc, hc, _, _, rfl⟩ := startEncode_spec hs2
        · exact ⟨hm, h3, hj⟩
        · obtain ⟨st, en, e1, _⟩ := cleanUp_eq hc
          subst e1
          refine ⟨hm, h3, Or.inr ?_⟩
          show ∃ a b, encodeJobs s0.mode s0.lastQuantizer enc cc = [a, b] ∧ _
          unfold encodeJobs
          cases hmode : s0.mode with
          | conventional => exact absurd hmode hm
          | s1 => exact ⟨_, _, rfl, rfl⟩
          | s2 => exact ⟨_, _, rfl, rfl⟩
      | endEncode results time =>
        have hlen := hr results time (List.mem_cons_self ..)
        obtain ⟨size, choice, _, hch, ⟨hcn, rfl, _⟩ | ⟨_, _, _, _, _, _, _, _, _, rfl⟩⟩ := endEncode_spec minihash h1
        · refine ⟨hm, ?_, Or.inl rfl⟩
          show s0.skippedCount + 1 ≤ 3
          rw [hcn] at hch
          rw [chooseOutput_eq s0.mode hm] at hch
          unfold chooseWith at hch
          generalize MAX64 = M at hch
          by_cases hb : bestOutput size (List.zipWith (EncodeJob.output minihash) s0.jobs results) 0 M M = M
          · rw [if_pos hb] at hch
            obtain ⟨last, hl, hch⟩ := Option.bind_eq_some_iff.mp hch
            by_cases hc : s0.skippedCount < 3 ∨ last.jobName ≠ .failSmall
            · obtain hc | hc := hc
              · omega
              · exfalso
                obtain hj | ⟨a, b, hj, hbn⟩ := hj
                · rw [hj] at hl; exact nomatch hl
                · match results, hlen with
                  | [x, y], _ =>
                    rw [hj] at hl
                    have hl := Option.some.inj hl
                    rw [← hl] at hc
                    exact hc hbn
            · rw [if_neg hc] at hch; exact nomatch hch
          · rw [if_neg hb] at hch; exact nomatch hch
        · exact ⟨hm, Nat.zero_le _, Or.inl rfl⟩
      | ack a =>
        obtain ⟨s2, hs2, he⟩ := Option.map_eq_some_iff.mp h1
        have he := (Prod.mk.inj he).1
        subst he
        obtain ⟨_, rfl⟩ | ⟨_, seq, _, ⟨_, _, rfl⟩ | ⟨_, rfl⟩⟩ := acknowledge_spec hs2
        · exact ⟨hm, h3, hj⟩
        · exact ⟨hm, h3, hj⟩
        · exact ⟨hm, h3, hj⟩
  exact key events _ s sent hm (Nat.zero_le _) (Or.inl rfl) hr h

theorem toInt64_sub (q w : Nat) (hq : q < 2 ^ 20) (hw : w < 2 ^ 63) : (max 0 (toInt64 (q + 2 ^ 64 - w))).toNat = q - w := by
  unfold toInt64
  split
  · rename_i h
    have : (q + 2 ^ 64 - w) % 2 ^ 64 = q - w := by omega
    rw [this]
    omega
  · rename_i h
    omega

/-- **C30, the budget.** As long as no more was acknowledged than was sent, the budget is 1400 bytes for each packet that can be received in a tenth of a
second at the reported average delay, less the packets in flight; nothing if there are more of those. -/
theorem C30_budget (avgDelay lastAcked lastSent : Nat) (h1 : lastAcked ≤ lastSent) (h2 : lastSent < 2 ^ 63) :
    targetSize avgDelay lastAcked lastSent = 1400 * (100000 / max 1 avgDelay - (lastSent - lastAcked)) := by
  have hd : (if avgDelay = 0 then 1 else avgDelay) = max 1 avgDelay := by
    by_cases h : avgDelay = 0
    · rw [if_pos h, h]; rfl
    · rw [if_neg h]; omega
  have hfl : (lastSent + 2 ^ 64 - lastAcked) % 2 ^ 64 = lastSent - lastAcked := by omega
  have hqle : ∀ n m, n < 2 ^ 20 → n / m < 2 ^ 20 := fun n m h => Nat.lt_of_le_of_lt (Nat.div_le_self n m) h
  have key := hqle 100000 (max 1 avgDelay) (by decide)
  unfold targetSize
  dsimp only
  rw [hd, hfl, toInt64_sub _ _ key (by omega)]
  apply Nat.mod_eq_of_lt
  have : 100000 / max 1 avgDelay - (lastSent - lastAcked) < 2 ^ 20 := Nat.lt_of_le_of_lt (Nat.sub_le _ _) key
  revert this
  generalize 100000 / max 1 avgDelay - (lastSent - lastAcked) = z
  intro hz
  omega

/-! ### C31 -/

theorem step_cumulative (s : Sender E) (e : SenderEvent E) (s1 : Sender E) (ff : Option FragmentedFrame) (h : s.step minihash e = some (s1, ff)) :
    (ff = none ∧ s1.cumulativeFpf = s.cumulativeFpf ∧ s1.frameNo = s.frameNo) ∨
    ∃ f count, ff = some f ∧ f.frameNo = s.frameNo ∧ f.fragments.length = f.fragmentsInThisFrame ∧ f.fragmentsInThisFrame < 2 ^ 16 ∧ s.newCount f.fragmentsInThisFrame = some count ∧
      s1.cumulativeFpf = s.cumulativeFpf ++ [count] ∧ s1.frameNo = s.frameNo + 1 := by
  cases e with
  | startEncode now cc due =>
    obtain ⟨s2, hs2, he⟩ := Option.map_eq_some_iff.mp h
    obtain ⟨rfl, rfl⟩ := Prod.mk.inj he
    obtain ⟨_, rfl⟩ | ⟨_, s3, source, u, enc, hc, _, _, rfl⟩ := startEncode_spec hs2
    · exact Or.inl ⟨rfl, rfl, rfl⟩
    · obtain ⟨st, en, e1, _⟩ := cleanUp_eq hc
      subst e1
      exact Or.inl ⟨rfl, rfl, rfl⟩
  | endEncode results time =>
    obtain ⟨size, choice, _, hch, ⟨hcn, rfl, rfl⟩ | ⟨_, o, f, count, _, _, hf, hcount, rfl, rfl⟩⟩ := endEncode_spec minihash h
    · exact Or.inl ⟨rfl, rfl, rfl⟩
    · have hlen : 0 < o.frame.length ∧ o.frame.length ≤ 65535 * 1400 := by
        by_contra hbad
        have hn := C23_other_lengths o.frame (by omega) s.connectionId o.sourceMinihash (minihash o.encoder) s.frameNo time o.frame.length
        rw [hf] at hn; exact nomatch hn
      obtain ⟨g, hg, hcut, _, hx, _⟩ := C23_fragmentation o.frame s.connectionId o.sourceMinihash (minihash o.encoder) s.frameNo time o.frame.length
        hlen.1 hlen.2 (by omega)
      rw [hf] at hg
      have hg := Option.some.inj hg
      subst hg
      refine Or.inr ⟨f, count, rfl, ?_, hx.symm, ?_, hcount, rfl, rfl⟩
      all_goals
        unfold FragmentedFrame.outgoing at hf
        obtain ⟨ps, _, hf⟩ := Option.bind_eq_some_iff.mp hf
        cases ps with
        | nil => exact nomatch hf
        | cons first rest =>
          dsimp only at hf
          obtain ⟨fs, _, hf⟩ := Option.bind_eq_some_iff.mp hf
          rw [← Option.some.inj hf]
          try exact Nat.mod_lt _ (by decide)
  | ack a =>
    obtain ⟨s2, hs2, he⟩ := Option.map_eq_some_iff.mp h
    obtain ⟨rfl, rfl⟩ := Prod.mk.inj he
    obtain ⟨_, rfl⟩ | ⟨_, seq, _, ⟨_, _, rfl⟩ | ⟨_, rfl⟩⟩ := acknowledge_spec hs2
    · exact Or.inl ⟨rfl, rfl, rfl⟩
    · exact Or.inl ⟨rfl, rfl, rfl⟩
    · exact Or.inl ⟨rfl, rfl, rfl⟩

/-- What the sender keeps about what it sent: for each frame the number of packets up to its end. -/
structure Counts (s : Sender E) (sent : List FragmentedFrame) : Prop where
  frameNo : s.frameNo = sent.length
  length : s.cumulativeFpf.length = sent.length
  count : ∀ n, n < sent.length → s.cumulativeFpf[n]? = some (((sent.take (n + 1)).flatMap (·.fragments)).length % 2 ^ 64)
  numbers : ∀ (n : Nat) (f : FragmentedFrame), sent[n]? = some f → f.frameNo = n

theorem step_counts {s s1 : Sender E} {e : SenderEvent E} {ff : Option FragmentedFrame} (sent : List FragmentedFrame) (hc : Counts s sent)
    (h : s.step minihash e = some (s1, ff)) : Counts s1 (sent ++ ff.toList) := by
  obtain ⟨rfl, h1, h2⟩ | ⟨f, count, rfl, h1, h2, hsmall, h3, h4, h5⟩ := step_cumulative minihash s e s1 ff h
  · rw [Option.toList_none, List.append_nil]
    exact ⟨h2.trans hc.frameNo, by rw [h1]; exact hc.length, by rw [h1]; exact hc.count, hc.numbers⟩
  · rw [Option.toList_some]
    have hcount : count = ((sent ++ [f]).flatMap (·.fragments)).length % 2 ^ 64 := by
      unfold Sender.newCount at h3
      rw [← h2] at h3
      rw [← h2] at hsmall
      by_cases h0 : 0 < s.frameNo
      · rw [if_pos h0] at h3
        obtain ⟨before, hb, h3⟩ := Option.map_eq_some_iff.mp h3
        rw [hc.count _ (by rw [← hc.frameNo]; omega)] at hb
        have hb := Option.some.inj hb
        rw [← h3, ← hb, List.flatMap_append, List.length_append, List.take_of_length_le (by rw [← hc.frameNo]; omega), Nat.mod_add_mod]
        simp
      · rw [if_neg h0] at h3
        have : sent = [] := List.length_eq_zero_iff.mp (by rw [← hc.frameNo]; omega)
        subst this
        rw [← Option.some.inj h3]
        simp
        omega
    refine ⟨by rw [h5, hc.frameNo]; simp, by rw [h4, List.length_append, hc.length]; simp, ?_, ?_⟩
    · intro n hn
      rw [h4]
      by_cases hlt : n < sent.length
      · rw [List.getElem?_append_left (by rw [hc.length]; exact hlt), hc.count n hlt, List.take_append_of_le_length (by omega)]
      · have hnl : n = sent.length := by simp at hn; omega
        rw [List.getElem?_append_right (by rw [hc.length]; omega), hc.length, hnl, Nat.sub_self,
          List.take_of_length_le (by simp)]
        rw [← hcount]; rfl
    · intro n g hg
      by_cases hlt : n < sent.length
      · rw [List.getElem?_append_left hlt] at hg; exact hc.numbers n g hg
      · have hnl : n = sent.length := by
          have := (List.getElem?_eq_some_iff.mp hg).1
          simp at this; omega
        rw [hnl, List.getElem?_append_right (Nat.le_refl _), Nat.sub_self] at hg
        rw [← Option.some.inj hg, h1, hc.frameNo, hnl]

theorem run_counts (events : List (SenderEvent E)) : ∀ (s0 s : Sender E) (before sent : List FragmentedFrame), Counts s0 before →
    s0.run minihash events = some (s, sent) → Counts s (before ++ sent) := by
  induction events with
  | nil =>
    intro s0 s before sent hc h
    obtain ⟨rfl, rfl⟩ := Prod.mk.inj (Option.some.inj h)
    rw [List.append_nil]; exact hc
  | cons e events ih =>
    intro s0 s before sent hc h
    obtain ⟨s1, ff, more, h1, h2, h3⟩ := sender_run_cons minihash h
    have := ih s1 s (before ++ ff.toList) more (step_counts minihash before hc h1) h2
    rw [List.append_assoc] at this
    rw [show sent = ff.toList ++ more from h3]
    exact this

theorem start_counts (connectionId : Nat) (mode : OperationMode) (base : E) (now : Int) :
    Counts (Sender.start minihash connectionId mode base now) [] :=
  ⟨rfl, rfl, fun n h => absurd h (Nat.not_lt_zero n), fun n f h => (nomatch h)⟩

/-- **C31, numbers.** After any history the frames that were sent have the numbers 0, 1, 2, …; and the sequence number that an acknowledgement of the
fragment `k` of the frame `n` stands for is the number of packets that were sent before that fragment.  An acknowledgement that names a later
frame than the next one reads past the end of the vector. -/
theorem C31_sequence_number (connectionId : Nat) (mode : OperationMode) (base : E) (now : Int) (events : List (SenderEvent E)) (s : Sender E)
    (sent : List FragmentedFrame) (h : (Sender.start minihash connectionId mode base now).run minihash events = some (s, sent))
    (hl : (sent.flatMap (·.fragments)).length < 2 ^ 63) :
    (∀ (n : Nat) (f : FragmentedFrame), sent[n]? = some f → f.frameNo = n) ∧
    ∀ n k, k < 2 ^ 16 → ackSeqNo n k s.cumulativeFpf = if n ≤ sent.length then some (((sent.take n).flatMap (·.fragments)).length + k) else none := by
  have hc := run_counts minihash events _ s [] sent (start_counts minihash connectionId mode base now) h
  rw [List.nil_append] at hc
  refine ⟨hc.numbers, ?_⟩
  intro n k hk
  unfold ackSeqNo
  by_cases hn : 0 < n
  · rw [if_pos hn]
    by_cases hle : n ≤ sent.length
    · rw [if_pos hle, hc.count (n - 1) (by omega), Nat.sub_add_cancel hn]
      have : ((sent.take n).flatMap (·.fragments)).length ≤ (sent.flatMap (·.fragments)).length := by
        conv => rhs; rw [← List.take_append_drop n sent, List.flatMap_append, List.length_append]
        omega
      show some _ = some _
      congr 1
      omega
    · rw [if_neg hle, List.getElem?_eq_none (by rw [hc.length]; omega)]; rfl
  · have : n = 0 := by omega
    subst this
    rw [if_neg hn, if_pos (Nat.zero_le _)]
    simp

theorem step_connection {s s1 : Sender E} {e : SenderEvent E} {ff : Option FragmentedFrame} (h : s.step minihash e = some (s1, ff)) :
    s1.connectionId = s.connectionId := by
  cases e with
  | startEncode now cc due =>
    obtain ⟨s2, hs2, he⟩ := Option.map_eq_some_iff.mp h
    have he := (Prod.mk.inj he).1
    subst he
    obtain ⟨_, rfl⟩ | ⟨_, s3, source, u, enc, hc, _, _, rfl⟩ := startEncode_spec hs2
    · rfl
    · obtain ⟨st, en, e1, _⟩ := cleanUp_eq hc
      subst e1
      rfl
  | endEncode results time =>
    obtain ⟨size, choice, _, hch, ⟨hcn, rfl, _⟩ | ⟨_, _, _, _, _, _, _, _, _, rfl⟩⟩ := endEncode_spec minihash h
    · rfl
    · rfl
  | ack a =>
    obtain ⟨s2, hs2, he⟩ := Option.map_eq_some_iff.mp h
    have he := (Prod.mk.inj he).1
    subst he
    obtain ⟨_, rfl⟩ | ⟨_, seq, _, ⟨_, _, rfl⟩ | ⟨_, rfl⟩⟩ := acknowledge_spec hs2
    · rfl
    · rfl
    · rfl

theorem run_connection (events : List (SenderEvent E)) : ∀ (s0 s : Sender E) (sent : List FragmentedFrame),
    s0.run minihash events = some (s, sent) → s.connectionId = s0.connectionId := by
  induction events with
  | nil =>
    intro s0 s sent h
    rw [(Prod.mk.inj (Option.some.inj h)).1]
  | cons e events ih =>
    intro s0 s sent h
    obtain ⟨s1, ff, more, h1, h2, h3⟩ := sender_run_cons minihash h
    exact (ih s1 s more h2).trans (step_connection minihash h1)

theorem run_snoc (events : List (SenderEvent E)) : ∀ (s0 s s1 : Sender E) (sent : List FragmentedFrame) (e : SenderEvent E) (ff : Option FragmentedFrame),
    s0.run minihash events = some (s, sent) → s.step minihash e = some (s1, ff) → s0.run minihash (events ++ [e]) = some (s1, sent ++ ff.toList) := by
  induction events with
  | nil =>
    intro s0 s s1 sent e ff h h1
    obtain ⟨rfl, rfl⟩ := Prod.mk.inj (Option.some.inj h)
    show (s0.step minihash e).bind _ = _
    rw [h1]
    show some (s1, ff.toList ++ []) = _
    rw [List.append_nil]; rfl
  | cons e0 events ih =>
    intro s0 s s1 sent e ff h h1
    obtain ⟨s2, ff2, more, h2, h3, h4⟩ := sender_run_cons minihash h
    show (s0.step minihash e0).bind _ = _
    rw [h2]
    show (s2.run minihash (events ++ [e])).bind _ = _
    rw [ih s2 s s1 more e ff h3 h1]
    show some (s1, ff2.toList ++ (more ++ ff.toList)) = _
    rw [show sent = ff2.toList ++ more from h4, List.append_assoc]

/-- **C31, order.** Along any history the position the sender believes to be acknowledged never moves backwards: an acknowledgement of an earlier packet
is ignored, also what it says about the states and the delay.  (The fragment number of an acknowledgement has 16 bits, and fewer than 2^63
packets are sent.) -/
theorem C31_acknowledgements_in_order (connectionId : Nat) (mode : OperationMode) (base : E) (now : Int) (events : List (SenderEvent E)) (s : Sender E)
    (sent : List FragmentedFrame) (h : (Sender.start minihash connectionId mode base now).run minihash events = some (s, sent))
    (hl : (sent.flatMap (·.fragments)).length < 2 ^ 63) (a : AckPacket) (hk : a.fragmentNo < 2 ^ 16) (s' : Sender E) (ha : s.acknowledge a = some s') :
    (s' = s ∧ (a.connectionId ≠ connectionId ∨ ((sent.take a.frameNo).flatMap (·.fragments)).length + a.fragmentNo < s.lastAcked)) ∨
    (a.connectionId = connectionId ∧ s'.lastAcked = ((sent.take a.frameNo).flatMap (·.fragments)).length + a.fragmentNo ∧
      (s.lastAcked = MAX64 ∨ s.lastAcked ≤ s'.lastAcked) ∧ s'.avgDelay = a.avgDelay ∧ s'.receiverLastAckedState = some a.currentState ∧
      s'.receiverCompleteStates = a.completeStates) := by
  have hid : s.connectionId = connectionId := run_connection minihash events _ s sent h
  have hseq := (C31_sequence_number minihash connectionId mode base now events s sent h hl).2 a.frameNo a.fragmentNo hk
  obtain ⟨h1, rfl⟩ | ⟨h1, seq, h2, h3⟩ := acknowledge_spec ha
  · exact Or.inl ⟨rfl, Or.inl (hid ▸ h1)⟩
  · rw [hseq] at h2
    by_cases hle : a.frameNo ≤ sent.length
    swap
    · rw [if_neg hle] at h2; exact nomatch h2
    rw [if_pos hle] at h2
    have h2 := Option.some.inj h2
    obtain ⟨_, hlt, rfl⟩ | ⟨hge, rfl⟩ := h3
    · exact Or.inl ⟨rfl, Or.inr (h2 ▸ hlt)⟩
    · exact Or.inr ⟨hid ▸ h1, h2.symm, hge, rfl, rfl, rfl⟩

/-- **C31, along a history.** Once something was acknowledged, the position never moves backwards. -/
theorem C31_monotone (connectionId : Nat) (mode : OperationMode) (base : E) (now : Int) (events later : List (SenderEvent E)) (s s' : Sender E)
    (sent more : List FragmentedFrame) (h : (Sender.start minihash connectionId mode base now).run minihash events = some (s, sent))
    (h' : s.run minihash later = some (s', more)) (hl : ((sent ++ more).flatMap (·.fragments)).length < 2 ^ 63)
    (hk : ∀ a, SenderEvent.ack a ∈ later → a.fragmentNo < 2 ^ 16) (ha : s.lastAcked < MAX64) : s.lastAcked ≤ s'.lastAcked ∧ s'.lastAcked < MAX64 := by
  induction later generalizing events s sent more with
  | nil => obtain ⟨rfl, rfl⟩ := Prod.mk.inj (Option.some.inj h'); exact ⟨Nat.le_refl _, ha⟩
  | cons e later ih =>
    obtain ⟨s1, ff, more', h1, h2, h3⟩ := sender_run_cons minihash h'
    have h3 : more = ff.toList ++ more' := h3
    have hrun := run_snoc minihash events _ s s1 sent e ff h h1
    have hsuff : s.lastAcked ≤ s1.lastAcked ∧ s1.lastAcked < MAX64 := by
      cases e with
      | startEncode now cc due =>
        obtain ⟨s2, hs2, he⟩ := Option.map_eq_some_iff.mp h1
        have he := (Prod.mk.inj he).1
        subst he
        obtain ⟨_, rfl⟩ | ⟨_, s3, source, u, enc, hc, _, _, rfl⟩ := startEncode_spec hs2
        · exact ⟨Nat.le_refl _, ha⟩
        · obtain ⟨st, en, e1, _⟩ := cleanUp_eq hc
          subst e1
          exact ⟨Nat.le_refl _, ha⟩
      | endEncode results time =>
        obtain ⟨size, choice, _, hch, ⟨hcn, rfl, _⟩ | ⟨_, _, _, _, _, _, _, _, _, rfl⟩⟩ := endEncode_spec minihash h1
        · exact ⟨Nat.le_refl _, ha⟩
        · exact ⟨Nat.le_refl _, ha⟩
      | ack a =>
        obtain ⟨s2, hs2, he⟩ := Option.map_eq_some_iff.mp h1
        have he := (Prod.mk.inj he).1
        subst he
        have hl1 : (sent.flatMap (·.fragments)).length < 2 ^ 63 := by
          rw [List.flatMap_append, List.length_append] at hl; omega
        have hl2 : ((sent.take a.frameNo).flatMap (·.fragments)).length ≤ (sent.flatMap (·.fragments)).length := by
          conv => rhs; rw [← List.take_append_drop a.frameNo sent, List.flatMap_append, List.length_append]
          omega
        have hk' := hk a (List.mem_cons_self ..)
        obtain ⟨rfl, _⟩ | ⟨_, e1, e2, _⟩ := C31_acknowledgements_in_order minihash connectionId mode base now events s sent h hl1 a hk' s2 hs2
        · exact ⟨Nat.le_refl _, ha⟩
        · refine ⟨?_, ?_⟩
          · obtain e2 | e2 := e2
            · omega
            · exact e2
          · rw [e1]; unfold MAX64; omega
    have := ih _ s1 _ more' hrun h2 (by rw [List.append_assoc, ← h3]; exact hl) (fun a hm => hk a (List.mem_cons_of_mem _ hm)) hsuff.2
    exact ⟨Nat.le_trans hsuff.1 this.1, this.2⟩

/-- **C30, the budget in a session.** After any history, with the packets sent so far and an acknowledgement of one of them, the budget of the next frame is 1400
bytes for each packet that can be received in a tenth of a second at the delay last reported, less the packets sent since the one last acknowledged; it is unlimited as long
as no delay was reported. -/
theorem C30_budget_in_session (connectionId : Nat) (mode : OperationMode) (base : E) (now : Int) (events : List (SenderEvent E)) (s : Sender E)
    (sent : List FragmentedFrame) (h : (Sender.start minihash connectionId mode base now).run minihash events = some (s, sent))
    (hl : (sent.flatMap (·.fragments)).length < 2 ^ 63) :
    (s.avgDelay = 2 ^ 32 - 1 → s.frameSize = some MAX64) ∧
    (s.avgDelay ≠ 2 ^ 32 - 1 → sent ≠ [] → s.lastAcked ≤ (sent.flatMap (·.fragments)).length →
      s.frameSize = some (1400 * (100000 / max 1 s.avgDelay - ((sent.flatMap (·.fragments)).length - s.lastAcked)))) := by
  have hc := run_counts minihash events _ s [] sent (start_counts minihash connectionId mode base now) h
  rw [List.nil_append] at hc
  constructor
  · intro he
    unfold Sender.frameSize
    rw [if_neg (by rw [he]; exact fun h => h rfl)]
  · intro he hne hle
    have hpos : 0 < sent.length := List.length_pos_iff.mpr hne
    have hlast : s.cumulativeFpf.getLast? = some (sent.flatMap (·.fragments)).length := by
      rw [List.getLast?_eq_getElem?, hc.length, hc.count _ (by omega), List.take_of_length_le (by omega), Nat.mod_eq_of_lt (by omega)]
    unfold Sender.frameSize
    rw [if_pos he, hlast]
    exact congrArg some (C30_budget _ _ _ hle hl)

/-! ### C62: the quantizers the sender asks for -/

/-- **C62.** In the modes that adapt, after any history, the encodes in progress are two, from the same state: one at the quantizer of the last frame that was sent (64 at first) less 17 and one
at that plus 23, both brought into the range 3…127. -/
theorem C62_quantizers (connectionId : Nat) (mode : OperationMode) (hm : mode ≠ .conventional) (base : E) (now : Int) (events : List (SenderEvent E)) (s : Sender E)
    (sent : List FragmentedFrame) (h : (Sender.start minihash connectionId mode base now).run minihash events = some (s, sent)) :
    3 ≤ s.lastQuantizer ∧ s.lastQuantizer ≤ 127 ∧
    (s.jobs = [] ∨ ∃ a b, s.jobs = [a, b] ∧ a.encoder = b.encoder ∧ a.yAcQi = max 3 (s.lastQuantizer - 17) ∧ b.yAcQi = min 127 (s.lastQuantizer + 23)) := by
  have key : ∀ (events : List (SenderEvent E)) (s0 s : Sender E) (sent : List FragmentedFrame), s0.mode ≠ .conventional → 3 ≤ s0.lastQuantizer → s0.lastQuantizer ≤ 127 →
      (s0.jobs = [] ∨ ∃ a b, s0.jobs = [a, b] ∧ a.encoder = b.encoder ∧ a.yAcQi = max 3 (s0.lastQuantizer - 17) ∧ b.yAcQi = min 127 (s0.lastQuantizer + 23)) →
      s0.run minihash events = some (s, sent) → 3 ≤ s.lastQuantizer ∧ s.lastQuantizer ≤ 127 ∧
      (s.jobs = [] ∨ ∃ a b, s.jobs = [a, b] ∧ a.encoder = b.encoder ∧ a.yAcQi = max 3 (s.lastQuantizer - 17) ∧ b.yAcQi = min 127 (s.lastQuantizer + 23)) := by
    intro events
    induction events with
    | nil =>
      intro s0 s sent _ h1 h2 h3 h
      rw [← (Prod.mk.inj (Option.some.inj h)).1]; exact ⟨h1, h2, h3⟩
    | cons e events ih =>
      intro s0 s sent hm hq1 hq2 hj h
      obtain ⟨s1, ff, more, h1, h2, _⟩ := sender_run_cons minihash h
      suffices s1.mode ≠ .conventional ∧ 3 ≤ s1.lastQuantizer ∧ s1.lastQuantizer ≤ 127 ∧
          (s1.jobs = [] ∨ ∃ a b, s1.jobs = [a, b] ∧ a.encoder = b.encoder ∧ a.yAcQi = max 3 (s1.lastQuantizer - 17) ∧ b.yAcQi = min 127 (s1.lastQuantizer + 23)) by
        exact ih s1 s more this.1 this.2.1 this.2.2.1 this.2.2.2 h2
      cases e with
      | startEncode now cc due =>
        obtain ⟨s2, hs2, he⟩ := Option.map_eq_some_iff.mp h1
        have he := (Prod.mk.inj he).1
        subst he
        obtain ⟨_, rfl⟩ | ⟨_, s3, source, u, enc, hc, _, _, rfl⟩ := startEncode_spec hs2
        · exact ⟨hm, hq1, hq2, hj⟩
        · obtain ⟨states, encs, rfl, _⟩ := cleanUp_eq hc
          refine ⟨hm, hq1, hq2, Or.inr ?_⟩
          dsimp only
          unfold encodeJobs
          cases hmode : s0.mode with
          | conventional => exact absurd hmode hm
          | s1 | s2 =>
            refine ⟨_, _, rfl, rfl, ?_, ?_⟩
            · show (min 127 (max 3 ((s0.lastQuantizer : Int) + -17))).toNat = _; omega
            · show (min 127 (max 3 ((s0.lastQuantizer : Int) + 23))).toNat = _; omega
      | endEncode results time =>
        obtain ⟨size, choice, _, hch, ⟨hcn, rfl, rfl⟩ | ⟨_, o, f, count, _, ho, hf, hcount, rfl, rfl⟩⟩ := endEncode_spec minihash h1
        · exact ⟨hm, hq1, hq2, Or.inl rfl⟩
        · refine ⟨hm, ?_⟩
          obtain ⟨j, r, hjk, hrk, hoe⟩ := zipWith_get _ _ _ _ _ ho
          have hoq : o.yAcQi = j.yAcQi := by rw [hoe]; rfl
          have hjm : j ∈ s0.jobs := List.mem_of_getElem? hjk
          rcases hj with hj | ⟨a, b, hj, _, ha, hb⟩
          · rw [hj] at hjm; exact absurd hjm List.not_mem_nil
          · rw [hj] at hjm
            dsimp only
            refine ⟨?_, ?_, Or.inl rfl⟩
            all_goals
              rw [hoq]
              rcases List.mem_cons.mp hjm with rfl | hjm
              · rw [ha]; omega
              · rw [List.mem_singleton.mp hjm, hb]; omega
      | ack a =>
        obtain ⟨s2, hs2, he⟩ := Option.map_eq_some_iff.mp h1
        obtain ⟨rfl, rfl⟩ := Prod.mk.inj he
        obtain ⟨_, rfl⟩ | ⟨_, seq, _, ⟨_, _, rfl⟩ | ⟨_, rfl⟩⟩ := acknowledge_spec hs2
        all_goals exact ⟨hm, hq1, hq2, hj⟩
  exact key events _ s sent hm (show (3 : Nat) ≤ 64 by decide) (show (64 : Nat) ≤ 127 by decide) (Or.inl rfl) h

end Alfalfa
