import Verif.Props.Delivery

/-! C60, where it fails: the receiver ends when a packet that holds only zeros is lost. -/

namespace Alfalfa

section
variable {D : Type} (P : Playing D)

/-- The packets of the example: the first of several of a frame, and the only one of the next frame. -/
def firstOfSeveral (source target count : Nat) (payload : List UInt8) : Packet :=
  { connectionId := 1337, sourceState := source, targetState := target, frameNo := 0, fragmentNo := 0, fragmentsInThisFrame := count, payload }

def onlyOne (source target : Nat) (payload : List UInt8) : Packet :=
  { connectionId := 1337, sourceState := source, targetState := target, frameNo := 1, fragmentNo := 0, fragmentsInThisFrame := 1, payload }

theorem receive_steps {r : Receiver D} {wire : List UInt8} {avg : Nat} {p : Packet} (hp : Packet.parse wire = .ok p) (h : ¬ p.frameNo < r.nextFrameNo) :
    r.receive P wire avg = (r.skipTo P p.frameNo).bind fun r => (r.addPacket p).bind fun r => (r.finishFrame P).bind fun r =>
      some (r, some { connectionId := CONNECTION_ID, frameNo := p.frameNo, fragmentNo := p.fragmentNo, avgDelay := avg
                      currentState := r.currentState, completeStates := r.completeStates }) := by
  unfold Receiver.receive
  rw [hp]
  exact if_neg h

theorem lost_part_ends (d z : D) (came next : List UInt8) (t' count : Nat) (hc : 2 ≤ count ∧ count < 2 ^ 16) (hd : P.decode d came = some z)
    (hne : P.minihash z ≠ P.minihash d) (hh : ∀ x, P.minihash x < 2 ^ 32) (ht : t' < 2 ^ 32) (h0 : came ≠ []) (h1 : next ≠ []) :
    ∃ w0 w1, (firstOfSeveral (P.minihash d) (P.minihash z) count came).toBytes = some w0 ∧ (onlyOne (P.minihash z) t' next).toBytes = some w1 ∧
      ∀ a0 a1, (Receiver.start P d).run P [(w0, a0), (w1, a1)] = none := by
  obtain ⟨p0, hp0⟩ : ∃ p, p = firstOfSeveral (P.minihash d) (P.minihash z) count came := ⟨_, rfl⟩
  obtain ⟨p1, hp1⟩ : ∃ p, p = onlyOne (P.minihash z) t' next := ⟨_, rfl⟩
  have f0 : p0.Fragment := by
    subst hp0
    exact ⟨⟨(by decide : 1337 < 2 ^ 16), hh d, hh z, (by decide : 0 < 2 ^ 32), hc.2, (by decide : 0 < 2 ^ 32)⟩, rfl, by show 0 < count; omega, h0⟩
  have f1 : p1.Fragment := by
    subst hp1
    exact ⟨⟨(by decide : 1337 < 2 ^ 16), hh z, ht, (by decide : 1 < 2 ^ 32), (by decide : 1 < 2 ^ 16), (by decide : 0 < 2 ^ 32)⟩, rfl,
      (by decide : 0 < 1), h1⟩
  obtain ⟨w0, b0, b1⟩ := C20_packet_round_trip p0 f0
  obtain ⟨w1, c0, c1⟩ := C20_packet_round_trip p1 f1
  refine ⟨w0, w1, by rw [← hp0]; exact b0, by rw [← hp1]; exact c0, fun a0 a1 => ?_⟩
  -- the first packet is kept
  obtain ⟨g0, e0, -, -, -⟩ := incoming_holds 1337 p0 f0 (by rw [hp0]; rfl)
  have hg0 : g0.fragments = p0 :: List.replicate (count - 1) { valid := false } ∧ g0.sourceState = P.minihash d ∧ g0.targetState = P.minihash z ∧
      g0.remainingFragments = count - 1 := by
    obtain ⟨c, rfl⟩ : ∃ c, count = c + 2 := ⟨count - 2, by omega⟩
    unfold FragmentedFrame.incoming at e0
    dsimp only at e0
    split at e0
    · exact nomatch e0
    · next hin =>
      unfold FragmentedFrame.addPacket at e0
      rw [if_neg hin] at e0
      rw [hp0] at e0 ⊢
      cases e0
      refine ⟨rfl, rfl, rfl, ?_⟩
      show (c + 2 + 2 ^ 32 - 1) % 2 ^ 32 = c + 2 - 1
      omega
  obtain ⟨k1, k2, k3, k4⟩ := hg0
  have hpart : g0.partialFrame = came := by
    obtain ⟨c, rfl⟩ : ∃ c, count = c + 2 := ⟨count - 2, by omega⟩
    unfold FragmentedFrame.partialFrame
    rw [k1]
    have : ((p0 :: List.replicate (c + 2 - 1) ({ valid := false } : Packet)).takeWhile (·.valid)) = [p0] := by
      rw [List.takeWhile_cons, if_pos f0.valid]
      rfl
    rw [this, hp0]
    simp [firstOfSeveral]
  have hcomp : g0.complete = false := by
    unfold FragmentedFrame.complete
    rw [k4]
    have : count - 1 ≠ 0 := by omega
    simpa using this
  obtain ⟨r1, hr1⟩ : ∃ r1 : Receiver D, r1 = { Receiver.start P d with fragmentedFrames := fun k => if k = 0 then some g0 else none } := ⟨_, rfl⟩
  have s1 : ∃ ack, (Receiver.start P d).receive P w0 a0 = some (r1, ack) := by
    refine ⟨some { connectionId := 1337, frameNo := 0, fragmentNo := 0, avgDelay := a0, currentState := P.minihash d, completeStates := [] }, ?_⟩
    have hn : p0.frameNo = 0 := by rw [hp0]; rfl
    have hk : p0.fragmentNo = 0 := by rw [hp0]; rfl
    rw [receive_steps P b1 (show ¬ p0.frameNo < 0 by omega)]
    have t1 : (Receiver.start P d).skipTo P p0.frameNo = some (Receiver.start P d) := by
      unfold Receiver.skipTo
      rw [hn]; rfl
    have t2 : (Receiver.start P d).addPacket p0 = some r1 := by
      unfold Receiver.addPacket
      show (match FragmentedFrame.incoming 1337 p0 with | .error _ => none | .ok f => _) = _
      rw [e0]
      show some _ = some _
      rw [hr1, hn]
      congr 1
    have t3 : r1.finishFrame P = some r1 := by
      unfold Receiver.finishFrame
      have : r1.fragmentedFrames r1.nextFrameNo = some g0 := by rw [hr1]; rfl
      rw [this]
      dsimp only
      rw [if_neg (by rw [hcomp]; exact Bool.false_ne_true)]
    rw [t1]
    show Option.bind ((Receiver.start P d).addPacket p0) _ = _
    rw [t2]
    show Option.bind (r1.finishFrame P) _ = _
    rw [t3, hn, hk]
    show some _ = some _
    rw [hr1]
    rfl
  obtain ⟨ack, s1⟩ := s1
  have s2 : r1.receive P w1 a1 = none := by
    have hn : p1.frameNo = 1 := by rw [hp1]; rfl
    rw [receive_steps P c1 (by rw [hn, hr1]; show ¬ 1 < 0; omega)]
    -- the frame before is shown as far as it came
    obtain ⟨r2, hr2⟩ : ∃ r2 : Receiver D, r2 =
      { Receiver.start P d with
        player := z, fragmentedFrames := fun k => if k = 0 then none else (if k = 0 then some g0 else none), nextFrameNo := 1, currentState := P.minihash z
        handed := [(0, d, came)] } := ⟨_, rfl⟩
    have t1 : r1.skipTo P p1.frameNo = some r2 := by
      unfold Receiver.skipTo
      rw [hn, hr1]
      rw [if_pos (by show 0 < 1; omega)]
      show Option.bind (Receiver.showPartial P _ 0 1) _ = _
      rw [Receiver.showPartial]
      show Option.bind (Option.bind (Receiver.enqueueFrame P _ 0 g0.partialFrame) _) _ = _
      rw [hpart]
      unfold Receiver.enqueueFrame
      rw [if_neg (by simpa using h0)]
      show Option.bind (Option.bind (Option.bind (P.decode d came) _) _) _ = _
      rw [hd, hr2]
      rfl
    obtain ⟨g1, e1, -, -, -⟩ := incoming_holds 1337 p1 f1 (by rw [hp1]; rfl)
    have hg1 : g1.complete = true ∧ g1.sourceState = P.minihash z := by
      unfold FragmentedFrame.incoming at e1
      dsimp only at e1
      split at e1
      · exact nomatch e1
      · next hin =>
        unfold FragmentedFrame.addPacket at e1
        rw [if_neg hin] at e1
        rw [hp1] at e1
        cases e1
        exact ⟨(by decide : ((1 + 2 ^ 32 - 1) % 2 ^ 32 == 0) = true), rfl⟩
    have t2 : ∃ r3, r2.addPacket p1 = some r3 ∧ r3.fragmentedFrames r3.nextFrameNo = some g1 ∧ r3.currentState = P.minihash z ∧ r3.completeStates = [] ∧
        r3.initialState = P.minihash d := by
      unfold Receiver.addPacket
      have : r2.fragmentedFrames p1.frameNo = none := by rw [hr2, hn]; rfl
      rw [this]
      dsimp only
      rw [show FragmentedFrame.incoming CONNECTION_ID p1 = .ok g1 from e1]
      dsimp only
      refine ⟨_, rfl, ?_, by rw [hr2], by rw [hr2]; rfl, by rw [hr2]; rfl⟩
      show (NatMap.insertNew r2.fragmentedFrames p1.frameNo g1) r2.nextFrameNo = _
      rw [hn, hr2]
      rfl
    obtain ⟨r3, t2, t3, t4, t5, t6⟩ := t2
    have t7 : r3.finishFrame P = none := by
      unfold Receiver.finishFrame
      rw [t3]
      dsimp only
      rw [if_pos hg1.1, hg1.2]
      have : (r3.loadSource (P.minihash z)).prune (P.minihash z) = none := by
        unfold Receiver.loadSource
        rw [if_neg (not_not.2 t4)]
        unfold Receiver.prune
        rw [if_pos ⟨t4, by rw [t6]; exact hne⟩, t5]
        rfl
      rw [this]
      rfl
    rw [t1]
    show Option.bind (r2.addPacket p1) _ = _
    rw [t2]
    show Option.bind (r3.finishFrame P) _ = _
    rw [t7]
    rfl
  rw [Receiver.run, s1]
  show Option.bind (r1.receive P w1 a1) _ = _
  rw [s2]
  rfl

end

/-- **C60**, where it fails although no two states have the same hash: a key frame is cut into packets of which all but the first hold only zeros.  Only the
first arrives, so the decoder is in exactly the state that the frame leads to (C71), but the receiver does not list that state; when the next frame,
coded against that state, arrives, the receiver's assertion fails. -/
theorem C60_lost_zeros_end_receiver (hash : Decoder → Nat) (hh : ∀ x, hash x < 2 ^ 32) (d z : Decoder) (came next : List UInt8) (zeros t' count : Nat)
    (hl : came.length = 1400) (hok : (d.getFrameOutputWith codeRenderer true came).2 ≠ .error .outOfRange)
    (hd : (codecPlaying hash).decode d (came ++ List.replicate zeros 0) = some z) (hz : hash z ≠ hash d)
    (hc : 2 ≤ count ∧ count < 2 ^ 16) (ht : t' < 2 ^ 32) (h1 : next ≠ []) :
    ∃ w0 w1, (firstOfSeveral (hash d) (hash z) count came).toBytes = some w0 ∧ (onlyOne (hash z) t' next).toBytes = some w1 ∧
      ∀ a0 a1, (Receiver.start (codecPlaying hash) d).run (codecPlaying hash) [(w0, a0), (w1, a1)] = none := by
  refine lost_part_ends (codecPlaying hash) d z came next t' count hc ?_ hz hh ht (by rintro rfl; exact nomatch hl) h1
  change (match d.getFrameOutputWith codeRenderer true (came ++ List.replicate zeros 0) with | (d', .ok _) => some d' | (_, .error _) => none) = some z at hd
  rw [C71_missing_data_are_zeros codeRenderer d came zeros (.inl (by omega)) hok] at hd
  exact hd

theorem grayRaster_differs : grayRaster 17 20 1 ≠ grayRaster 17 20 2 := by
  intro h
  have := congrArg (fun r : Raster => r.y.cells.head?) h
  exact absurd this (by decide +kernel)

/-- The first 1400 bytes of a key frame of 1401 bytes of which the last is zero. -/
def paddedKeyFrame : List UInt8 := smallKeyFrame ++ List.replicate 1389 0

theorem paddedKeyFrame_decodes : ∃ out, (exampleDecoder.getFrameOutput codeRenderer smallKeyFrame).2 = .ok out ∧
    exampleDecoder.getFrameOutputWith codeRenderer true paddedKeyFrame = exampleDecoder.getFrameOutput codeRenderer smallKeyFrame := by
  obtain ⟨out, h⟩ := smallKeyFrame_decodes codeRenderer
  have h1 := C71_whole_frames codeRenderer exampleDecoder smallKeyFrame (by rw [h]; exact fun h => nomatch h)
  refine ⟨out, h, ?_⟩
  unfold paddedKeyFrame
  rw [C71_missing_data_are_zeros codeRenderer exampleDecoder smallKeyFrame 1389 (.inl (by decide)) (by rw [h1, h]; exact fun h => nomatch h), h1]

theorem paddedKeyFrame_length : paddedKeyFrame.length = 1400 := by decide +kernel

attribute [local irreducible] paddedKeyFrame

/-- The hypotheses are met, with a hash that tells the new state from all others. -/
example : ∃ (hash : Decoder → Nat) (z : Decoder) (w0 w1 : List UInt8), (∀ x, hash x = hash z → x = z) ∧
    (firstOfSeveral (hash exampleDecoder) (hash z) 2 paddedKeyFrame).toBytes = some w0 ∧ (onlyOne (hash z) 5 [1]).toBytes = some w1 ∧
      ∀ a0 a1, (Receiver.start (codecPlaying hash) exampleDecoder).run (codecPlaying hash) [(w0, a0), (w1, a1)] = none := by
  obtain ⟨out, ho', hsame⟩ := paddedKeyFrame_decodes
  have ho : (exampleDecoder.getFrameOutputWith codeRenderer true paddedKeyFrame).2 = .ok out := by rw [hsame, ho']
  obtain ⟨z, hz⟩ : ∃ z, exampleDecoder.getFrameOutputWith codeRenderer true paddedKeyFrame = (z, .ok out) := by
    generalize exampleDecoder.getFrameOutputWith codeRenderer true paddedKeyFrame = y at ho
    exact ⟨y.1, by rw [← ho]⟩
  have hz' : exampleDecoder.getFrameOutput codeRenderer smallKeyFrame = (z, .ok out) := by rw [← hsame, hz]
  have hlen := paddedKeyFrame_length
  classical
  have hne : exampleDecoder ≠ z := by
    intro he
    have hr : z.references = ⟨out.2, out.2, out.2⟩ := by
      have h1 := (C15_key_frame_references codeRenderer exampleDecoder smallKeyFrame
        { keyFrame := true, showFrame := true, rest := [0] } (by decide +kernel) rfl out.1 out.2 ho')
      rw [hz'] at h1
      exact h1
    rw [← he] at hr
    have e1 : grayRaster 17 20 1 = out.2 := congrArg References.last hr
    have e2 : grayRaster 17 20 2 = out.2 := congrArg References.golden hr
    exact grayRaster_differs (e1.trans e2.symm)
  obtain ⟨hash, hh⟩ : ∃ hash : Decoder → Nat, hash = fun x => if x = z then 1 else 0 := ⟨_, rfl⟩
  have hash1 : hash z = 1 := by rw [hh]; exact if_pos rfl
  have hash0 : hash exampleDecoder = 0 := by rw [hh]; exact if_neg hne
  obtain ⟨w0, w1, k1, k2, k3⟩ := C60_lost_zeros_end_receiver hash (fun x => by rw [hh]; dsimp only; split <;> decide) exampleDecoder z paddedKeyFrame [1] 1 5 2
    hlen (by rw [hz]; exact fun h => nomatch h) (by
      show (match exampleDecoder.getFrameOutputWith codeRenderer true (paddedKeyFrame ++ List.replicate 1 0) with
        | (d', .ok _) => some d' | (_, .error _) => none) = some z
      rw [C71_missing_data_are_zeros codeRenderer exampleDecoder paddedKeyFrame 1 (.inl (by rw [hlen]; decide)) (by rw [hz]; exact fun h => nomatch h), hz])
    (by rw [hash1, hash0]; decide) (by decide) (by decide) (by decide)
  refine ⟨hash, z, w0, w1, fun x hx => ?_, k1, k2, k3⟩
  rw [hash1, hh] at hx
  by_contra hn
  exact absurd (hx.symm.trans (if_neg hn)) (by decide)

end Alfalfa
