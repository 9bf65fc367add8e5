import Verif.Props.Delivery

/-! C77, from the camera to the viewer. -/

namespace Alfalfa
open FidelitySpec

section
variable {hash : Decoder → Nat} {width height : Nat} {base : Session} {d : Decoder} {mode : OperationMode} {start : Int} {b : Broadcast}

/-- **C77** (what is shown): each time the receiver gives its decoder the whole of a frame, and the decoder has the hash that the frame names as its source,
the viewer sees a picture that is near the one the camera gave, whatever was lost, repeated or reordered before. -/
theorem C77_viewer (hs : Broadcast.Starts hash width height base d) (h : Broadcast.Reaches hash width height mode base d start b)
    (hc : b.NoCollision hash d) {k : Nat} {x : Decoder} {f : FragmentedFrame} {m : Made}
    (hk : (k, x, (f.fragments.map (·.payload)).flatten) ∈ b.sys.receiver.handed) (hf : b.sys.sent[k]? = some f) (hm : b.made[k]? = some m)
    (hx : hash x = f.sourceState) :
    ∃ x' picture, x.getFrameOutputWith codeRenderer true (f.fragments.map (·.payload)).flatten = (x', .ok (true, picture)) ∧ m.index ≤ 127 ∧
      Faithful m.index m.original picture :=
  have r := ((h.binv hs).made m (List.mem_of_getElem? hm)).1
  ⟨_, _, C72_complete_frame_shown hs h hc hk hf hm hx, r.index, r.near⟩

/-- **C77** (delivery): when all packets of the next frame arrive, in any order and each as often as it likes, and the receiver has the state that the frame
was coded against or the frame was made by the first encoder, then the viewer sees a picture near the one the camera gave, as long as no accident with hashes
happened. -/
theorem C77_delivered (hs : Broadcast.Starts hash width height base d) (hmb : macroblockCount width height ≤ 14300)
    (h : Broadcast.Reaches hash width height mode base d start b)
    (hn : System.NoAccident (codecPlaying hash) (hash base.decoder) b.sys.sent b.sys.receiver.handed) (hc : b.NoCollision hash d)
    {k : Nat} {f : FragmentedFrame} {m : Made} (hf : b.sys.sent[k]? = some f) (hm : b.made[k]? = some m) (hk : b.sys.receiver.nextFrameNo = k)
    {ws : List (List UInt8 × Nat)} (hw : ∀ w ∈ ws, ∃ p ∈ f.fragments, p.toBytes = some w.1)
    (hall : ∀ p ∈ f.fragments, ∃ w ∈ ws, p.toBytes = some w.1)
    (hsrc : m.before = base ∨ b.sys.receiver.decoders f.sourceState ≠ none) :
    ∃ r x x' picture, b.sys.receiver.run (codecPlaying hash) ws = some r ∧ r.handed.getLast? = some (k, x, m.bytes) ∧
      x.getFrameOutputWith codeRenderer true m.bytes = (x', .ok (true, picture)) ∧ r.player = x' ∧ m.index ≤ 127 ∧ Faithful m.index m.original picture := by
  obtain ⟨r, x, h1, -, h2, h3, h4, -⟩ := C72_delivered_frame_shown hs hmb h hn hc hf hm hk hw hall hsrc
  have q := ((h.binv hs).made m (List.mem_of_getElem? hm)).1
  exact ⟨r, x, _, _, h1, h2, h3, h4, q.index, q.near⟩

end

/-- A gray picture, from the camera to the viewer. -/
example : ∃ (hash : Decoder → Nat) (b : Broadcast) (ws : List (List UInt8 × Nat)) (r : Receiver Decoder) (x x' : Decoder) (index : Nat) (bytes : List UInt8)
    (picture : Raster),
    Broadcast.Reaches hash 40 30 .conventional exampleBase exampleBase.decoder 0 b ∧
    b.sys.receiver.run (codecPlaying hash) ws = some r ∧ r.handed.getLast? = some (0, x, bytes) ∧
    x.getFrameOutputWith codeRenderer true bytes = (x', .ok (true, picture)) ∧ Faithful index (grayRaster 40 30 77) picture := by
  obtain ⟨hash, b, f, m, ws, h1, h2, h3, h4, h5, h6, h7, h8, h9, h10, h11, h12⟩ := exampleBroadcast
  obtain ⟨r, x, x', picture, k1, k2, k3, -, -, k4⟩ := C77_delivered h1 (by decide) h2 h3 h4 (k := 0) (f := f) (m := m) (by rw [h5]; rfl) (by rw [h6]; rfl) h9 h10
    h11 (.inl h7)
  rw [h8] at k4
  exact ⟨hash, b, ws, r, x, x', m.index, m.bytes, picture, h2, k1, k2, k3, k4⟩

end Alfalfa
