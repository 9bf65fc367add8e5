import Verif.Model.Ivf
import Verif.Spec.Ivf
import Mathlib.Data.List.Basic

/-! C33, C34, C53, C61: IVF files. -/

namespace Alfalfa

theorem leBytes_eq (k : Nat) : ∀ n, leBytes k n = littleEndian k n := by
  induction k with
  | zero => intro n; rfl
  | succ k ih =>
    intro n
    rw [leBytes, ih]
    unfold littleEndian
    rw [List.range_succ_eq_map, List.map_cons, List.map_map]
    congr 1
    · rw [Nat.pow_zero, Nat.div_one]
    · apply List.map_congr_left
      intro i _
      simp only [Function.comp_apply, Nat.succ_eq_add_one]
      rw [Nat.div_div_eq_div_mul, Nat.pow_succ, Nat.mul_comm]

theorem leBytes_length (k : Nat) : ∀ n, (leBytes k n).length = k := by
  induction k with
  | zero => intro n; rfl
  | succ k ih => intro n; rw [leBytes, List.length_cons, ih]

theorem leValue_leBytes (k : Nat) : ∀ n, leValue (leBytes k n) = n % 256 ^ k := by
  induction k with
  | zero => intro n; rw [leBytes, leValue, Nat.pow_zero, Nat.mod_one]
  | succ k ih =>
    intro n
    rw [leBytes, leValue, ih, UInt8.toNat_ofNat', show 256 ^ (k + 1) = 256 * 256 ^ k from by rw [Nat.pow_succ, Nat.mul_comm], Nat.mod_mul]

theorem leValue_bound (l : List UInt8) : leValue l < 256 ^ l.length := by
  induction l with
  | nil => exact Nat.one_pos
  | cons b l ih =>
    rw [leValue, List.length_cons, Nat.pow_succ]
    have := b.toNat_lt
    omega

theorem leValue_eq (k n : Nat) (h : n < 256 ^ k) : leValue (leBytes k n) = n := by rw [leValue_leBytes, Nat.mod_eq_of_lt h]

/-- A part of a file that is the concatenation of three pieces. -/
theorem subChunk_mid {α β γ : List UInt8} {off len : Nat} (h1 : α.length = off) (h2 : β.length = len) : subChunk (α ++ β ++ γ) off len = .ok β := by
  subst h1 h2
  unfold subChunk
  have e : (α ++ β ++ γ).length = α.length + β.length + γ.length := by rw [List.length_append, List.length_append]
  rw [e, if_neg (by omega), if_neg (by omega), List.append_assoc, List.drop_left, List.take_left]

theorem subChunk_inv {c x : List UInt8} {off len : Nat} (h : subChunk c off len = .ok x) : off + len ≤ c.length ∧ x = (c.drop off).take len ∧ x.length = len := by
  unfold subChunk at h
  by_cases h1 : c.length < off
  · rw [if_pos h1] at h; exact nomatch h
  · rw [if_neg h1] at h
    by_cases h2 : c.length < off + len
    · rw [if_pos h2] at h; exact nomatch h
    · rw [if_neg h2] at h
      have e := (Except.ok.inj h).symm
      refine ⟨by omega, e, ?_⟩
      rw [e, List.length_take, List.length_drop]
      omega

/-- The header in terms of the model's bytes. -/
def ivfHead (fourcc : List UInt8) (w h r t n m : Nat) : List UInt8 :=
  [0x44, 0x4b, 0x49, 0x46] ++ leBytes 2 0 ++ leBytes 2 32 ++ fourcc ++ leBytes 2 w ++ leBytes 2 h ++ leBytes 4 r ++ leBytes 4 t ++ leBytes 4 n ++ leBytes 4 m

theorem ivfHead_length (fourcc : List UInt8) (w h r t n m : Nat) (hf : fourcc.length = 4) : (ivfHead fourcc w h r t n m).length = 32 := by
  unfold ivfHead
  simp only [List.length_append, leBytes_length, hf, List.length_cons, List.length_nil]

theorem dkif : "DKIF".toUTF8.toList = [0x44, 0x4b, 0x49, 0x46] := by decide +kernel

theorem ivfFrameBytes_eq (f : List UInt8) : ivfFrameBytes f = ivfFrameHeader f.length ++ f := by
  unfold ivfFrameBytes ivfFrameHeader
  rw [leBytes_eq]
  rfl

theorem ivfBytes_eq (h : IvfInfo) (frames : List (List UInt8)) : ivfBytes h frames =
    ivfHead h.fourcc h.width h.height h.frameRate h.timeScale frames.length h.expectedMinihash ++
      frames.flatMap (fun f => ivfFrameHeader f.length ++ f) := by
  unfold ivfBytes ivfHead
  rw [dkif]
  simp only [leBytes_eq]
  congr 2
  funext f
  exact ivfFrameBytes_eq f

/-- The constructor on a file with such a header. -/
theorem open_head (fourcc : List UInt8) (w h r t n m : Nat) (hf : fourcc.length = 4) (hw : w < 2 ^ 16) (hh : h < 2 ^ 16) (hr : r < 2 ^ 32) (ht : t < 2 ^ 32)
    (hn : n < 2 ^ 32) (hm : m < 2 ^ 32) (body : List UInt8) (index : List (Nat × Nat))
    (hi : ivfIndex (ivfHead fourcc w h r t n m ++ body) n 32 = .ok index) :
    IVF.open (ivfHead fourcc w h r t n m ++ body) = .ok
      { file := ivfHead fourcc w h r t n m ++ body, fourcc, width := w, height := h, frameRate := r, timeScale := t, frameCount := n
        expectedMinihash := m, index } := by
  have h0 : subChunk (ivfHead fourcc w h r t n m ++ body) 0 32 = .ok (ivfHead fourcc w h r t n m) :=
    subChunk_mid (α := []) rfl (ivfHead_length _ _ _ _ _ _ _ hf)
  generalize ivfHead fourcc w h r t n m ++ body = file at *
  have part : ∀ (α β γ : List UInt8) (off len : Nat), ivfHead fourcc w h r t n m = α ++ β ++ γ → α.length = off → β.length = len →
      subChunk (ivfHead fourcc w h r t n m) off len = .ok β := by
    intro α β γ off len e h1 h2
    rw [e]; exact subChunk_mid h1 h2
  have p0 := part [] [0x44, 0x4b, 0x49, 0x46] _ 0 4 (by unfold ivfHead; simp only [List.append_assoc, List.nil_append]; rfl) rfl rfl
  have p1 := part [0x44, 0x4b, 0x49, 0x46] (leBytes 2 0) _ 4 2 (by unfold ivfHead; simp only [List.append_assoc]; rfl) rfl rfl
  have p2 := part ([0x44, 0x4b, 0x49, 0x46] ++ leBytes 2 0) (leBytes 2 32) _ 6 2 (by unfold ivfHead; simp only [List.append_assoc]; rfl) rfl rfl
  have p3 := part ([0x44, 0x4b, 0x49, 0x46] ++ leBytes 2 0 ++ leBytes 2 32) fourcc _ 8 4 (by unfold ivfHead; simp only [List.append_assoc]; rfl) rfl hf
  have p4 := part ([0x44, 0x4b, 0x49, 0x46] ++ leBytes 2 0 ++ leBytes 2 32 ++ fourcc) (leBytes 2 w) _ 12 2
    (by unfold ivfHead; simp only [List.append_assoc]; rfl) (by simp [leBytes_length, hf]) (leBytes_length _ _)
  have p5 := part ([0x44, 0x4b, 0x49, 0x46] ++ leBytes 2 0 ++ leBytes 2 32 ++ fourcc ++ leBytes 2 w) (leBytes 2 h) _ 14 2
    (by unfold ivfHead; simp only [List.append_assoc]; rfl) (by simp [leBytes_length, hf]) (leBytes_length _ _)
  have p6 := part ([0x44, 0x4b, 0x49, 0x46] ++ leBytes 2 0 ++ leBytes 2 32 ++ fourcc ++ leBytes 2 w ++ leBytes 2 h) (leBytes 4 r) _ 16 4
    (by unfold ivfHead; simp only [List.append_assoc]; rfl) (by simp [leBytes_length, hf]) (leBytes_length _ _)
  have p7 := part ([0x44, 0x4b, 0x49, 0x46] ++ leBytes 2 0 ++ leBytes 2 32 ++ fourcc ++ leBytes 2 w ++ leBytes 2 h ++ leBytes 4 r) (leBytes 4 t) _ 20 4
    (by unfold ivfHead; simp only [List.append_assoc]; rfl) (by simp [leBytes_length, hf]) (leBytes_length _ _)
  have p8 := part ([0x44, 0x4b, 0x49, 0x46] ++ leBytes 2 0 ++ leBytes 2 32 ++ fourcc ++ leBytes 2 w ++ leBytes 2 h ++ leBytes 4 r ++ leBytes 4 t)
    (leBytes 4 n) _ 24 4 (by unfold ivfHead; simp only [List.append_assoc]; rfl) (by simp [leBytes_length, hf]) (leBytes_length _ _)
  have p9 := part ([0x44, 0x4b, 0x49, 0x46] ++ leBytes 2 0 ++ leBytes 2 32 ++ fourcc ++ leBytes 2 w ++ leBytes 2 h ++ leBytes 4 r ++ leBytes 4 t ++
    leBytes 4 n) (leBytes 4 m) [] 28 4 (by unfold ivfHead; simp only [List.append_assoc, List.append_nil]) (by simp [leBytes_length, hf]) (leBytes_length _ _)
  have v1 : leValue (leBytes 2 0) = 0 := by decide
  have v2 : leValue (leBytes 2 32) = 32 := by decide
  unfold IVF.open IVF.openUnchecked
  simp only [h0, p0, p1, p2, p3, p4, p5, p6, p7, p8, p9, bind, Except.bind, pure, Except.pure, v1, v2, leValue_eq 2 w hw, leValue_eq 2 h hh,
    leValue_eq 4 r hr, leValue_eq 4 t ht, leValue_eq 4 n hn, leValue_eq 4 m hm, hi, ne_eq, not_true_eq_false, if_false]

/-- The places of frames in a file, from `position` on. -/
def places : (frames : List (List UInt8)) → (position : Nat) → List (Nat × Nat)
  | [], _ => []
  | f :: rest, position => (position + 12, f.length) :: places rest (position + 12 + f.length)

theorem frameHeader_length (n : Nat) : (ivfFrameHeader n).length = 12 := by
  unfold ivfFrameHeader
  rw [List.length_append, leBytes_length, List.length_replicate]

theorem frameHeader_value (n : Nat) : subChunk (ivfFrameHeader n) 0 4 = .ok (leBytes 4 n) :=
  subChunk_mid (α := []) (β := leBytes 4 n) rfl (leBytes_length _ _)

/-- The index of a file that holds these frames after `pre`. -/
theorem ivfIndex_places (frames : List (List UInt8)) : ∀ (pre junk : List UInt8), (∀ f ∈ frames, f.length < 2 ^ 32) →
    ivfIndex (pre ++ (frames.flatMap (fun f => ivfFrameHeader f.length ++ f) ++ junk)) frames.length pre.length = .ok (places frames pre.length) := by
  induction frames with
  | nil => intro pre junk _; rfl
  | cons f frames ih =>
    intro pre junk hl
    have e : pre ++ ((f :: frames).flatMap (fun f => ivfFrameHeader f.length ++ f) ++ junk) =
        (pre ++ ivfFrameHeader f.length ++ f) ++ (frames.flatMap (fun f => ivfFrameHeader f.length ++ f) ++ junk) := by
      rw [List.flatMap_cons]; simp only [List.append_assoc]
    have e2 : pre ++ ((f :: frames).flatMap (fun f => ivfFrameHeader f.length ++ f) ++ junk) =
        pre ++ ivfFrameHeader f.length ++ (f ++ (frames.flatMap (fun f => ivfFrameHeader f.length ++ f) ++ junk)) := by
      rw [List.flatMap_cons]; simp only [List.append_assoc]
    have h1 : subChunk (pre ++ ((f :: frames).flatMap (fun f => ivfFrameHeader f.length ++ f) ++ junk)) pre.length 12 = .ok (ivfFrameHeader f.length) := by
      rw [e2]; exact subChunk_mid rfl (frameHeader_length _)
    have h2 := ih (pre ++ ivfFrameHeader f.length ++ f) junk (fun g hg => hl g (List.mem_cons_of_mem _ hg))
    rw [← e] at h2
    have hlen : (pre ++ ivfFrameHeader f.length ++ f).length = pre.length + 12 + f.length := by
      rw [List.length_append, List.length_append, frameHeader_length]
    rw [hlen] at h2
    rw [List.length_cons, ivfIndex]
    simp only [h1, frameHeader_value, leValue_eq 4 f.length (hl f (List.mem_cons_self ..)), h2, bind, Except.bind, pure, Except.pure]
    rfl

theorem places_length (frames : List (List UInt8)) : ∀ position, (places frames position).length = frames.length := by
  induction frames with
  | nil => intro p; rfl
  | cons f frames ih => intro p; rw [places, List.length_cons, ih, List.length_cons]

/-- Reading at the places gives the frames. -/
theorem places_frames (frames : List (List UInt8)) : ∀ (pre junk : List UInt8) (i : Nat) (f : List UInt8), frames[i]? = some f →
    ∃ p, (places frames pre.length)[i]? = some p ∧
      subChunk (pre ++ (frames.flatMap (fun f => ivfFrameHeader f.length ++ f) ++ junk)) p.1 p.2 = .ok f := by
  induction frames with
  | nil => intro pre junk i f h; exact nomatch h
  | cons g frames ih =>
    intro pre junk i f h
    rcases i with _ | i
    · cases Option.some.inj h
      refine ⟨_, rfl, ?_⟩
      have e : pre ++ ((g :: frames).flatMap (fun f => ivfFrameHeader f.length ++ f) ++ junk) =
          (pre ++ ivfFrameHeader g.length) ++ g ++ (frames.flatMap (fun f => ivfFrameHeader f.length ++ f) ++ junk) := by
        rw [List.flatMap_cons]; simp only [List.append_assoc]
      rw [e]
      exact subChunk_mid (by rw [List.length_append, frameHeader_length]) rfl
    · obtain ⟨p, h1, h2⟩ := ih (pre ++ ivfFrameHeader g.length ++ g) junk i f h
      have hlen : (pre ++ ivfFrameHeader g.length ++ g).length = pre.length + 12 + g.length := by
        rw [List.length_append, List.length_append, frameHeader_length]
      rw [hlen] at h1
      refine ⟨p, h1, ?_⟩
      rw [← h2]
      congr 1
      rw [List.flatMap_cons]; simp only [List.append_assoc]

/-- What a reader of a file should find. -/
structure IVF.Holds (ivf : IVF) (h : IvfInfo) (frames : List (List UInt8)) : Prop where
  fourcc : ivf.fourcc = h.fourcc
  width : ivf.width = h.width
  height : ivf.height = h.height
  frameRate : ivf.frameRate = h.frameRate
  timeScale : ivf.timeScale = h.timeScale
  expectedMinihash : ivf.expectedMinihash = h.expectedMinihash
  frameCount : ivf.frameCount = frames.length
  contents : ∀ i (hi : i < frames.length), ivf.frame i = .ok frames[i]
  noMore : ∀ i, frames.length ≤ i → ivf.frame i = .error .outOfRange

/-- **C33, the reader.** A file with the layout of an IVF file, with anything after it, is read as what it holds. -/
theorem C33_reads_layout (h : IvfInfo) (hf : h.Fits) (frames : List (List UInt8)) (hn : frames.length < 2 ^ 32) (hl : ∀ f ∈ frames, f.length < 2 ^ 32)
    (junk : List UInt8) : ∃ ivf, IVF.open (ivfBytes h frames ++ junk) = .ok ivf ∧ ivf.Holds h frames := by
  have hlen := ivfHead_length h.fourcc h.width h.height h.frameRate h.timeScale frames.length h.expectedMinihash hf.fourcc
  have hi := ivfIndex_places frames (ivfHead h.fourcc h.width h.height h.frameRate h.timeScale frames.length h.expectedMinihash) junk hl
  have hp := places_frames frames (ivfHead h.fourcc h.width h.height h.frameRate h.timeScale frames.length h.expectedMinihash) junk
  rw [hlen] at hi hp
  have ho := open_head h.fourcc h.width h.height h.frameRate h.timeScale frames.length h.expectedMinihash hf.fourcc hf.width hf.height hf.frameRate
    hf.timeScale hn hf.expectedMinihash _ _ hi
  rw [ivfBytes_eq, List.append_assoc]
  refine ⟨_, ho, rfl, rfl, rfl, rfl, rfl, rfl, rfl, ?_, ?_⟩
  · intro i hi
    obtain ⟨p, h1, h2⟩ := hp i frames[i] (List.getElem?_eq_getElem hi)
    unfold IVF.frame
    dsimp only
    rw [h1]
    exact h2
  · intro i hi
    unfold IVF.frame
    dsimp only
    rw [List.getElem?_eq_none (by rw [places_length]; exact hi)]

/-- The frames among a writer's operations, and the last hash that was set. -/
def IVFWriterOp.frames (ops : List IVFWriterOp) : List (List UInt8) := ops.filterMap fun op => match op with | .append f => some f | .setExpectedMinihash _ => none

def IVFWriterOp.lastHash (ops : List IVFWriterOp) (initial : Nat) : Nat :=
  ops.foldl (fun m op => match op with | .append _ => m | .setExpectedMinihash h => h) initial

/-- A writer that has written these frames. -/
structure IVFWriter.Wrote (w : IVFWriter) (h : IvfInfo) (frames : List (List UInt8)) : Prop where
  file : w.file = ivfBytes h frames
  size : w.fileSize = w.file.length
  count : w.frameCount = frames.length
  width : w.width = h.width
  height : w.height = h.height

theorem patch_mid {α β γ : List UInt8} {off : Nat} {new : List UInt8} (h1 : α.length = off) (h2 : β.length = new.length) :
    patch (α ++ β ++ γ) off new = α ++ new ++ γ := by
  subst h1
  unfold patch
  rw [← h2, List.append_assoc α β γ, List.take_left, ← List.append_assoc α β γ, List.drop_append_of_le_length (by rw [List.length_append]), show α.length + β.length = (α ++ β).length from (List.length_append).symm,
    List.drop_length, List.nil_append]

theorem create_wrote (fourcc : List UInt8) (width height rate scale : Nat) (hf : fourcc.length = 4) :
    ∃ w, IVFWriter.create fourcc width height rate scale = .ok w ∧ w.Wrote ⟨fourcc, width, height, rate, scale, 0⟩ [] := by
  unfold IVFWriter.create
  rw [if_neg (by rw [hf]; exact fun h => h rfl)]
  refine ⟨_, rfl, ?_, ?_, rfl, rfl, rfl⟩
  · rw [ivfBytes_eq]; exact (List.append_nil _).symm
  · exact (ivfHead_length fourcc width height rate scale 0 0 hf).symm

theorem head_split (fourcc : List UInt8) (w h r t n m : Nat) : ivfHead fourcc w h r t n m =
    ([0x44, 0x4b, 0x49, 0x46] ++ leBytes 2 0 ++ leBytes 2 32 ++ fourcc ++ leBytes 2 w ++ leBytes 2 h ++ leBytes 4 r ++ leBytes 4 t) ++ leBytes 4 n ++ leBytes 4 m :=
  rfl

theorem head_split_length (fourcc : List UInt8) (w h r t : Nat) (hf : fourcc.length = 4) :
    ([0x44, 0x4b, 0x49, 0x46] ++ leBytes 2 0 ++ leBytes 2 32 ++ fourcc ++ leBytes 2 w ++ leBytes 2 h ++ leBytes 4 r ++ leBytes 4 t).length = 24 := by
  simp only [List.length_append, leBytes_length, hf, List.length_cons, List.length_nil]

theorem head_count (fourcc : List UInt8) (w h r t n m : Nat) (hf : fourcc.length = 4) (body : List UInt8) :
    subChunk (ivfHead fourcc w h r t n m ++ body) 0 32 = .ok (ivfHead fourcc w h r t n m) ∧
    subChunk (ivfHead fourcc w h r t n m) 24 4 = .ok (leBytes 4 n) :=
  ⟨subChunk_mid (α := []) rfl (ivfHead_length _ _ _ _ _ _ _ hf), by
    rw [head_split]; exact subChunk_mid (head_split_length _ _ _ _ _ hf) (leBytes_length _ _)⟩

theorem IVFWriter.Wrote.append {w : IVFWriter} {h : IvfInfo} {frames : List (List UInt8)} (hw : w.Wrote h frames) (hf : h.fourcc.length = 4)
    (hn : frames.length + 1 < 2 ^ 32) (f : List UInt8) :
    ∃ w', w.append f = .ok (w', w.file.length + 12) ∧ w'.Wrote h (frames ++ [f]) := by
  have hfile := hw.file
  rw [ivfBytes_eq] at hfile
  obtain ⟨c1, c2⟩ := head_count h.fourcc h.width h.height h.frameRate h.timeScale frames.length h.expectedMinihash hf
    (frames.flatMap (fun f => ivfFrameHeader f.length ++ f))
  have hv : leValue (leBytes 4 frames.length) = frames.length := leValue_eq 4 _ (by omega)
  have hv' : leValue (leBytes 4 (frames.length + 1)) = frames.length + 1 := leValue_eq 4 _ (by omega)
  have hm : (frames.length + 1) % 2 ^ 32 = frames.length + 1 := Nat.mod_eq_of_lt (by omega)
  obtain ⟨body, hbody⟩ : ∃ body, body = frames.flatMap (fun f => ivfFrameHeader f.length ++ f) := ⟨_, rfl⟩
  have hnew : patch (w.file ++ ivfFrameHeader f.length ++ f) 24 (leBytes 4 (frames.length + 1)) =
      ivfHead h.fourcc h.width h.height h.frameRate h.timeScale (frames.length + 1) h.expectedMinihash ++ (body ++ ivfFrameHeader f.length ++ f) := by
    rw [hfile, ← hbody, head_split, head_split]
    have := @patch_mid ([0x44, 0x4b, 0x49, 0x46] ++ leBytes 2 0 ++ leBytes 2 32 ++ h.fourcc ++ leBytes 2 h.width ++ leBytes 2 h.height ++ leBytes 4 h.frameRate ++
      leBytes 4 h.timeScale) (leBytes 4 frames.length) (leBytes 4 h.expectedMinihash ++ body ++ ivfFrameHeader f.length ++ f) 24 (leBytes 4 (frames.length + 1))
      (head_split_length _ _ _ _ _ hf) (by rw [leBytes_length, leBytes_length])
    simp only [List.append_assoc] at this ⊢
    exact this
  obtain ⟨d1, d2⟩ := head_count h.fourcc h.width h.height h.frameRate h.timeScale (frames.length + 1) h.expectedMinihash hf
    (body ++ ivfFrameHeader f.length ++ f)
  have hlen : (w.file ++ ivfFrameHeader f.length ++ f).length = w.fileSize + 12 + f.length := by
    rw [List.length_append, List.length_append, frameHeader_length, hw.size]
  unfold IVFWriter.append
  rw [← hbody] at c1
  simp only [hfile, ← hbody, c1, c2, bind, Except.bind, hv]
  rw [if_neg (by rw [hw.count]; exact fun h => h rfl)]
  rw [← hbody] at hfile
  rw [← hfile, if_neg (by rw [hw.size]; exact fun h => h rfl), hlen, if_neg (fun h => h rfl), hw.count, hm, hnew]
  simp only [d1, d2, hv']
  rw [if_neg (fun h => h rfl), hw.size]
  refine ⟨_, rfl, ?_, ?_, ?_, hw.width, hw.height⟩
  · rw [ivfBytes_eq, List.flatMap_append, ← hbody, List.length_append, List.length_singleton]
    simp only [List.flatMap_cons, List.flatMap_nil, List.append_nil, List.append_assoc]
  · dsimp only
    have := congrArg List.length hnew
    rw [← this]
    unfold patch
    have hge : 32 ≤ w.file.length := by
      rw [hfile, List.length_append, ivfHead_length _ _ _ _ _ _ _ hf]; omega
    simp only [List.length_append, List.length_take, List.length_drop, leBytes_length, frameHeader_length]
    omega
  · rw [List.length_append, List.length_singleton]

theorem IVFWriter.Wrote.hash {w : IVFWriter} {h : IvfInfo} {frames : List (List UInt8)} (hw : w.Wrote h frames) (hf : h.fourcc.length = 4) (m : Nat) :
    (w.setExpectedMinihash m).Wrote { h with expectedMinihash := m } frames := by
  have hnew : patch w.file 28 (leBytes 4 m) = ivfBytes { h with expectedMinihash := m } frames := by
    rw [hw.file, ivfBytes_eq, ivfBytes_eq, head_split, head_split]
    dsimp only
    apply patch_mid
    · rw [List.length_append, head_split_length _ _ _ _ _ hf, leBytes_length]
    · rw [leBytes_length, leBytes_length]
  refine ⟨hnew, ?_, hw.count, hw.width, hw.height⟩
  unfold IVFWriter.setExpectedMinihash
  dsimp only
  have hlen : w.file.length = 32 + (frames.flatMap (fun f => ivfFrameHeader f.length ++ f)).length := by
    rw [hw.file, ivfBytes_eq, List.length_append, ivfHead_length _ _ _ _ _ _ _ hf]
  rw [hw.size, hnew, ivfBytes_eq, List.length_append, hlen, ivfHead_length _ _ _ _ _ _ _ hf]

theorem IVFWriter.Wrote.run {h : IvfInfo} (ops : List IVFWriterOp) : ∀ {w : IVFWriter} {m : Nat} {frames : List (List UInt8)},
    w.Wrote { h with expectedMinihash := m } frames → h.fourcc.length = 4 → frames.length + (IVFWriterOp.frames ops).length < 2 ^ 32 →
    ∃ w', w.run ops = .ok w' ∧ w'.Wrote { h with expectedMinihash := IVFWriterOp.lastHash ops m } (frames ++ IVFWriterOp.frames ops) := by
  induction ops with
  | nil => intro w m frames hw _ _; exact ⟨w, rfl, by rw [show IVFWriterOp.frames [] = [] from rfl, List.append_nil]; exact hw⟩
  | cons op ops ih =>
    intro w m frames hw hf hn
    cases op with
    | append f =>
      have e : IVFWriterOp.frames (.append f :: ops) = f :: IVFWriterOp.frames ops := rfl
      rw [e, List.length_cons] at hn
      obtain ⟨w1, h1, h2⟩ := hw.append hf (by omega) f
      obtain ⟨w2, h3, h4⟩ := ih h2 hf (by rw [List.length_append, List.length_singleton]; omega)
      refine ⟨w2, ?_, ?_⟩
      · rw [IVFWriter.run, IVFWriter.step, h1]
        exact h3
      · rw [e]
        rw [List.append_assoc] at h4
        exact h4
    | setExpectedMinihash x =>
      have h2 := hw.hash hf x
      obtain ⟨w2, h3, h4⟩ := ih (m := x) h2 hf hn
      exact ⟨w2, h3, h4⟩

theorem lastHash_lt (ops : List IVFWriterOp) : ∀ (m : Nat), m < 2 ^ 32 → (∀ m, .setExpectedMinihash m ∈ ops → m < 2 ^ 32) →
    IVFWriterOp.lastHash ops m < 2 ^ 32 := by
  induction ops with
  | nil => intro m hm _; exact hm
  | cons op ops ih =>
    intro m hm hs
    cases op with
    | append f => exact ih m hm (fun m h => hs m (List.mem_cons_of_mem _ h))
    | setExpectedMinihash x => exact ih x (hs x (List.mem_cons_self ..)) (fun m h => hs m (List.mem_cons_of_mem _ h))

/-- **C33.** After any sequence of appended frames and of hashes that are set, the file can be read, and it holds the header it was made with, the last hash and
the frames in order; no operation fails. -/
theorem C33_round_trip (h : IvfInfo) (hf : h.Fits) (ops : List IVFWriterOp) (hn : (IVFWriterOp.frames ops).length < 2 ^ 32)
    (hl : ∀ f ∈ IVFWriterOp.frames ops, f.length < 2 ^ 32) (hh : ∀ m, .setExpectedMinihash m ∈ ops → m < 2 ^ 32) :
    ∃ w0 w ivf, IVFWriter.create h.fourcc h.width h.height h.frameRate h.timeScale = .ok w0 ∧ w0.run ops = .ok w ∧
      w.width = h.width ∧ w.height = h.height ∧
      IVF.open w.file = .ok ivf ∧ ivf.Holds { h with expectedMinihash := IVFWriterOp.lastHash ops 0 } (IVFWriterOp.frames ops) := by
  obtain ⟨w0, h1, h2⟩ := create_wrote h.fourcc h.width h.height h.frameRate h.timeScale hf.fourcc
  obtain ⟨w, h3, h4⟩ := IVFWriter.Wrote.run (h := h) ops (m := 0) h2 hf.fourcc (by rw [List.length_nil]; omega)
  obtain ⟨ivf, h5, h6⟩ := C33_reads_layout { h with expectedMinihash := IVFWriterOp.lastHash ops 0 }
    ⟨hf.fourcc, hf.width, hf.height, hf.frameRate, hf.timeScale, lastHash_lt ops 0 (by decide) hh⟩ (IVFWriterOp.frames ops) hn hl []
  rw [List.nil_append] at h4
  refine ⟨w0, w, ivf, h1, h3, h4.width, h4.height, ?_, h6⟩
  rw [h4.file, ← h5, List.append_nil]

/-- A codec, dimensions and a rate, and four operations, one of them an empty frame. -/
def exampleIvfInfo : IvfInfo := { fourcc := [0x56, 0x50, 0x38, 0x30], width := 1280, height := 720, frameRate := 24, timeScale := 1, expectedMinihash := 0 }

def exampleIvfOps : List IVFWriterOp := [.append [1, 2, 3], .setExpectedMinihash 0xdeadbeef, .append [], .append [9]]

example : exampleIvfInfo.Fits ∧ IVFWriterOp.frames exampleIvfOps = [[1, 2, 3], [], [9]] ∧ IVFWriterOp.lastHash exampleIvfOps 0 = 0xdeadbeef ∧
    (∀ f ∈ IVFWriterOp.frames exampleIvfOps, f.length < 2 ^ 32) ∧ (∀ m, .setExpectedMinihash m ∈ exampleIvfOps → m < 2 ^ 32) := by
  refine ⟨⟨by decide, by decide, by decide, by decide, by decide, by decide⟩, by decide, by decide, by decide, ?_⟩
  intro m hm
  simp only [exampleIvfOps, List.mem_cons, List.not_mem_nil, or_false, reduceCtorEq, false_or, IVFWriterOp.setExpectedMinihash.injEq] at hm
  subst hm; decide

/-- **C33, the bytes.** What the writer has written is the layout of an IVF file with these frames, byte for byte. -/
theorem C33_writes_layout (h : IvfInfo) (hf : h.fourcc.length = 4) (ops : List IVFWriterOp) (hn : (IVFWriterOp.frames ops).length < 2 ^ 32) :
    ∃ w0 w, IVFWriter.create h.fourcc h.width h.height h.frameRate h.timeScale = .ok w0 ∧ w0.run ops = .ok w ∧
      w.file = ivfBytes { h with expectedMinihash := IVFWriterOp.lastHash ops 0 } (IVFWriterOp.frames ops) := by
  obtain ⟨w0, h1, h2⟩ := create_wrote h.fourcc h.width h.height h.frameRate h.timeScale hf
  obtain ⟨w, h3, h4⟩ := IVFWriter.Wrote.run (h := h) ops (m := 0) h2 hf (by rw [List.length_nil]; omega)
  rw [List.nil_append] at h4
  exact ⟨w0, w, h1, h3, h4.file⟩

/-- **C33, where a frame is.** The number that appending a frame returns is the place of that frame in the file. -/
theorem C33_offset (h : IvfInfo) (hf : h.fourcc.length = 4) (ops : List IVFWriterOp) (f : List UInt8) (hn : (IVFWriterOp.frames ops).length + 1 < 2 ^ 32) :
    ∃ w0 w w' offset, IVFWriter.create h.fourcc h.width h.height h.frameRate h.timeScale = .ok w0 ∧ w0.run ops = .ok w ∧ w.append f = .ok (w', offset) ∧
      (w'.file.drop offset) = f := by
  obtain ⟨w0, h1, h2⟩ := create_wrote h.fourcc h.width h.height h.frameRate h.timeScale hf
  obtain ⟨w, h3, h4⟩ := IVFWriter.Wrote.run (h := h) ops (m := 0) h2 hf (by rw [List.length_nil]; omega)
  rw [List.nil_append] at h4
  obtain ⟨w', h5, h6⟩ := h4.append hf hn f
  refine ⟨w0, w, w', _, h1, h3, h5, ?_⟩
  rw [h6.file, h4.file, ivfBytes_eq, ivfBytes_eq, List.flatMap_append]
  simp only [List.flatMap_cons, List.flatMap_nil, List.append_nil]
  rw [← List.append_assoc, ← List.append_assoc]
  apply List.drop_left'
  simp only [List.length_append, ivfHead_length _ _ _ _ _ _ _ hf, frameHeader_length]

/-- **C61.** If the program ends while a frame is being appended, with any number of its bytes written, the file can be read and holds the frames that were appended
before.  (The count in the header is one aligned 32-bit store.) -/
theorem C61_readable_when_interrupted (h : IvfInfo) (hf : h.Fits) (ops : List IVFWriterOp) (hn : (IVFWriterOp.frames ops).length < 2 ^ 32)
    (hl : ∀ f ∈ IVFWriterOp.frames ops, f.length < 2 ^ 32) (hh : ∀ m, .setExpectedMinihash m ∈ ops → m < 2 ^ 32) (f : List UInt8) (n : Nat) :
    ∃ w0 w ivf, IVFWriter.create h.fourcc h.width h.height h.frameRate h.timeScale = .ok w0 ∧ w0.run ops = .ok w ∧
      IVF.open (w.interrupted f n) = .ok ivf ∧
      ivf.Holds { h with expectedMinihash := IVFWriterOp.lastHash ops 0 } (IVFWriterOp.frames ops) := by
  obtain ⟨w0, w, h1, h3, h4⟩ := C33_writes_layout h hf.fourcc ops hn
  obtain ⟨ivf', h5, h6⟩ := C33_reads_layout { h with expectedMinihash := IVFWriterOp.lastHash ops 0 }
    ⟨hf.fourcc, hf.width, hf.height, hf.frameRate, hf.timeScale, lastHash_lt ops 0 (by decide) hh⟩ (IVFWriterOp.frames ops) hn hl ((ivfFrameHeader f.length ++ f).take n)
  exact ⟨w0, w, ivf', h1, h3, by rw [IVFWriter.interrupted, h4]; exact h5, h6⟩

/-- **C33, frames of 2^32 bytes or more.** The length in the frame header is cut to 32 bits: such a frame is read back as a shorter one. -/
theorem C33_long_frame_is_cut (h : IvfInfo) (hf : h.Fits) (f : List UInt8) (hl : 2 ^ 32 ≤ f.length) :
    ∃ w0 w ivf, IVFWriter.create h.fourcc h.width h.height h.frameRate h.timeScale = .ok w0 ∧ w0.run [.append f] = .ok w ∧ IVF.open w.file = .ok ivf ∧
      ivf.frame 0 = .ok (f.take (f.length % 2 ^ 32)) ∧ f.take (f.length % 2 ^ 32) ≠ f := by
  obtain ⟨w0, w, h1, h3, h4⟩ := C33_writes_layout h hf.fourcc [.append f] (show (1 : Nat) < 2 ^ 32 by decide)
  have e : w.file = ivfBytes { h with expectedMinihash := 0 } [f.take (f.length % 2 ^ 32)] ++ f.drop (f.length % 2 ^ 32) := by
    rw [h4, ivfBytes_eq, ivfBytes_eq]
    show ivfHead _ _ _ _ _ 1 0 ++ (ivfFrameHeader f.length ++ f ++ []) = ivfHead _ _ _ _ _ 1 0 ++ (ivfFrameHeader (f.take (f.length % 2 ^ 32)).length ++ _ ++ []) ++ _
    have hh : ivfFrameHeader (f.take (f.length % 2 ^ 32)).length = ivfFrameHeader f.length := by
      unfold ivfFrameHeader
      congr 1
      rw [List.length_take, Nat.min_eq_left (Nat.mod_le _ _)]
      have : ∀ n, leBytes 4 (n % 2 ^ 32) = leBytes 4 n := by
        intro n
        simp only [leBytes]
        have u : ∀ a b : Nat, a % 256 = b % 256 → UInt8.ofNat a = UInt8.ofNat b := by
          intro a b h; apply UInt8.toNat_inj.mp; rw [UInt8.toNat_ofNat', UInt8.toNat_ofNat']; exact h
        rw [u (n % 2 ^ 32) n (by omega), u (n % 2 ^ 32 / 256) (n / 256) (by omega), u (n % 2 ^ 32 / 256 / 256) (n / 256 / 256) (by omega),
          u (n % 2 ^ 32 / 256 / 256 / 256) (n / 256 / 256 / 256) (by omega)]
      exact this _
    rw [hh]
    simp only [List.append_assoc, List.append_nil, List.nil_append, List.take_append_drop]
  obtain ⟨ivf, h5, h6⟩ := C33_reads_layout { h with expectedMinihash := 0 } ⟨hf.fourcc, hf.width, hf.height, hf.frameRate, hf.timeScale, show (0 : Nat) < 2 ^ 32 by decide⟩
    [f.take (f.length % 2 ^ 32)] (show (1 : Nat) < 2 ^ 32 by decide) (by
      intro g hg
      rw [List.mem_singleton.mp hg, List.length_take]
      have := Nat.mod_lt f.length (show 0 < 2 ^ 32 by decide)
      omega) (f.drop (f.length % 2 ^ 32))
  refine ⟨w0, w, ivf, h1, h3, by rw [e]; exact h5, h6.contents 0 Nat.one_pos, fun he => ?_⟩
  have := congrArg List.length he
  rw [List.length_take] at this
  have := Nat.mod_lt f.length (show 0 < 2 ^ 32 by decide)
  omega

theorem ivfIndex_spec (file : List UInt8) (n : Nat) : ∀ (position : Nat) (index : List (Nat × Nat)), ivfIndex file n position = .ok index →
    index.length = n ∧ index.Pairwise (fun a b => a.1 + a.2 + 12 ≤ b.1) ∧ (∀ p ∈ index, position + 12 ≤ p.1 ∧ p.1 ≤ file.length ∧ p.2 < 2 ^ 32) ∧
      ∀ i p, index[i]? = some p → i + 1 < n → p.1 + p.2 ≤ file.length := by
  induction n with
  | zero =>
    intro position index h
    cases Except.ok.inj h
    exact ⟨rfl, List.Pairwise.nil, fun p hp => absurd hp List.not_mem_nil, fun i p hp => nomatch hp⟩
  | succ n ih =>
    intro position index h
    rw [ivfIndex] at h
    simp only [bind, Except.bind, pure, Except.pure] at h
    split at h
    · exact nomatch h
    rename_i header h1
    obtain ⟨a1, a2, a3⟩ := subChunk_inv h1
    split at h
    · exact nomatch h
    rename_i lenBytes h2
    obtain ⟨b1, b2, b3⟩ := subChunk_inv h2
    split at h
    · exact nomatch h
    rename_i rest h3
    obtain ⟨c1, c2, c3, c4⟩ := ih _ _ h3
    cases Except.ok.inj h
    have hlt : leValue lenBytes < 2 ^ 32 := by
      have := leValue_bound lenBytes
      rw [b3] at this
      exact this
    refine ⟨by rw [List.length_cons, c1], List.pairwise_cons.mpr ⟨fun p hp => ?_, c2⟩, ?_, ?_⟩
    · have := (c3 p hp).1
      dsimp only
      omega
    · intro p hp
      rcases List.mem_cons.mp hp with rfl | hp
      · exact ⟨Nat.le_refl _, a1, hlt⟩
      · obtain ⟨d1, d2, d3⟩ := c3 p hp
        exact ⟨by omega, d2, d3⟩
    · intro i p hp hi
      rcases i with _ | i
      · cases Option.some.inj hp
        dsimp only
        rcases hr : rest with _ | ⟨q, rest'⟩
        · rw [hr] at c1; simp only [List.length_nil] at c1; omega
        · have := c3 q (by rw [hr]; exact List.mem_cons_self ..)
          omega
      · exact c4 i p hp (by omega)

theorem open_inv {file : List UInt8} {ivf : IVF} (h : IVF.open file = .ok ivf) :
    ivf.file = file ∧ 32 ≤ file.length ∧ ivf.frameCount = leValue ((file.drop 24).take 4) ∧ ivf.width = leValue ((file.drop 12).take 2) ∧
      ivf.height = leValue ((file.drop 14).take 2) ∧ ivfIndex file ivf.frameCount 32 = .ok ivf.index := by
  unfold IVF.open at h
  generalize hu : IVF.openUnchecked file = u at h
  rcases u with e | v
  · cases e <;> exact nomatch h
  · cases Except.ok.inj h
    unfold IVF.openUnchecked at hu
    simp only [bind, Except.bind, pure, Except.pure] at hu
    have cut : ∀ {c x y : List UInt8} {off len : Nat}, subChunk c 0 32 = .ok x → subChunk x off len = .ok y → off + len ≤ 32 → y = (c.drop off).take len := by
      intro c x y off len h1 h2 hle
      obtain ⟨a1, a2, a3⟩ := subChunk_inv h1
      obtain ⟨b1, b2, b3⟩ := subChunk_inv h2
      rw [b2, a2, List.drop_zero, List.drop_take, List.take_take, Nat.min_eq_left (by omega)]
    split at hu
    · exact nomatch hu
    rename_i header h0
    split at hu
    · exact nomatch hu
    split at hu
    · exact nomatch hu
    rename_i w hw
    split at hu
    · exact nomatch hu
    rename_i hgt hhgt
    split at hu
    · exact nomatch hu
    split at hu
    · exact nomatch hu
    split at hu
    · exact nomatch hu
    rename_i cnt hcnt
    split at hu
    · exact nomatch hu
    split at hu
    · exact nomatch hu
    split at hu
    · exact nomatch hu
    split at hu
    · exact nomatch hu
    split at hu
    · exact nomatch hu
    split at hu
    · exact nomatch hu
    split at hu
    · exact nomatch hu
    split at hu
    · exact nomatch hu
    rename_i index hindex
    cases Except.ok.inj hu
    refine ⟨rfl, ?_, ?_, ?_, ?_, hindex⟩
    · have := (subChunk_inv h0).1; omega
    · dsimp only; rw [cut h0 hcnt (by decide)]
    · dsimp only; rw [cut h0 hw (by decide)]
    · dsimp only; rw [cut h0 hhgt (by decide)]

/-- **C34 (partial).** Every byte string is refused as `Invalid` or `Unsupported`, or it is opened with the number of frames its header declares (at offset 24), which are
consecutive, disjoint parts of the file after its header; reading a frame gives exactly that part, and reading any other is refused.  Missing: the last frame may reach past the end of the file; then
reading it, and only it, is refused (see `C34_last_frame_may_be_missing`). -/
theorem C34_safe_on_any_bytes_partial (file : List UInt8) :
    IVF.open file = .error .invalid ∨ IVF.open file = .error .unsupported ∨ ∃ ivf, IVF.open file = .ok ivf ∧
      ivf.frameCount = leValue ((file.drop 24).take 4) ∧ ivf.frameCount < 2 ^ 32 ∧
      (∀ i, ivf.frameCount ≤ i → ivf.frame i = .error .outOfRange) ∧
      ∃ parts : List (Nat × Nat), parts.length = ivf.frameCount ∧ parts.Pairwise (fun a b => a.1 + a.2 ≤ b.1) ∧ (∀ p ∈ parts, 32 ≤ p.1) ∧
        ∀ i p, parts[i]? = some p →
          (p.1 + p.2 ≤ file.length ∧ ivf.frame i = .ok ((file.drop p.1).take p.2)) ∨
          (i + 1 = ivf.frameCount ∧ file.length < p.1 + p.2 ∧ ivf.frame i = .error .outOfRange) := by
  rcases hopen : IVF.open file with e | ivf
  · cases e with
    | invalid => exact Or.inl rfl
    | unsupported => exact Or.inr (Or.inl rfl)
    | outOfRange =>
      exfalso
      unfold IVF.open at hopen
      split at hopen
      · exact nomatch hopen
      · rename_i h; exact h hopen
    | internal =>
      exfalso
      unfold IVF.open at hopen
      split at hopen
      · exact nomatch hopen
      · have hsub : ∀ {c : List UInt8} {o l : Nat} {e : FrameError}, subChunk c o l = .error e → e = .outOfRange := by
          intro c o l e h
          unfold subChunk at h
          split at h
          · exact (Except.error.inj h).symm
          · split at h
            · exact (Except.error.inj h).symm
            · exact nomatch h
        have hidx : ∀ {n p : Nat} {e : FrameError}, ivfIndex file n p = .error e → e = .outOfRange := by
          intro n
          induction n with
          | zero => intro p e h; exact nomatch h
          | succ n ih =>
            intro p e h
            rw [ivfIndex] at h
            simp only [bind, Except.bind, pure, Except.pure] at h
            repeat' split at h
            all_goals first
              | (rename_i hh; cases Except.error.inj h; first | exact hsub hh | exact ih hh)
              | exact nomatch h
        unfold IVF.openUnchecked at hopen
        simp only [bind, Except.bind, pure, Except.pure] at hopen
        repeat' split at hopen
        all_goals first
          | (rename_i hh; cases Except.error.inj hopen; first | exact nomatch hsub hh | exact nomatch hidx hh)
          | exact nomatch Except.error.inj hopen
          | exact nomatch hopen
  · refine Or.inr (Or.inr ⟨ivf, rfl, ?_⟩)
    obtain ⟨h1, h2, h3, _, _, h4⟩ := open_inv hopen
    obtain ⟨i1, i2, i3, i4⟩ := ivfIndex_spec _ _ _ _ h4
    refine ⟨h3, ?_, ?_, ivf.index, i1, i2.imp (by intro a b h; omega), fun p hp => by have := (i3 p hp).1; omega, ?_⟩
    · rw [h3]
      have := leValue_bound ((file.drop 24).take 4)
      have hl : ((file.drop 24).take 4).length = 4 := by rw [List.length_take, List.length_drop]; omega
      rw [hl] at this
      exact this
    · intro i hi
      unfold IVF.frame
      rw [List.getElem?_eq_none (by omega)]
    · intro i p hp
      have hi : i < ivf.frameCount := by rw [← i1]; exact (List.getElem?_eq_some_iff.mp hp).1
      have hb := i3 p (List.mem_of_getElem? hp)
      by_cases hle : p.1 + p.2 ≤ file.length
      · refine Or.inl ⟨hle, ?_⟩
        unfold IVF.frame subChunk
        rw [hp, h1]
        dsimp only
        rw [if_neg (by omega), if_neg (by omega)]
      · refine Or.inr ⟨?_, by omega, ?_⟩
        · by_contra hne
          exact hle (i4 i p hp (by omega))
        · unfold IVF.frame subChunk
          rw [hp, h1]
          dsimp only
          rw [if_neg (by omega), if_pos (by omega)]

/-- **C34 does not hold for the last frame.** A file that ends after the header of its only frame is opened, with one frame, which cannot be read. -/
theorem C34_last_frame_may_be_missing : ∃ file ivf, IVF.open file = .ok ivf ∧ ivf.frameCount = 1 ∧ ivf.frame 0 = .error .outOfRange := by
  refine ⟨(ivfBytes exampleIvfInfo [[1, 2, 3]]).take 44, ?_⟩
  have h : (match IVF.open ((ivfBytes exampleIvfInfo [[1, 2, 3]]).take 44) with
    | .ok ivf => decide (ivf.frameCount = 1) && (match ivf.frame 0 with | .error .outOfRange => true | _ => false) | .error _ => false) = true := by decide +kernel
  generalize IVF.open ((ivfBytes exampleIvfInfo [[1, 2, 3]]).take 44) = u at *
  rcases u with e | ivf
  · exact nomatch h
  · dsimp only at h
    rw [Bool.and_eq_true, decide_eq_true_iff] at h
    refine ⟨ivf, rfl, h.1, ?_⟩
    have h2 := h.2
    generalize ivf.frame 0 = v at *
    rcases v with e | v
    · cases e <;> first | rfl | exact nomatch h2
    · exact nomatch h2

theorem copyFrames_spec (ivf : IVF) {h : IvfInfo} (hf : h.fourcc.length = 4) (n : Nat) : ∀ (i : Nat) {w : IVFWriter} {done : List (List UInt8)}
    (frames : List (List UInt8)), w.Wrote h done → frames.length = n → (∀ k (hk : k < frames.length), ivf.frame (i + k) = .ok frames[k]) →
    done.length + n < 2 ^ 32 → ∃ w', copyFrames ivf w n i = .ok w' ∧ w'.Wrote h (done ++ frames) := by
  induction n with
  | zero =>
    intro i w done frames hw hl _ _
    rw [List.length_eq_zero_iff.mp hl, List.append_nil]
    exact ⟨w, rfl, hw⟩
  | succ n ih =>
    intro i w done frames hw hl hfr hn
    rcases frames with _ | ⟨f, frames⟩
    · exact absurd hl (by simp)
    rw [List.length_cons] at hl
    have h0 := hfr 0 (by simp)
    rw [Nat.add_zero, List.getElem_cons_zero] at h0
    obtain ⟨w1, h1, h2⟩ := hw.append hf (by omega) f
    obtain ⟨w2, h3, h4⟩ := ih (i + 1) frames h2 (by omega) (fun k hk => by
      have := hfr (k + 1) (by rw [List.length_cons]; omega)
      rw [List.getElem_cons_succ] at this
      rw [← this, Nat.add_assoc, Nat.add_comm 1 k]) (by rw [List.length_append, List.length_singleton]; omega)
    refine ⟨w2, ?_, ?_⟩
    · rw [copyFrames, h0]
      simp only [bind, Except.bind, h1]
      exact h3
    · rw [List.append_assoc] at h4
      exact h4

/-- **C53.** Merging two files of the same dimensions, whose frames can all be read, gives a file of these dimensions, of the codec VP80, that holds the frames of the first
and then those of the second, unchanged. -/
theorem C53_merge (file1 file2 : List UInt8) (ivf1 ivf2 : IVF) (h1 : IVF.open file1 = .ok ivf1) (h2 : IVF.open file2 = .ok ivf2)
    (frames1 frames2 : List (List UInt8)) (c1 : ivf1.frameCount = frames1.length) (c2 : ivf2.frameCount = frames2.length)
    (r1 : ∀ i (hi : i < frames1.length), ivf1.frame i = .ok frames1[i]) (r2 : ∀ i (hi : i < frames2.length), ivf2.frame i = .ok frames2[i])
    (hn : frames1.length + frames2.length < 2 ^ 32) :
    (ivf1.width = ivf2.width ∧ ivf1.height = ivf2.height → ∃ out ivf, xcMerge file1 file2 = .ok out ∧ IVF.open out = .ok ivf ∧
      ivf.Holds { fourcc := "VP80".toUTF8.toList, width := ivf1.width, height := ivf1.height, frameRate := 1, timeScale := 1, expectedMinihash := 0 }
        (frames1 ++ frames2)) ∧
    (¬ (ivf1.width = ivf2.width ∧ ivf1.height = ivf2.height) → ∃ e, xcMerge file1 file2 = .error e) := by
  have hv : "VP80".toUTF8.toList = [0x56, 0x50, 0x38, 0x30] := by decide +kernel
  constructor
  · intro ⟨hw, hh⟩
    rw [hv]
    obtain ⟨w0, a1, a2⟩ := create_wrote [0x56, 0x50, 0x38, 0x30] ivf1.width ivf1.height 1 1 rfl
    obtain ⟨w1, a3, a4⟩ := copyFrames_spec ivf1 rfl ivf1.frameCount 0 frames1 a2 c1.symm (fun k hk => by rw [Nat.zero_add]; exact r1 k hk)
      (by rw [List.length_nil]; omega)
    rw [List.nil_append] at a4
    obtain ⟨w2, a5, a6⟩ := copyFrames_spec ivf2 rfl ivf2.frameCount 0 frames2 a4 c2.symm (fun k hk => by rw [Nat.zero_add]; exact r2 k hk) (by omega)
    have size : ∀ {file : List UInt8} {ivf : IVF} {frames : List (List UInt8)}, IVF.open file = .ok ivf → ivf.frameCount = frames.length →
        (∀ i (hi : i < frames.length), ivf.frame i = .ok frames[i]) → ∀ f ∈ frames, f.length < 2 ^ 32 := by
      intro file ivf frames ho hc hr f hf
      obtain ⟨i, hi, rfl⟩ := List.mem_iff_getElem.mp hf
      obtain ⟨_, _, _, _, _, b4⟩ := open_inv ho
      obtain ⟨d1, _, d3, _⟩ := ivfIndex_spec _ _ _ _ b4
      have hr' := hr i hi
      unfold IVF.frame at hr'
      rw [List.getElem?_eq_getElem (by rw [d1, hc]; exact hi)] at hr'
      have := (subChunk_inv hr').2.2
      rw [this]
      exact (d3 _ (List.getElem_mem _)).2.2
    have dim : ivf1.width < 2 ^ 16 ∧ ivf1.height < 2 ^ 16 := by
      obtain ⟨_, b1, _, b2, b3, _⟩ := open_inv h1
      have l1 := leValue_bound ((file1.drop 12).take 2)
      have l2 := leValue_bound ((file1.drop 14).take 2)
      have e1 : ((file1.drop 12).take 2).length = 2 := by rw [List.length_take, List.length_drop]; omega
      have e2 : ((file1.drop 14).take 2).length = 2 := by rw [List.length_take, List.length_drop]; omega
      rw [e1] at l1
      rw [e2] at l2
      rw [b2, b3]
      exact ⟨l1, l2⟩
    obtain ⟨ivf, a7, a8⟩ := C33_reads_layout ⟨[0x56, 0x50, 0x38, 0x30], ivf1.width, ivf1.height, 1, 1, 0⟩
      ⟨rfl, dim.1, dim.2, show (1 : Nat) < 2 ^ 32 by decide, show (1 : Nat) < 2 ^ 32 by decide, show (0 : Nat) < 2 ^ 32 by decide⟩ (frames1 ++ frames2) (by rw [List.length_append]; exact hn) (fun f hf => by
        rcases List.mem_append.mp hf with hf | hf
        · exact size h1 c1 r1 f hf
        · exact size h2 c2 r2 f hf) []
    refine ⟨w2.file, ivf, ?_, ?_, a8⟩
    · unfold xcMerge
      simp only [h1, h2, bind, Except.bind, a1, a3, a5, pure, Except.pure]
      rw [if_neg (by rw [hw, hh]; simp)]
    · rw [a6.file, ← a7, List.append_nil]
  · intro hne
    unfold xcMerge
    simp only [h1, h2, bind, Except.bind]
    rw [if_pos (by by_contra hc; rw [not_or, not_not, not_not] at hc; exact hne hc)]
    exact ⟨_, rfl⟩

/-- Two files with frames that can be merged. -/
example : ∃ ivf1 ivf2, IVF.open (ivfBytes exampleIvfInfo [[1, 2], [3]]) = .ok ivf1 ∧ IVF.open (ivfBytes exampleIvfInfo [[4]]) = .ok ivf2 ∧
    ivf1.Holds exampleIvfInfo [[1, 2], [3]] ∧ ivf2.Holds exampleIvfInfo [[4]] := by
  have hfits : exampleIvfInfo.Fits := ⟨by decide, by decide, by decide, by decide, by decide, by decide⟩
  obtain ⟨i1, a1, b1⟩ := C33_reads_layout exampleIvfInfo hfits [[1, 2], [3]] (by decide) (by decide) []
  obtain ⟨i2, a2, b2⟩ := C33_reads_layout exampleIvfInfo hfits [[4]] (by decide) (by decide) []
  rw [List.append_nil] at a1 a2
  exact ⟨i1, i2, a1, a2, b1, b2⟩

end Alfalfa
