import Verif.Spec.Dissect
import Verif.Props.ZeroOut
import Verif.Props.IvfTools

/-! C102: the program that prints what is in a file. -/

namespace Alfalfa
open DissectSpec

theorem mb_name {k : Nat} (h : k ≤ 9) : ∃ name, mbmodeNames[k]? = some name ∧ (k, name) ∈ mbNamed := by
  have : ∀ k ∈ List.range 10, ∃ name ∈ mbmodeNames, mbmodeNames[k]? = some name ∧ (k, name) ∈ mbNamed := by decide +kernel
  obtain ⟨name, -, h⟩ := this k (List.mem_range.2 (by omega))
  exact ⟨name, h⟩

theorem b_name {k : Nat} (h : k ≤ 13) : ∃ name, bmodeNames[k]? = some name ∧ (k, name) ∈ bNamed := by
  have : ∀ k ∈ List.range 14, ∃ name ∈ bmodeNames, bmodeNames[k]? = some name ∧ (k, name) ∈ bNamed := by decide +kernel
  obtain ⟨name, -, h⟩ := this k (List.mem_range.2 (by omega))
  exact ⟨name, h⟩

theorem mapM_chosen {A B : Type} {f : A → Option B} {g : A → B} : ∀ {l : List A}, (∀ a ∈ l, f a = some (g a)) → l.mapM f = some (l.map g)
  | [], _ => rfl
  | a :: l, h => by
    rw [List.mapM_cons, h a (by simp), mapM_chosen (l := l) fun x hx => h x (by simp [hx])]
    rfl

theorem blocks_named {f : Fin 16 → Nat} (h : ∀ i, f i ≤ 13) : ∃ l, (List.finRange 16).mapM (fun i => bmodeNames[f i]?) = some l ∧ l.length = 16 ∧
    ∀ i : Fin 16, ∃ name, l[i.val]? = some name ∧ (f i, name) ∈ bNamed := by
  choose g hg using fun i => b_name (h i)
  refine ⟨(List.finRange 16).map g, ?_, by simp, fun i => ⟨g i, ?_, (hg i).2⟩⟩
  · exact mapM_chosen fun i _ => (hg i).1
  · rw [List.getElem?_map, List.getElem?_eq_getElem (by simp)]
    simp

/-- What is needed of a macroblock for its description. -/
structure MBModes.Described (m : MBModes) : Prop where
  yMode : m.yMode ≤ 9
  uvMode : m.uvMode ≤ 9
  bModes : m.yMode = B_PRED ∨ m.yMode = SPLITMV → ∀ i, m.bModes i ≤ 13
  reference : m.isInter = true → ∃ r, m.reference = some r ∧ referenceNames[r.val]? = some (referenceName m.sel1 m.sel2)

theorem intra_described {m : MBModes} (h : m.IntraOk) (hn : m.NoInter) : m.Described := by
  refine ⟨?_, ?_, ?_, fun h => ?_⟩
  · rcases h.yMode with h | h | h | h | h <;> rw [h] <;> decide
  · rcases h.uvMode with h | h | h | h <;> rw [h] <;> decide
  · intro hb i
    rcases hb with hb | hb
    · exact (h.free hb i).trans (by decide)
    · rcases h.yMode with h | h | h | h | h <;> rw [h] at hb <;> exact absurd hb (by decide)
  · rw [hn.isInter] at h
    exact absurd h (by decide)

theorem inter_described {hd : InterFrameHeader} {c : MBContext} {s : Scorer} {m : MBModes} (h : m.InterOk hd c s) : m.Described := by
  refine ⟨?_, by rw [h.uvMode]; decide, ?_, fun _ => ?_⟩
  · rcases h.yMode with h | h | h | h | h <;> rw [h] <;> decide
  · intro hb i
    rcases hb with hb | hb
    · rcases h.yMode with h | h | h | h | h <;> rw [h] at hb <;> exact absurd hb (by decide)
    · obtain ⟨k, groups, -, -, hs⟩ := h.split hb
      rcases hs.mode i with e | e | e | e <;> rw [e] <;> decide
  · have h1 := h.sel1
    have h2 := h.sel2
    unfold MBModes.reference referenceName
    rw [if_neg (by rw [h.isInter]; decide)]
    cases e1 : m.sel1 with
    | none => rw [e1] at h1; exact absurd h1 (by decide)
    | some b =>
      cases b with
      | false => exact ⟨1, rfl, rfl⟩
      | true =>
        cases e2 : m.sel2 with
        | none => rw [e1, e2] at h2; exact absurd (h2.2 rfl) (by decide)
        | some b => cases b <;> exact ⟨_, rfl, rfl⟩

/-- **C102.**  Every macroblock that can be read has a description, which is right: no index into an array of names is out of range. -/
theorem described {m : MBModes} (h : m.Described) : ∃ t, dissectMB m = some t ∧ Says t m := by
  obtain ⟨yn, y1, y2⟩ := mb_name h.yMode
  obtain ⟨un, u1, u2⟩ := mb_name h.uvMode
  unfold dissectMB
  rw [y1]
  by_cases hi : m.isInter = true
  · obtain ⟨r, r1, r2⟩ := h.reference hi
    by_cases hb : m.yMode = B_PRED ∨ m.yMode = SPLITMV
    · obtain ⟨l, l1, l2, l3⟩ := blocks_named (h.bModes hb)
      refine ⟨⟨yn, some (m.mvs 15, referenceName m.sel1 m.sel2), some l, none⟩, ?_, y2, by rw [if_pos hi], fun _ => ⟨l, rfl, l2, l3⟩, fun n => absurd hb n, fun n => ?_, fun _ => rfl⟩
      · simp only [hi, hb, r1, r2, l1, Option.bind_eq_bind, Option.bind_some, if_true, Option.pure_def, not_true_eq_false, if_false]
      · rw [hi] at n; exact absurd n (by decide)
    · refine ⟨⟨yn, some (m.mvs 15, referenceName m.sel1 m.sel2), none, none⟩, ?_, y2, by rw [if_pos hi], fun n => absurd n hb, fun _ => rfl, fun n => ?_, fun _ => rfl⟩
      · simp only [hi, hb, r1, r2, Option.bind_eq_bind, Option.bind_some, if_true, Option.pure_def, not_true_eq_false, if_false]
      · rw [hi] at n; exact absurd n (by decide)
  · have hi' : m.isInter = false := by simpa using hi
    by_cases hb : m.yMode = B_PRED ∨ m.yMode = SPLITMV
    · obtain ⟨l, l1, l2, l3⟩ := blocks_named (h.bModes hb)
      refine ⟨⟨yn, none, some l, some un⟩, ?_, y2, by rw [if_neg hi], fun _ => ⟨l, rfl, l2, l3⟩, fun n => absurd hb n, fun _ => ⟨un, rfl, u2⟩, fun n => absurd n hi⟩
      simp only [hi', hb, u1, l1, Option.bind_eq_bind, Option.bind_some, if_true, Option.pure_def, Bool.false_eq_true, not_false_eq_true, if_false]
    · refine ⟨⟨yn, none, none, some un⟩, ?_, y2, by rw [if_neg hi], fun n => absurd n hb, fun _ => rfl, fun _ => ⟨un, rfl, u2⟩, fun n => absurd n hi⟩
      simp only [hi', hb, u1, Option.bind_eq_bind, Option.bind_some, if_true, Option.pure_def, Bool.false_eq_true, not_false_eq_true, if_false]

theorem all_described : ∀ {l : List MBModes}, (∀ m ∈ l, m.Described) → ∃ ts, l.mapM dissectMB = some ts ∧ List.Forall₂ Says ts l
  | [], _ => ⟨[], rfl, .nil⟩
  | m :: l, h => by
    obtain ⟨t, t1, t2⟩ := described (h m (by simp))
    obtain ⟨ts, s1, s2⟩ := all_described (l := l) fun m hm => h m (by simp [hm])
    refine ⟨t :: ts, ?_, .cons t2 s2⟩
    rw [List.mapM_cons, t1, s1]
    rfl

/-- **C102.**  Every macroblock of a frame that a decoder accepts has a right description. -/
theorem C102_key_macroblocks (st st' : DecoderState) (hst : st.Ok) (c : FrameParts) (p : ParsedFrame KeyFrameHeader) (h : st.applyKey c = (st', .ok p)) :
    ∃ ts, p.frame.modes.mapM dissectMB = some ts ∧ List.Forall₂ Says ts p.frame.modes := by
  have := (C12_key_frame_total st hst c).2
  rw [h] at this
  rcases this with ⟨h4, -⟩ | h4 | h4 | ⟨q, h4, h5, -⟩
  · exact nomatch h4
  · exact nomatch h4
  · exact nomatch h4
  · injection h4 with h4
    subst h4
    refine all_described fun m hm => ?_
    obtain ⟨k, hk⟩ := List.mem_iff_getElem?.1 hm
    have := h5.modes k m hk
    exact intra_described this.intra this.noInter

theorem C102_inter_macroblocks (st st' : DecoderState) (hst : st.Ok) (c : FrameParts) (p : ParsedFrame InterFrameHeader) (h : st.applyInter c = (st', .ok p)) :
    ∃ ts, p.frame.modes.mapM dissectMB = some ts ∧ List.Forall₂ Says ts p.frame.modes := by
  have := (C12_inter_frame_total st hst c).2
  rw [h] at this
  rcases this with h4 | h4 | ⟨q, h4, h5, -⟩
  · exact nomatch h4
  · exact nomatch h4
  · injection h4 with h4
    subst h4
    refine all_described fun m hm => ?_
    obtain ⟨k, hk⟩ := List.mem_iff_getElem?.1 hm
    rcases (h5.modes k m hk).cases with ⟨h1, h2⟩ | ⟨s, -, h1⟩
    · exact intra_described h1 h2
    · exact inter_described h1

/-- One round of the loop on a frame that a decoder can read. -/
theorem dissect_step (ivf : IVF) {st st' : DecoderState} (hst : st.Ok) (hw : ivf.width = st.width) (hh : ivf.height = st.height) {bytes : List UInt8} {x : ReadFrame}
    (hx : readFrame st bytes = some (st', x)) (i : Nat) (hf : ivf.frame i = .ok bytes) :
    ∃ s, Of i bytes x s ∧ ∀ target n, dissectLoop ivf target (n + 1) i st =
      ((if target = 2 ^ 64 - 1 ∨ i = target then [s] else []) ++ (dissectLoop ivf target n (i + 1) st').1, (dissectLoop ivf target n (i + 1) st').2) := by
  unfold readFrame at hx
  cases hs : splitFrame bytes st.width st.height false with
  | error e => rw [hs] at hx; exact nomatch hx
  | ok c =>
    rw [hs] at hx
    simp only at hx
    split at hx
    next hk =>
      rcases ha : st.applyKey c with ⟨s, e | p⟩
      · rw [ha] at hx; exact nomatch hx
      · rw [ha] at hx
        cases hx
        obtain ⟨ts, t1, t2⟩ := C102_key_macroblocks st _ hst c p ha
        refine ⟨⟨i, c.keyFrame, bytes.length, some (.key p ts)⟩, ⟨rfl, rfl, ⟨fun _ => ⟨p, rfl⟩, fun _ => hk⟩, _, rfl, .key t2⟩, fun target n => ?_⟩
        have hd := (applyKey_dims st { width := ivf.width, height := ivf.height } hw.symm hh.symm c).2 p (by rw [ha])
        rw [dissectLoop, hf]
        dsimp only
        rw [hw, hh, hs]
        dsimp only
        rw [if_pos hk, ← hw, ← hh, ← hd, ha]
        dsimp only
        rw [t1]
    next hk =>
      rcases ha : st.applyInter c with ⟨s, e | p⟩
      · rw [ha] at hx; exact nomatch hx
      · rw [ha] at hx
        cases hx
        obtain ⟨ts, t1, t2⟩ := C102_inter_macroblocks st _ hst c p ha
        refine ⟨⟨i, c.keyFrame, bytes.length, some (.inter p ts)⟩, ⟨rfl, rfl, ⟨fun h => absurd h hk, fun ⟨_, h⟩ => nomatch h⟩, _, rfl, .inter t2⟩, fun target n => ?_⟩
        rw [dissectLoop, hf]
        dsimp only
        rw [hw, hh, hs]
        dsimp only
        rw [if_neg hk, ha]
        dsimp only
        rw [t1]

theorem dissectLoop_spec (ivf : IVF) {st st' : DecoderState} {frames : List (List UInt8)} {xs : List ReadFrame} (hr : ReadsFrames st frames xs st') : ∀ (i : Nat), st.Ok → ivf.width = st.width →
    ivf.height = st.height → (∀ k (hk : k < frames.length), ivf.frame (i + k) = .ok frames[k]) →
    ∃ sections : List DissectSection, sections.length = frames.length ∧ (∀ k bytes x s, frames[k]? = some bytes → xs[k]? = some x → sections[k]? = some s → Of (i + k) bytes x s) ∧
      ∀ target, dissectLoop ivf target frames.length i st = (if target = 2 ^ 64 - 1 then sections else if i ≤ target then (sections[target - i]?).toList else [], .success) := by
  induction hr with
  | nil st =>
    intro i _ _ _ _
    refine ⟨[], rfl, fun k bytes x s h => by simp at h, fun target => ?_⟩
    unfold dissectLoop
    simp
  | @cons st st1 st2 bytes x rest xs hx hr ih =>
    intro i hst hw hh hf
    obtain ⟨n1, n2, n3⟩ := readFrame_ok hst hx
    obtain ⟨s, s1, s2⟩ := dissect_step ivf hst hw hh hx i (hf 0 (Nat.succ_pos _))
    obtain ⟨l, l1, l2, l3⟩ := ih (i + 1) n1 (by rw [hw, n2]) (by rw [hh, n3]) fun k hk => by
      have := hf (k + 1) (by simpa using hk)
      rw [List.getElem_cons_succ] at this
      rw [← this, Nat.add_assoc, Nat.add_comm 1 k]
    refine ⟨s :: l, by simp [l1], ?_, fun target => ?_⟩
    · intro k b y t h1 h2 h3
      cases k with
      | zero =>
        simp only [List.getElem?_cons_zero, Option.some.injEq] at h1 h2 h3
        subst h1 h2 h3
        exact s1
      | succ k =>
        simp only [List.getElem?_cons_succ] at h1 h2 h3
        have := l2 k b y t h1 h2 h3
        rwa [show i + 1 + k = i + (k + 1) by omega] at this
    · rw [List.length_cons, s2, l3]
      by_cases ht : target = 2 ^ 64 - 1
      · rw [if_pos (.inl ht), if_pos ht, if_pos ht]
        rfl
      · rw [if_neg ht, if_neg ht]
        rcases Nat.lt_trichotomy i target with h | h | h
        · rw [if_neg (by omega), if_pos (by omega : i + 1 ≤ target), if_pos (by omega : i ≤ target), show target - i = (target - (i + 1)) + 1 by omega, List.getElem?_cons_succ]
          rfl
        · subst h
          rw [if_pos (.inr rfl), if_neg (by omega), if_pos (le_refl i), Nat.sub_self]
          rfl
        · rw [if_neg (by omega), if_neg (by omega), if_neg (by omega)]
          rfl

/-- **C102.**  If a decoder can read all frames of a file, then the program prints a section for each of them in their order, with the number, the kind, the size and the contents of the frame; if it is asked
for one of them, the same section and no other; if it is asked for a frame that is not there, nothing.  It ends well. -/
theorem C102_sections (file : List UInt8) (ivf : IVF) (ho : IVF.open file = .ok ivf) (info : IvfInfo) (frames : List (List UInt8)) (hi : ivf.Holds info frames) (initial : Option DecoderState)
    (hst : (initial.getD { width := ivf.width, height := ivf.height }).Ok) (hw : ∀ st, initial = some st → st.width = ivf.width ∧ st.height = ivf.height) (xs : List ReadFrame) (st' : DecoderState)
    (hr : ReadsFrames (initial.getD { width := ivf.width, height := ivf.height }) frames xs st') :
    ∃ sections : List DissectSection, sections.length = frames.length ∧ (∀ k bytes x s, frames[k]? = some bytes → xs[k]? = some x → sections[k]? = some s → Of k bytes x s) ∧
      dissect initial none file = .ok (sections, .success) ∧ ∀ k, k ≠ 2 ^ 64 - 1 → dissect initial (some k) file = .ok ((sections[k]?).toList, .success) := by
  have hd : ivf.width = (initial.getD { width := ivf.width, height := ivf.height }).width ∧ ivf.height = (initial.getD { width := ivf.width, height := ivf.height }).height := by
    cases initial with
    | none => exact ⟨rfl, rfl⟩
    | some st => exact ⟨(hw st rfl).1.symm, (hw st rfl).2.symm⟩
  obtain ⟨l, l1, l2, l3⟩ := dissectLoop_spec ivf hr 0 hst hd.1 hd.2 fun k hk => by rw [Nat.zero_add]; exact hi.contents k hk
  refine ⟨l, l1, fun k b x s h1 h2 h3 => by simpa using l2 k b x s h1 h2 h3, ?_, fun k hk => ?_⟩
  · unfold dissect
    rw [ho]
    show Except.ok (dissectLoop ivf (2 ^ 64 - 1) ivf.frameCount 0 _) = _
    rw [hi.frameCount, l3, if_pos rfl]
  · unfold dissect
    rw [ho]
    show Except.ok (dissectLoop ivf k ivf.frameCount 0 _) = _
    rw [hi.frameCount, l3, if_neg hk, if_pos (Nat.zero_le k), Nat.sub_zero]

/-- One round of the loop on a frame that a decoder cannot read. -/
theorem dissect_unreadable (ivf : IVF) {st : DecoderState} (hw : ivf.width = st.width) (hh : ivf.height = st.height) {bytes : List UInt8} (hx : readFrame st bytes = none) (i : Nat)
    (hf : ivf.frame i = .ok bytes) (target n : Nat) : ∃ l e, dissectLoop ivf target (n + 1) i st = (l, .exception e) ∧ ∀ s ∈ l, s.number = i ∧ s.contents = none := by
  unfold readFrame at hx
  rw [dissectLoop, hf]
  dsimp only
  rw [hw, hh]
  cases hs : splitFrame bytes st.width st.height false with
  | error e => exact ⟨[], e, rfl, fun s h => by simp at h⟩
  | ok c =>
    rw [hs] at hx
    simp only at hx
    dsimp only
    have hl : ∀ e : FrameError, ∃ l e', (((if target = 2 ^ 64 - 1 ∨ i = target then [{ number := i, key := c.keyFrame, size := bytes.length, contents := none }] else []), DissectEnd.exception e) :
        List DissectSection × DissectEnd) = (l, .exception e') ∧ ∀ s ∈ l, s.number = i ∧ s.contents = none := by
      intro e
      refine ⟨_, e, rfl, fun s h => ?_⟩
      split at h
      · cases List.mem_singleton.1 h
        exact ⟨rfl, rfl⟩
      · simp at h
    split at hx
    next hk =>
      rw [if_pos hk]
      have hd := (applyKey_dims st { width := st.width, height := st.height } rfl rfl c).1
      rcases ha : st.applyKey c with ⟨s, e | p⟩
      · rw [ha] at hd
        rcases hb : ({ width := st.width, height := st.height } : DecoderState).applyKey c with ⟨s', e' | p'⟩
        · exact hl e'
        · rw [hb] at hd; exact nomatch hd
      · rw [ha] at hx; exact nomatch hx
    next hk =>
      rw [if_neg hk]
      rcases ha : st.applyInter c with ⟨s, e | p⟩
      · exact hl e
      · rw [ha] at hx; exact nomatch hx

theorem dissectLoop_success (ivf : IVF) (target : Nat) : ∀ (frames : List (List UInt8)) (i : Nat) (st : DecoderState) (l : List DissectSection), st.Ok → ivf.width = st.width → ivf.height = st.height →
    (∀ k (hk : k < frames.length), ivf.frame (i + k) = .ok frames[k]) → dissectLoop ivf target frames.length i st = (l, .success) → ∃ xs st', ReadsFrames st frames xs st'
  | [], i, st, l, _, _, _, _, _ => ⟨[], st, .nil st⟩
  | bytes :: rest, i, st, l, hst, hw, hh, hf, h => by
    cases hx : readFrame st bytes with
    | none =>
      obtain ⟨l', e, h', -⟩ := dissect_unreadable ivf hw hh hx i (hf 0 (Nat.succ_pos _)) target rest.length
      rw [List.length_cons, h'] at h
      exact nomatch h
    | some z =>
      obtain ⟨st1, x⟩ := z
      obtain ⟨n1, n2, n3⟩ := readFrame_ok hst hx
      obtain ⟨s, s1, s2⟩ := dissect_step ivf hst hw hh hx i (hf 0 (Nat.succ_pos _))
      rw [List.length_cons, s2] at h
      obtain ⟨xs, st', hr⟩ := dissectLoop_success ivf target rest (i + 1) st1 _ n1 (by rw [hw, n2]) (by rw [hh, n3]) (fun k hk => by
        have := hf (k + 1) (by simpa using hk)
        rw [List.getElem_cons_succ] at this
        rw [← this, Nat.add_assoc, Nat.add_comm 1 k]) (Prod.ext rfl (Prod.ext_iff.1 h).2)
      exact ⟨x :: xs, st', .cons hx hr⟩

/-- **C102.**  It ends well only if a decoder can read all frames, also those that are not printed. -/
theorem C102_success (file : List UInt8) (ivf : IVF) (ho : IVF.open file = .ok ivf) (info : IvfInfo) (frames : List (List UInt8)) (hi : ivf.Holds info frames) (initial : Option DecoderState)
    (hst : (initial.getD { width := ivf.width, height := ivf.height }).Ok) (hw : ∀ st, initial = some st → st.width = ivf.width ∧ st.height = ivf.height) (target : Option Nat)
    (l : List DissectSection) (h : dissect initial target file = .ok (l, .success)) :
    ∃ xs st', ReadsFrames (initial.getD { width := ivf.width, height := ivf.height }) frames xs st' := by
  have hd : ivf.width = (initial.getD { width := ivf.width, height := ivf.height }).width ∧ ivf.height = (initial.getD { width := ivf.width, height := ivf.height }).height := by
    cases initial with
    | none => exact ⟨rfl, rfl⟩
    | some st => exact ⟨(hw st rfl).1.symm, (hw st rfl).2.symm⟩
  unfold dissect at h
  rw [ho] at h
  have h : dissectLoop ivf (target.getD (2 ^ 64 - 1)) ivf.frameCount 0 (initial.getD { width := ivf.width, height := ivf.height }) = (l, .success) := Except.ok.inj h
  rw [hi.frameCount] at h
  exact dissectLoop_success ivf _ frames 0 _ l hst hd.1 hd.2 (fun k hk => by rw [Nat.zero_add]; exact hi.contents k hk) h

/-- **C102.**  It never reads past the end of an array of names, whatever is in the file. -/
theorem C102_inside (ivf : IVF) (target : Nat) : ∀ (n i : Nat) (st : DecoderState), st.Ok → ivf.width = st.width → ivf.height = st.height → (dissectLoop ivf target n i st).2 ≠ .outside
  | 0, _, _, _, _, _ => by unfold dissectLoop; simp
  | n + 1, i, st, hst, hw, hh => by
    cases hf : ivf.frame i with
    | error e => rw [dissectLoop, hf]; simp
    | ok bytes =>
      cases hx : readFrame st bytes with
      | none =>
        obtain ⟨l', e, h', -⟩ := dissect_unreadable ivf hw hh hx i hf target n
        rw [h']
        simp
      | some z =>
        obtain ⟨st1, x⟩ := z
        obtain ⟨n1, n2, n3⟩ := readFrame_ok hst hx
        obtain ⟨s, -, s2⟩ := dissect_step ivf hst hw hh hx i hf
        rw [s2]
        exact C102_inside ivf target n (i + 1) st1 n1 (by rw [hw, n2]) (by rw [hh, n3])

/-- **C102.**  The names are those of the modes: two modes never have one name. -/
theorem C102_names : mbNamed.map Prod.snd = mbmodeNames ∧ bNamed.map Prod.snd = bmodeNames ∧ mbmodeNames.Nodup ∧ bmodeNames.Nodup ∧ referenceNames.Nodup := by decide +kernel

/-- The number that stands for no number: all frames are printed, though no file has a frame with it. -/
theorem C102_no_number (initial : Option DecoderState) (file : List UInt8) : dissect initial (some (2 ^ 64 - 1)) file = dissect initial none file := rfl

/-- There is a file with a key frame and an inter frame, of 17 by 20 pixels, that meets the hypotheses: the second section is that of the inter frame, with its four macroblocks, the last of which is predicted from
the alternate reference. -/
example : ∃ (file : List UInt8) (s : DissectSection) (p : ParsedFrame InterFrameHeader) (l : List MBText) (t : MBText), dissect none (some 1) file = .ok ([s], .success) ∧ s.number = 1 ∧ s.key = false ∧
    s.contents = some (.inter p l) ∧ l[3]? = some t ∧ t.yMode = "ZEROMV" ∧ t.motion = some ({}, "ALTREF_FRAME") := by
  obtain ⟨bytes, picture, info, frames, ivf, read, st, h1, -, h3, h4, h5, ⟨y, ids, rfl⟩, h7, h8, -, -⟩ := zeroOut_example exampleInterFrameZ exampleInterFrameZ_ok rfl rfl
  have hw : ivf.width = 17 := h3.width.trans h7
  have hh : ivf.height = 20 := h3.height.trans h8
  have hst : ({ width := ivf.width, height := ivf.height } : DecoderState).Ok := by
    rw [hw, hh]
    exact ⟨by decide, by decide, (fun _ h => nomatch h), (fun _ h => nomatch h)⟩
  have hr : ReadsFrames ((none : Option DecoderState).getD { width := ivf.width, height := ivf.height }) frames [y, .inter ⟨exampleInterFrameZ, ids⟩] st := by
    rw [hw, hh]
    rw [h7, h8] at h5
    exact h5
  obtain ⟨l, l1, l2, -, l4⟩ := C102_sections bytes ivf h1 info frames h3 none hst (fun _ h => nomatch h) _ st hr
  have hlen : l.length = 2 := l1.trans h4
  have e1 : l[1]? = some l[1] := List.getElem?_eq_getElem (by omega)
  have e2 : frames[1]? = some frames[1] := List.getElem?_eq_getElem (by omega)
  have ho := l2 1 _ _ _ e2 rfl e1
  obtain ⟨d, d1, d2⟩ := ho.contents
  cases d2 with
  | @inter p ts hts =>
    have hl : ts.length = 4 := hts.length_eq
    have hsay : Says ts[3] { skip := some false, isInter := true, sel1 := some true, sel2 := some true, yMode := ZEROMV } := (List.forall₂_iff_get.1 hts).2 3 (by omega) (show 3 < exampleInterFrameZ.modes.length by decide)
    refine ⟨bytes, l[1], _, ts, ts[3], ?_, ho.number, ?_, d1, List.getElem?_eq_getElem (by omega), ?_, hsay.motion⟩
    · rw [l4 1 (by decide), e1]
      rfl
    · cases hk : l[1].key with
      | false => rfl
      | true =>
        obtain ⟨q, hq⟩ := ho.key.1 hk
        exact nomatch hq
    · have := hsay.yMode
      simpa [mbNamed] using this

end Alfalfa
