import Verif.Spec.Convert
import Verif.Props.Faithful
import Verif.Props.Beginning
import Verif.Props.Player
import Verif.Props.Y4m

/-! C78: from file to file. -/

namespace Alfalfa
open FidelitySpec QuantizerSpec

/-- What the encoder takes from outside the model is of the right kind, and a second pass keeps the types of the macroblocks. -/
structure Inside.Ok (width height : Nat) (i : Inside) : Prop where
  trials : ∀ q, (i.trials q).Ok width height
  work : i.work.Ok width height
  kept : i.work.key.TypesKept

theorem ask_ok {Q : Type} {mode : XcEncMode Q} (hm : mode.Ok) {inside : Nat → Inside} {width height : Nat} (hi : ∀ k, (inside k).Ok width height) (k : Nat)
    {x : Raster} (hx : x.Ok width height) : (mode.ask inside k x).Ok width height ∧ (mode.ask inside k x).last = (inside k).work ∧ (mode.ask inside k x).picture = x := by
  cases mode with
  | minimumSsim m => exact ⟨⟨hx, (hi k).trials, (hi k).work⟩, rfl, rfl⟩
  | constantQuantizer qi => exact ⟨⟨hx, hm, (hi k).work⟩, rfl, rfl⟩
  | targetFrameSize sizes => exact ⟨⟨hx, (hi k).work⟩, rfl, rfl⟩

theorem ask_mayUse {Q : Type} [LinearOrder Q] {zero : Q} {mode : XcEncMode Q} {inside : Nat → Inside} {k : Nat} {x : Raster} {i : Nat}
    {last : Option Nat} (h : (mode.ask inside k x).MayUse zero last i) : mode.MayUse zero inside k last i := by
  cases mode with
  | minimumSsim m => exact h
  | constantQuantizer qi => exact h
  | targetFrameSize sizes =>
    intro size hs
    have : nextFrameSize sizes k = size := by
      unfold nextFrameSize
      rcases hs with hs | ⟨h1, h2⟩
      · rw [hs]; rfl
      · rw [List.getElem?_eq_none h1, h2]; rfl
    rw [← this]
    exact h

/-! ### What every call ends in -/

/-- Any call that succeeds ends in the encoding of a key frame or of an inter frame. -/
theorem call_finish {Q : Type} [LinearOrder Q] (M : Meter Q) {width height : Nat} (hf : Fits width height) {s : Session} (hs : s.Ready width height)
    (hu : s.hasState = true → s.Underway width height) {c : Call Q} (hc : c.Ok width height) {s' : Session} {bytes : List UInt8}
    {shown : Raster} (h : s.call codeRenderer M c = .ok (s', bytes, shown)) :
    ∃ (t : Session) (w : Work) (o : Raster) (i : Nat), w.Ok width height ∧ o.Ok width height ∧ i ≤ 127 ∧
      (s.hasState = true ∧ t.Underway width height ∧ t.finishInter codeRenderer w o i = some (s', bytes, shown) ∨
       s.hasState = false ∧ t.Ready width height ∧ t.finishKey codeRenderer w o i = some (s', bytes, shown)) := by
  have hle := Call.index_le M.zero hs.last hc
  have hs' : Session.Ready width height { s with hasState := true } := ⟨hs.wide, hs.high, hs.key, hs.inter, hs.last⟩
  have one : ∀ {o : Raster} {w : Work} {qi : Nat}, o.Ok width height → w.Ok width height → qi ≤ 127 → s.encodeWithQuantizer codeRenderer w o qi = .ok (s', bytes, shown) →
      ∃ (t : Session) (w : Work) (o : Raster) (i : Nat), w.Ok width height ∧ o.Ok width height ∧ i ≤ 127 ∧
      (s.hasState = true ∧ t.Underway width height ∧ t.finishInter codeRenderer w o i = some (s', bytes, shown) ∨
       s.hasState = false ∧ t.Ready width height ∧ t.finishKey codeRenderer w o i = some (s', bytes, shown)) := by
    intro o w qi ho hw hq h
    unfold Session.encodeWithQuantizer at h
    rw [hs.fits ho, Bool.not_true, if_neg Bool.false_ne_true] at h
    by_cases hn : s.hasState = true
    · rw [if_pos hn] at h
      cases hx : s.finishInter codeRenderer w o qi with
      | none => rw [hx] at h; exact nomatch h
      | some x =>
        rw [hx] at h
        injection h with h
        rw [h] at hx
        exact ⟨s, w, o, qi, hw, ho, hq, .inl ⟨hn, hu hn, hx⟩⟩
    · rw [if_neg hn] at h
      cases hx : ({ s with hasState := true } : Session).finishKey codeRenderer w o qi with
      | none => rw [hx] at h; exact nomatch h
      | some x =>
        rw [hx] at h
        injection h with h
        rw [h] at hx
        exact ⟨_, w, o, qi, hw, ho, hq, .inr ⟨by simpa using hn, hs', hx⟩⟩
  cases c with
  | quantizer o qi w => exact one hc.1 hc.2.2 hle h
  | target o size estimate w =>
    change s.encodeWithTarget codeRenderer estimate w o size = _ at h
    unfold Session.encodeWithTarget at h
    rw [hs.fits hc.1, Bool.not_true, if_neg Bool.false_ne_true] at h
    exact one hc.1 hc.2 hle h
  | minimum o m work last =>
    change s.encodeWithMinimum codeRenderer M work last o m = _ at h
    by_cases hn : s.hasState = true
    · obtain ⟨s1, l1, l2, l3, l4⟩ := searchLoop_ok (trial := Session.trialInter M work o) (z := M.zero)
        (P := fun t => t.Underway width height ∧ t.hasState = true ∧ t.encoder = s.encoder)
        (fun t q h hq => trialInter_ok M hf h (hc.2.1 q) hc.1 hq) m 0 127 (by decide) false 0 s ⟨hu hn, hn, rfl⟩
      rw [unmeasuredLoop] at l1
      obtain ⟨s2, bytes2, shown2, k1, -⟩ := finishInter_ok hf l2 hc.2.2 hc.1 hle
      have := minimum_later (hs.fits hc.1) hn l1 k1
      rw [h] at this
      injection this with this
      cases this
      exact ⟨_, _, _, _, hc.2.2, hc.1, hle, .inl ⟨hn, l2, k1⟩⟩
    · have hn : s.hasState = false := by simpa using hn
      obtain ⟨s1, l1, l2, l3⟩ := searchLoop_ok (trial := Session.trialKey M work o) (z := M.zero) (P := fun s => s.Ready width height ∧ s.hasState = true)
        (fun s q h hq => trialKey_ok M hf h (hc.2.1 q) hc.1 hq) m 0 127 (by decide) false 0 { s with hasState := true } ⟨hs', rfl⟩
      rw [unmeasuredLoop] at l1
      obtain ⟨s2, bytes2, shown2, k1, -⟩ := finishKey_ok hf l2 hc.2.2 hc.1 hle
      have := minimum_first (hs.fits hc.1) hn l1 k1
      rw [h] at this
      injection this with this
      cases this
      exact ⟨_, _, _, _, hc.2.2, hc.1, hle, .inr ⟨hn, l2, k1⟩⟩

theorem finishKey_key {width height : Nat} (hf : Fits width height) {s : Session} (hs : s.Ready width height) {w : Work} (hw : w.Ok width height) {o : Raster}
    (ho : o.Ok width height) {qi : Nat} (hq : qi ≤ 127) {x : Session × List UInt8 × Raster} (h : s.finishKey codeRenderer w o qi = some x) :
    ∃ c, splitFrame x.2.1 width height false = .ok c ∧ c.keyFrame = true := by
  obtain ⟨f, shown, r1, r2, r3, r4, r5, r6, r7, r8, em, r9⟩ := rasterKey_ok hf hs hw ho hq
  have em := em _ hs.wide hs.high
  unfold Session.finishKey Session.writeKey at h
  rw [r8 false] at h
  obtain ⟨y, k1, k2⟩ := Option.bind_eq_some_iff.1 h
  cases k1
  obtain ⟨z, k3, k4⟩ := Option.bind_eq_some_iff.1 k2
  obtain ⟨u, k5, k6⟩ := Option.bind_eq_some_iff.1 k3
  cases k6
  cases k4
  obtain ⟨e', bytes⟩ := u
  obtain ⟨b, parts, d, h1, h2, h3, -, h5, h6, -⟩ := parse_serialized keyKind_lawful em.ok {} em.first em.tokens
  have htab : keyKind.tables (s.encoder.updateStateKey f.header).tables f.header = keyKind.tables {} f.header := by
    unfold Encoder.updateStateKey
    by_cases hr : f.header.refreshEntropyProbs = true
    · rw [if_pos hr]; exact keyTables_idem _ _
    · rw [if_neg hr]; rfl
  unfold Encoder.writeKey at k5
  obtain ⟨b', k1, k2⟩ := Option.bind_eq_some_iff.1 k5
  change keyKind.serialize (s.encoder.updateStateKey f.header).tables f = some b' at k1
  rw [serialize_congr _ htab, h1] at k1
  cases k1
  cases k2
  rw [r6, r7] at h2
  exact ⟨parts, h2, h3⟩

/-- All frames of a session can be put in a file. -/
theorem laterCalls_encoded {Q : Type} [LinearOrder Q] (M : Meter Q) {width height : Nat} (hf : Fits width height) : ∀ {calls : List (Call Q)} {s s' : Session}
    {frames : List (List UInt8 × Raster)}, s.Underway width height → s.hasState = true → (∀ c ∈ calls, c.Ok width height) →
    s.calls codeRenderer M calls = .ok (s', frames) → ∀ x ∈ frames, EncodedFrame width height x.1
  | [], s, s', frames, hs, hn, _, h => by cases h; exact fun _ h => nomatch h
  | c :: rest, s, s', frames, hs, hn, hc, h => by
    obtain ⟨s1, bytes, shown, k1, k2, k3, -⟩ := laterCall M hf hs hn (hc c (List.mem_cons_self ..))
    unfold Session.calls at h
    rw [k1] at h
    change (Session.calls codeRenderer M s1 rest).bind _ = _ at h
    cases hr : Session.calls codeRenderer M s1 rest with
    | error e => rw [hr] at h; exact nomatch h
    | ok x =>
      rw [hr] at h
      cases h
      intro y hy
      rcases List.mem_cons.1 hy with rfl | hy
      · obtain ⟨t, w, o, i, hw, ho, hi, ⟨-, ht, h⟩ | ⟨h0, -⟩⟩ := call_finish M hf hs.toReady (fun _ => hs) (hc c (List.mem_cons_self ..)) k1
        · exact finishInter_one hf ht hw ho hi h
        · rw [hn] at h0; exact nomatch h0
      · exact laterCalls_encoded M hf k3 k2 (fun c h => hc c (List.mem_cons_of_mem _ h)) hr y hy

/-- The same from the beginning, where the first frame is a key frame. -/
theorem calls_encoded {Q : Type} [LinearOrder Q] (M : Meter Q) {width height : Nat} (hf : Fits width height) {calls : List (Call Q)} {s s' : Session}
    {frames : List (List UInt8 × Raster)} (hs : s.Ready width height) (hn : s.hasState = false) (hc : ∀ c ∈ calls, c.Ok width height)
    (h : s.calls codeRenderer M calls = .ok (s', frames)) : (∀ x ∈ frames, EncodedFrame width height x.1) ∧
    ∀ x, frames.head? = some x → ∃ c, splitFrame x.1 width height false = .ok c ∧ c.keyFrame = true := by
  cases calls with
  | nil => cases h; exact ⟨fun _ h => (nomatch h), fun _ h => (nomatch h)⟩
  | cons c rest =>
    obtain ⟨s1, bytes, shown, k1, k2, k3, -⟩ := firstCall M hf hs hn (hc c (List.mem_cons_self ..))
    unfold Session.calls at h
    rw [k1] at h
    change (Session.calls codeRenderer M s1 rest).bind _ = _ at h
    cases hr : Session.calls codeRenderer M s1 rest with
    | error e => rw [hr] at h; exact nomatch h
    | ok x =>
      rw [hr] at h
      cases h
      obtain ⟨t, w, o, i, hw, ho, hi, ⟨h0, -⟩ | ⟨-, ht, h⟩⟩ := call_finish M hf hs (fun h => by rw [hn] at h; exact nomatch h) (hc c (List.mem_cons_self ..)) k1
      · rw [hn] at h0; exact nomatch h0
      refine ⟨fun y hy => ?_, fun y hy => ?_⟩
      · rcases List.mem_cons.1 hy with rfl | hy
        · exact finishKey_one hf ht hw ho hi h
        · exact laterCalls_encoded M hf k3 k2 (fun c h => hc c (List.mem_cons_of_mem _ h)) hr y hy
      · cases hy
        exact finishKey_key hf ht hw ho hi h

/-! ### The loop -/

/-- The calls for the pictures, from the `k`-th on. -/
def XcEncMode.asks {Q : Type} (mode : XcEncMode Q) (inside : Nat → Inside) : Nat → List Raster → List (Call Q)
  | _, [] => []
  | k, x :: xs => mode.ask inside k x :: mode.asks inside (k + 1) xs

theorem xcEncLoop_spec {σ Q : Type} [LinearOrder Q] {next : σ → Except XcEncError (Option Raster × σ)} {R : Renderer} {M : Meter Q} {mode : XcEncMode Q}
    {inside : Nat → Inside} {info : IvfInfo} (hfour : info.fourcc.length = 4) {i : σ} {xs : List Raster} (h : Gives next i xs) :
    ∀ {n k : Nat} {s s' : Session} {w : IVFWriter} {written : List (List UInt8)} {frames : List (List UInt8 × Raster)}, xs.length < n →
      s.calls R M (mode.asks inside k xs) = .ok (s', frames) → w.Wrote info written → written.length + xs.length < 2 ^ 32 →
      ∃ w', xcEncLoop next R M mode inside n i k s w = .ok w' ∧ w'.Wrote info (written ++ frames.map (·.1)) := by
  induction h with
  | done h =>
    intro n k s s' w written frames hn hc hw _
    cases hc
    obtain ⟨n, rfl⟩ := Nat.exists_eq_succ_of_ne_zero (Nat.ne_of_gt hn)
    refine ⟨w, ?_, by rw [List.map_nil, List.append_nil]; exact hw⟩
    rw [xcEncLoop, h]
  | @more i i' x xs h _ ih =>
    intro n k s s' w written frames hn hc hw hl
    obtain ⟨n, rfl⟩ := Nat.exists_eq_succ_of_ne_zero (Nat.ne_of_gt (Nat.lt_of_le_of_lt (Nat.zero_le _) hn))
    rw [List.length_cons] at hn hl
    unfold XcEncMode.asks Session.calls at hc
    cases h1 : s.call R M (mode.ask inside k x) with
    | error e => rw [h1] at hc; exact nomatch hc
    | ok y =>
      obtain ⟨s1, bytes, shown⟩ := y
      rw [h1] at hc
      change (Session.calls R M s1 _).bind _ = _ at hc
      cases h2 : Session.calls R M s1 (mode.asks inside (k + 1) xs) with
      | error e => rw [h2] at hc; exact nomatch hc
      | ok z =>
        rw [h2] at hc
        cases hc
        obtain ⟨w1, a1, a2⟩ := hw.append hfour (by omega) bytes
        obtain ⟨w', b1, b2⟩ := ih (n := n) (by omega) h2 a2 (by rw [List.length_append, List.length_singleton]; omega)
        refine ⟨w', ?_, by rw [List.map_cons]; rw [List.append_assoc] at b2; exact b2⟩
        rw [xcEncLoop, h]
        dsimp only
        rw [h1]
        dsimp only
        rw [a1]
        exact b1

theorem asks_get {Q : Type} (mode : XcEncMode Q) (inside : Nat → Inside) : ∀ (xs : List Raster) (k : Nat),
    (mode.asks inside k xs).length = xs.length ∧ ∀ (j : Nat) (x : Raster), xs[j]? = some x → (mode.asks inside k xs)[j]? = some (mode.ask inside (k + j) x)
  | [], _ => ⟨rfl, fun j x h => by simp at h⟩
  | y :: xs, k => by
    obtain ⟨h1, h2⟩ := asks_get mode inside xs (k + 1)
    refine ⟨by unfold XcEncMode.asks; rw [List.length_cons, List.length_cons, h1], fun j x hj => ?_⟩
    cases j with
    | zero => cases hj; rfl
    | succ j => rw [show k + (j + 1) = k + 1 + j by omega]; exact h2 j x hj

theorem asks_mem {Q : Type} {mode : XcEncMode Q} {inside : Nat → Inside} {c : Call Q} : ∀ {xs : List Raster} {k : Nat}, c ∈ mode.asks inside k xs →
    ∃ j, ∃ x ∈ xs, c = mode.ask inside j x
  | [], _, h => nomatch h
  | y :: xs, k, h => by
    rcases List.mem_cons.1 h with rfl | h
    · exact ⟨k, y, List.mem_cons_self .., rfl⟩
    · obtain ⟨j, x, h1, h2⟩ := asks_mem h
      exact ⟨j, x, List.mem_cons_of_mem _ h1, h2⟩

/-! ### Pictures that come out of a decoder -/

theorem output_ok (R : Renderer) (hR : R.Ok) (d : Decoder) (hd : d.Ok) (bytes : List UInt8) {shown : Bool} {x : Raster}
    (h : (d.getFrameOutput R bytes).2 = .ok (shown, x)) : x.Ok d.state.width d.state.height := by
  rcases output_cases R d bytes with ⟨e', -, ho⟩ | ⟨c, hs, ⟨hk, st, e', ha, ho⟩ | ⟨hk, st, f, ha, ho⟩ | ⟨hk, hx, st, e', ha, ho⟩ | ⟨hk, hx, st, f, ha, ho⟩ | ⟨-, -, ho⟩⟩
  · rw [ho] at h; exact nomatch h
  · rw [ho] at h; exact nomatch h
  · have h1 := C12_key_frame_total d.state hd.state c
    rw [ha] at h1
    obtain ⟨h1, h4⟩ := h1
    have h5 : f.frame.width = d.state.width ∧ f.frame.height = d.state.height := by
      rcases h4 with ⟨h4, -⟩ | h4 | h4 | ⟨p, h4, -, h5, h6, -⟩
      · exact nomatch h4
      · exact nomatch h4
      · exact nomatch h4
      · injection h4 with h4; subst h4; exact ⟨h5, h6⟩
    have h6 := hR.key st.segmentation st.filterAdjustments f
    rw [h5.1, h5.2] at h6
    rw [output_key hs hk ha] at h
    cases h
    exact h6
  · rw [ho] at h; exact nomatch h
  · have h1 := C12_inter_frame_total d.state hd.state c
    rw [ha] at h1
    obtain ⟨h1, h4⟩ := h1
    have h5 : f.frame.width = d.state.width ∧ f.frame.height = d.state.height := by
      rcases h4 with h4 | h4 | ⟨p, h4, -, h5, h6, -⟩
      · exact nomatch h4
      · exact nomatch h4
      · injection h4 with h4; subst h4; exact ⟨h5, h6⟩
    have h6 := hR.inter st.segmentation st.filterAdjustments d.references f
    rw [h5.1, h5.2] at h6
    rw [output_inter hs hk hx ha] at h
    cases h
    exact h6
  · rw [ho] at h; exact nomatch h

theorem run_ok (R : Renderer) (hR : R.Ok) : ∀ (frames : List (List UInt8)) (d : Decoder), d.Ok → ∀ shown x, .ok (shown, x) ∈ (d.run R frames).2 →
    x.Ok d.state.width d.state.height
  | [], _, _, _, _, h => nomatch h
  | b :: bs, d, hd, shown, x, h => by
    obtain ⟨h1, h2, h3, -⟩ := C18_rejected_frame_leaves_usable R hR d hd b
    rcases List.mem_cons.1 h with h | h
    · exact output_ok R hR d hd b h.symm
    · have := run_ok R hR bs _ h1 shown x h
      rwa [h2, h3] at this

/-! ### Any input -/

theorem run_length (R : Renderer) : ∀ (frames : List (List UInt8)) (d : Decoder), (d.run R frames).2.length = frames.length
  | [], _ => rfl
  | _ :: bs, _ => congrArg (· + 1) (run_length R bs _)

theorem forall₂_get {α β : Type} {P : α → β → Prop} {a : List α} {b : List β} (h : List.Forall₂ P a b) :
    ∀ {k : Nat} {x : α} {y : β}, a[k]? = some x → b[k]? = some y → P x y := by
  induction h with
  | nil => intro k x y h; simp at h
  | cons h _ ih =>
    intro k x y h1 h2
    cases k with
    | zero => cases h1; cases h2; exact h
    | succ k => exact ih h1 h2

/-- **C78**, for any input that gives pictures of one size: encoding ends well, and the file that is written, played with any fresh memory, shows as many
pictures as were given, each near the one given. -/
theorem converted {σ Q : Type} [LinearOrder Q] (M : Meter Q) {width height : Nat} (hf : Fits width height) (hbig : 4 ≤ width ∧ 4 ≤ height)
    {next : σ → Except XcEncError (Option Raster × σ)} {mode : XcEncMode Q} (hm : mode.Ok) {inside : Nat → Inside} (hi : ∀ k, (inside k).Ok width height)
    (realtime : Bool) (references : References) {rounds : Nat} {i : σ} {xs : List Raster} (h : Gives next i xs) (hx : ∀ x ∈ xs, x.Ok width height)
    (hr : xs.length < rounds) (hl : xs.length < 2 ^ 32) :
    ∃ (file : List UInt8) (shown : List Raster) (indices : List Nat), xcEncFrom next codeRenderer M mode inside realtime references rounds width height i = .ok file ∧
      (∃ ivf, IVF.open file = .ok ivf ∧ ivf.width = width ∧ ivf.height = height ∧ ivf.frameCount = xs.length) ∧
      (∀ fresh, vp8decode codeRenderer fresh file = (shown, none)) ∧ shown.length = xs.length ∧
      indices.length = xs.length ∧ ∀ (k : Nat) (x y : Raster), xs[k]? = some x → shown[k]? = some y → y.Ok width height ∧ ∃ q, indices[k]? = some q ∧ q ≤ 127 ∧
        mode.MayUse M.zero inside k (indexBefore realtime indices k) q ∧ FaithfulIn (k == 0 && (inside k).work.twoPasses) q x y := by
  have hdim : ¬ (macroblockDimension (width / 4) = 0 ∨ macroblockDimension (height / 4) = 0) := by
    unfold macroblockDimension
    omega
  obtain ⟨s, hcreate, hready, hnew⟩ : ∃ s, Session.create width height realtime references = some s ∧ s.Ready width height ∧ s.hasState = false := by
    unfold Session.create
    rw [if_neg hdim]
    exact ⟨_, rfl, ⟨rfl, rfl, emptyKeyHeader_reusable, emptyInterHeader_reusable, fun _ h => nomatch h⟩, rfl⟩
  have hc : ∀ c ∈ mode.asks inside 0 xs, c.Ok width height ∧ c.last.key.TypesKept := by
    intro c h
    obtain ⟨j, x, h1, rfl⟩ := asks_mem h
    obtain ⟨h2, h3, -⟩ := ask_ok hm hi j (hx x h1)
    exact ⟨h2, h3 ▸ (hi j).kept⟩
  let blank := blankRaster width height
  obtain ⟨s', frames, shown, indices, c1, c2, c3, c4, c5⟩ := C77_calls M hf emptyKeyHeader_reusable emptyInterHeader_reusable hcreate hc
    (d := Decoder.new ⟨blank, blank, blank⟩ width height) rfl rfl
  obtain ⟨e1, e2⟩ := calls_encoded M hf hready hnew (fun c h => (hc c h).1) c1
  obtain ⟨w, w1, w2⟩ := create_wrote vp80 width height 1 1 rfl
  obtain ⟨w', l1, l2⟩ := xcEncLoop_spec (R := codeRenderer) rfl h hr c1 w2 (by rw [List.length_nil]; omega)
  rw [List.nil_append] at l2
  have hlen : frames.length = xs.length := by
    have := c4
    rw [(asks_get mode inside xs 0).1] at this
    have h2 := congrArg List.length c2
    rw [run_length, List.length_map, List.length_map] at h2
    omega
  obtain ⟨ivf, o1, o2⟩ := C33_reads_layout ⟨vp80, width, height, 1, 1, 0⟩
    ⟨rfl, by have := hf.wide.2; show width < _; omega, by have := hf.high.2; show height < _; omega, by show 1 < 2 ^ 32; decide, by show 1 < 2 ^ 32; decide, by show 0 < 2 ^ 32; decide⟩ (frames.map (·.1))
    (by rw [List.length_map]; omega) (fun f hfm => by
      obtain ⟨x, x1, rfl⟩ := List.mem_map.1 hfm
      have := (e1 x x1).small
      have h3 := hf.macroblocks
      change (width + 15) / 16 * ((height + 15) / 16) ≤ 14400 at h3
      change _ ≤ 4194408 + 50975 * ((width + 15) / 16 * ((height + 15) / 16)) at this
      generalize (width + 15) / 16 * ((height + 15) / 16) = n at this h3
      omega) []
  rw [List.append_nil, ← l2.file] at o1
  refine ⟨w'.file, shown, indices, ?_, ⟨ivf, o1, o2.width, o2.height, by rw [o2.frameCount, List.length_map, hlen]⟩, ?_, ?_, ?_, ?_⟩
  · unfold xcEncFrom
    rw [w1]
    dsimp only
    rw [hcreate]
    dsimp only
    rw [l1]
  · have := C55_playback codeRenderer ⟨blank, blank, blank⟩ w'.file ivf o1 _ [] (frames.map (·.1)) o2 (show vp80 = _ by decide +kernel) (fun _ h => nomatch h) (fun f hfm => by
      rw [List.head?_map] at hfm
      obtain ⟨x, x1, rfl⟩ := Option.map_eq_some_iff.1 hfm
      obtain ⟨c, s1, s2⟩ := e2 x x1
      rw [o2.width, o2.height]
      refine ⟨?_, c, s1⟩
      obtain ⟨b, tl, b1, b2, -⟩ := C11_accepted_frame_start _ _ _ _ s1
      refine ⟨b, by rw [b1]; rfl, ?_⟩
      rw [s2] at b2
      simpa using b2.symm)
    intro fresh
    rw [this.2 fresh, this.1]
    dsimp only
    rw [c2, show shown.map (fun x => Except.ok (ε := FrameError) (true, x)) = (shown.map (fun x => (true, x))).map .ok by rw [List.map_map]; rfl,
      C55_reel_of_sound_stream _ (fun x hxm => by
        obtain ⟨y, -, rfl⟩ := List.mem_map.1 (List.mem_of_getLast? hxm)
        rfl)]
    rw [List.filter_eq_self.2 (fun x hxm => by
        obtain ⟨y, -, rfl⟩ := List.mem_map.1 hxm
        rfl), List.map_map]
    simp
  · rw [c4, (asks_get mode inside xs 0).1]
  · rw [c3, (asks_get mode inside xs 0).1]
  · intro k x y hxk hyk
    have hcall := (asks_get mode inside xs 0).2 k x hxk
    rw [Nat.zero_add] at hcall
    have hxm : x ∈ xs := List.mem_of_getElem? hxk
    obtain ⟨q, q0, q1, q2, q3⟩ := c5 k _ _ hcall hyk
    rw [(ask_ok hm hi k (hx x hxm)).2.2, (ask_ok hm hi k (hx x hxm)).2.1] at q3
    refine ⟨?_, q, q0, q1, ask_mayUse q2, q3⟩
    refine run_ok codeRenderer C63_renderer (frames.map (·.1)) (Decoder.new ⟨blank, blank, blank⟩ width height) ?_ true y ?_
    · exact ⟨⟨hf.wide, hf.high, fun _ h => (nomatch h), fun _ h => (nomatch h)⟩, blank_ok _ _, blank_ok _ _, blank_ok _ _⟩
    · rw [c2]
      exact List.mem_map.2 ⟨y, List.mem_of_getElem? hyk, rfl⟩

/-! ### Raw video -/

/-- The bytes of a picture. -/
structure RawHolds (w h : Nat) (f : List UInt8) (x : Raster) : Prop where
  y : ∀ u v, u < w → v < h → x.y.px u v = f.getD (v * w + u) 0
  u : ∀ u v, u < w / 2 → v < h / 2 → x.u.px u v = f.getD (h * w + (v * (w / 2) + u)) 0
  v : ∀ u v, u < w / 2 → v < h / 2 → x.v.px u v = f.getD (h * w + h / 2 * (w / 2) + (v * (w / 2) + u)) 0

theorem position_lt {w h u v : Nat} (hu : u < w) (hv : v < h) : v * w + u < h * w := by
  have : (v + 1) * w ≤ h * w := Nat.mul_le_mul_right _ hv
  rw [Nat.add_mul, Nat.one_mul] at this
  omega

theorem frame_line (f tail : List UInt8) : splitLine (ascii "FRAME\n" ++ f ++ tail) = (ascii "FRAME", f ++ tail, false) := by
  rw [frame_text.1]
  simp only [List.append_assoc, List.singleton_append, List.cons_append]
  exact splitLine_line _ _ frame_text.2

theorem y4m_next {w h : Nat} (hw : 0 < w ∧ w ≤ 65520) (hh : 0 < h ∧ h ≤ 65520) (even : w % 2 = 0 ∧ h % 2 = 0) {header : Y4MHeader}
    (hdr : header.width = w ∧ header.height = h) {old : Raster} (ho : old.Ok w h) {f : List UInt8} (hf : f.length = rawSize w h) (tail : List UInt8) :
    ∃ x, Y4MReader.nextFrame { header, input := { rest := ascii "FRAME\n" ++ f ++ tail } } (some old) =
      .ok (some x, { header, input := { rest := tail } }) ∧ x.Ok w h ∧ RawHolds w h f x := by
  have hs := frame_line f tail
  unfold rawSize at hf
  have e1 : (1 + w) / 2 = w / 2 := by omega
  have e2 : (1 + h) / 2 = h / 2 := by omega
  rcases C51_next_frame { header, input := { rest := ascii "FRAME\n" ++ f ++ tail } } hw hh hdr old ho with
    ⟨-, h1 | ⟨rest, h1, h2⟩⟩ | ⟨-, h1⟩ | ⟨-, h1⟩ | ⟨rest, x, h1, h2, h3, h4, h5, h6, h7⟩
  · exact nomatch h1
  · rw [hs] at h1
    cases h1
    rw [List.length_append] at h2
    omega
  · rw [hs] at h1; exact absurd rfl h1
  · rw [hs] at h1; exact nomatch h1
  · rw [hs] at h1
    cases h1
    refine ⟨x, ?_, h4, ?_, ?_, ?_⟩
    · rw [h3, ← hf, List.drop_left]
    · intro u v hu hv
      have hp := position_lt hu hv
      rw [h5 u v (by rw [ho.yWidth]; omega) (by rw [ho.yHeight]; omega)]
      unfold fromBytes
      rw [show min v (h - 1) = v by omega, show min u (w - 1) = u by omega, if_pos ⟨hv, hu⟩, List.getD_append _ _ _ _ (by omega)]
    · intro u v hu hv
      have hp := position_lt hu hv
      rw [h6 u v (by rw [ho.uWidth]; omega) (by rw [ho.uHeight]; omega), e1, e2]
      unfold fromBytes
      rw [show min v (h / 2 - 1) = v by omega, show min u (w / 2 - 1) = u by omega, if_pos ⟨hv, hu⟩]
      simp only [List.getD_eq_getElem?_getD, List.getElem?_drop]
      rw [List.getElem?_append_left (by omega)]
    · intro u v hu hv
      have hp := position_lt hu hv
      rw [h7 u v (by rw [ho.vWidth]; omega) (by rw [ho.vHeight]; omega), e1, e2]
      unfold fromBytes
      rw [show min v (h / 2 - 1) = v by omega, show min u (w / 2 - 1) = u by omega, if_pos ⟨hv, hu⟩]
      simp only [List.getD_eq_getElem?_getD, List.getElem?_drop]
      rw [List.getElem?_append_left (by omega)]

theorem y4m_gives {w h : Nat} (hw : 0 < w ∧ w ≤ 65520) (hh : 0 < h ∧ h ≤ 65520) (even : w % 2 = 0 ∧ h % 2 = 0) {header : Y4MHeader}
    (hdr : header.width = w ∧ header.height = h) : ∀ {frames : List (List UInt8)} {pool : List Raster}, (∀ f ∈ frames, f.length = rawSize w h) →
    (∀ x ∈ pool, x.Ok w h) → frames.length < pool.length →
    ∃ xs, Gives y4mInput ({ header, input := { rest := frames.flatMap (ascii "FRAME\n" ++ ·) } }, pool.map some) xs ∧
      List.Forall₂ (fun f x => x.Ok w h ∧ RawHolds w h f x) frames xs
  | [], old :: pool, _, hp, _ => ⟨[], .done (i' := ({ header, input := { rest := [], ended := true } }, pool.map some)) rfl, .nil⟩
  | f :: frames, old :: pool, hf, hp, hl => by
    obtain ⟨xs, g1, g2⟩ := y4m_gives hw hh even hdr (fun g hg => hf g (List.mem_cons_of_mem _ hg)) (fun x hx => hp x (List.mem_cons_of_mem _ hx))
      (Nat.lt_of_succ_lt_succ hl)
    obtain ⟨x, x1, x2, x3⟩ := y4m_next hw hh even hdr (hp old (List.mem_cons_self ..)) (hf f (List.mem_cons_self ..)) (frames.flatMap (ascii "FRAME\n" ++ ·))
    refine ⟨x :: xs, .more (i' := ({ header, input := { rest := frames.flatMap (ascii "FRAME\n" ++ ·) } }, pool.map some)) ?_ g1, .cons ⟨x2, x3⟩ g2⟩
    show y4mInput (_, some old :: pool.map some) = _
    unfold y4mInput
    dsimp only
    rw [List.flatMap_cons, x1]

/-- The bytes that are written for a picture. -/
theorem y4m_written {w h : Nat} (hw : 0 < w ∧ w ≤ 65520) (hh : 0 < h ∧ h ≤ 65520) (even : w % 2 = 0 ∧ h % 2 = 0) {x : Raster} (hx : x.Ok w h) :
    ∃ g, y4mFrame x = ascii "FRAME\n" ++ g ∧ g.length = rawSize w h ∧ RawHolds w h g x := by
  obtain ⟨sy, su, sv⟩ := ok_planes hw hh hx
  have e1 : (1 + w) / 2 = w / 2 := by omega
  have e2 : (1 + h) / 2 = h / 2 := by omega
  obtain ⟨ly, py⟩ := displayed_spec sy (dw := w) (dh := h) (by omega) (by omega)
  obtain ⟨lu, pu⟩ := displayed_spec su (dw := w / 2) (dh := h / 2) (by omega) (by omega)
  obtain ⟨lv, pv⟩ := displayed_spec sv (dw := w / 2) (dh := h / 2) (by omega) (by omega)
  refine ⟨x.y.displayed w h ++ (x.u.displayed (w / 2) (h / 2) ++ x.v.displayed (w / 2) (h / 2)), ?_, ?_, ?_, ?_, ?_⟩
  · unfold y4mFrame
    rw [hx.displayWidth, hx.displayHeight, e1, e2]
  · rw [List.length_append, List.length_append, ly, lu, lv]
    unfold rawSize
    omega
  · intro u v hu hv
    have hp := position_lt hu hv
    rw [List.getD_append _ _ _ _ (by omega), py u v hu hv]
  · intro u v hu hv
    have hp := position_lt hu hv
    rw [List.getD_append_right _ _ _ _ (by omega), ly, Nat.add_sub_cancel_left, List.getD_append _ _ _ _ (by omega), pu u v hu hv]
  · intro u v hu hv
    have hp := position_lt hu hv
    rw [List.getD_append_right _ _ _ _ (by omega), ly, Nat.add_assoc, Nat.add_sub_cancel_left, List.getD_append_right _ _ _ _ (by omega), lu,
      Nat.add_sub_cancel_left, pv u v hu hv]

theorem position_split {w h k : Nat} (hw : 0 < w) (hk : k < h * w) : k % w < w ∧ k / w < h ∧ k / w * w + k % w = k := by
  refine ⟨Nat.mod_lt _ hw, ?_, ?_⟩
  · rwa [Nat.div_lt_iff_lt_mul hw]
  · rw [Nat.mul_comm]; exact Nat.div_add_mod k w

theorem near_bytes {w h : Nat} (hw : 0 < w) (even : w % 2 = 0) {l c : Nat} {f g : List UInt8} {x y : Raster} (hx : x.Ok w h) (hf : RawHolds w h f x)
    (hg : RawHolds w h g y) (lf : f.length = rawSize w h) (lg : g.length = rawSize w h) (hn : NearBy l c x y) : NearBytes w h l c f g := by
  refine ⟨lf, lg, fun k hk => ?_, fun k hk hk' => ?_⟩
  · obtain ⟨h1, h2, h3⟩ := position_split hw hk
    have := hn.y (k % w) (k / w) (by rw [hx.yWidth]; omega) (by rw [hx.yHeight]; omega)
    rwa [hf.y _ _ h1 h2, hg.y _ _ h1 h2, h3] at this
  · unfold rawSize at hk
    by_cases hlt : k - h * w < h / 2 * (w / 2)
    · obtain ⟨h1, h2, h3⟩ := position_split (by omega) hlt
      have := hn.u _ _ (show (k - h * w) % (w / 2) < x.u.width by rw [hx.uWidth]; omega) (show (k - h * w) / (w / 2) < x.u.height by rw [hx.uHeight]; omega)
      rwa [hf.u _ _ h1 h2, hg.u _ _ h1 h2, h3, show h * w + (k - h * w) = k by omega] at this
    · have hlt : k - h * w - h / 2 * (w / 2) < h / 2 * (w / 2) := by omega
      obtain ⟨h1, h2, h3⟩ := position_split (by omega) hlt
      have := hn.v _ _ (show (k - h * w - h / 2 * (w / 2)) % (w / 2) < x.v.width by rw [hx.vWidth]; omega)
        (show (k - h * w - h / 2 * (w / 2)) / (w / 2) < x.v.height by rw [hx.vHeight]; omega)
      rwa [hf.v _ _ h1 h2, hg.v _ _ h1 h2, h3, show h * w + h / 2 * (w / 2) + (k - h * w - h / 2 * (w / 2)) = k by omega] at this

theorem forall₂_of_get {α β : Type} {P : α → β → Prop} : ∀ {a : List α} {b : List β}, b.length = a.length →
    (∀ (k : Nat) (x : α) (y : β), a[k]? = some x → b[k]? = some y → P x y) → List.Forall₂ P a b
  | [], [], _, _ => .nil
  | x :: a, y :: b, h, hp => .cons (hp 0 x y rfl rfl) (forall₂_of_get (Nat.succ.inj h) fun k x y h1 h2 => hp (k + 1) x y h1 h2)

/-- All that is written for pictures of one size. -/
theorem y4m_output {w h : Nat} (hw : 0 < w ∧ w ≤ 65520) (hh : 0 < h ∧ h ≤ 65520) (even : w % 2 = 0 ∧ h % 2 = 0) : ∀ {ys : List Raster}, (∀ y ∈ ys, y.Ok w h) →
    ∃ gs, ys.flatMap y4mFrame = gs.flatMap (ascii "FRAME\n" ++ ·) ∧ List.Forall₂ (fun g y => g.length = rawSize w h ∧ RawHolds w h g y) gs ys
  | [], _ => ⟨[], rfl, .nil⟩
  | y :: ys, hy => by
    obtain ⟨gs, g1, g2⟩ := y4m_output hw hh even (fun z hz => hy z (List.mem_cons_of_mem _ hz))
    obtain ⟨g, k1, k2, k3⟩ := y4m_written hw hh even (hy y (List.mem_cons_self ..))
    exact ⟨g :: gs, by rw [List.flatMap_cons, List.flatMap_cons, k1, g1], .cons ⟨k2, k3⟩ g2⟩

/-- **C78**: a file of raw video, encoded and decoded.  Whatever its pictures are (of even width and height), whichever mode is used, whatever the encoder decides
and whatever is in the recycled buffers, the encoder writes a file, the decoder accepts all of it and writes a file of raw video of the same size with as many
pictures, and no byte of a picture differs from the byte given by more than the quantizer index of that picture allows, with steps twice as wide
for the first picture if the encoder makes two passes. -/
theorem C78_raw_video {Q : Type} [LinearOrder Q] (M : Meter Q) {w h : Nat} (hf : Fits w h) (hbig : 4 ≤ w ∧ 4 ≤ h) (even : w % 2 = 0 ∧ h % 2 = 0)
    {header : Y4MHeader} (hfits : header.Fits) (hdr : header.width = w ∧ header.height = h) (hcolor : header.color ≠ .c422 ∧ header.color ≠ .c444)
    {mode : XcEncMode Q} (hm : mode.Ok) {inside : Nat → Inside} (hi : ∀ k, (inside k).Ok w h) (realtime : Bool) (references : References) {pool : List Raster}
    (hp : ∀ x ∈ pool, x.Ok w h) {frames : List (List UInt8)} (hl : ∀ f ∈ frames, f.length = rawSize w h) (hn : frames.length < pool.length)
    (hn' : frames.length < 2 ^ 32) :
    ∃ (ivf : List UInt8) (frames' : List (List UInt8)) (indices : List Nat), xcEncY4m codeRenderer M mode inside realtime references (pool.map some) (rawVideo header frames) = .ok ivf ∧
      (∃ i, IVF.open ivf = .ok i ∧ i.width = w ∧ i.height = h ∧ i.frameCount = frames.length) ∧
      (∀ fresh, vp8decodeFile codeRenderer fresh ivf = (if frames = [] then [] else
        rawVideo { width := w, height := h, fpsNumerator := 24, fpsDenominator := 1, aspectNumerator := 1, aspectDenominator := 1 } frames', none)) ∧
      frames'.length = frames.length ∧ indices.length = frames.length ∧
      ∀ (k : Nat) (f g : List UInt8), frames[k]? = some f → frames'[k]? = some g → ∃ q, indices[k]? = some q ∧ q ≤ 127 ∧
        mode.MayUse M.zero inside k (indexBefore realtime indices k) q ∧
        NearBytes w h (luma (effective (k == 0 && (inside k).work.twoPasses) (prescribed q (uniformIndices q))) + 54)
          (chroma (effective (k == 0 && (inside k).work.twoPasses) (prescribed q (uniformIndices q))) + 54) f g := by
  have hw : 0 < w ∧ w ≤ 65520 := ⟨hf.wide.1, by have := hf.wide.2; omega⟩
  have hh : 0 < h ∧ h ≤ 65520 := ⟨hf.high.1, by have := hf.high.2; omega⟩
  have hopen : Y4MReader.open (rawVideo header frames) =
      .ok { header := { header with color := .c420 }, input := { rest := frames.flatMap (ascii "FRAME\n" ++ ·) } } := by
    unfold rawVideo
    rw [open_text header hfits, if_neg (by rintro (h | h); exacts [hcolor.1 h, hcolor.2 h])]
  obtain ⟨xs, g1, g2⟩ := y4m_gives hw hh even (header := { header with color := .c420 }) hdr hl hp hn
  have hlen := g2.length_eq
  obtain ⟨ivf, shown, indices, c1, c0, c2, c3, c5, c4⟩ := converted M hf hbig hm hi realtime references (rounds := (pool.map some).length + 1) g1
    (fun x hx => by
      obtain ⟨k, hk⟩ := List.mem_iff_getElem?.1 hx
      have hk' : k < frames.length := by rw [hlen]; exact (List.getElem?_eq_some_iff.1 hk).1
      exact (forall₂_get g2 (List.getElem?_eq_getElem hk') hk).1)
    (by rw [List.length_map]; omega) (by omega)
  have hok : ∀ y ∈ shown, y.Ok w h := fun y hy => by
    obtain ⟨k, hk⟩ := List.mem_iff_getElem?.1 hy
    have hk' : k < xs.length := by rw [← c3]; exact (List.getElem?_eq_some_iff.1 hk).1
    exact (c4 k _ _ (List.getElem?_eq_getElem hk') hk).1
  obtain ⟨gs, o1, o2⟩ := y4m_output hw hh even hok
  refine ⟨ivf, gs, indices, ?_, by rw [hlen]; exact c0, fun fresh => ?_, ?_, by rw [c5, hlen], ?_⟩
  · unfold xcEncY4m
    rw [hopen]
    obtain ⟨rfl, rfl⟩ := hdr
    exact c1
  · unfold vp8decodeFile
    rw [c2 fresh]
    dsimp only
    cases shown with
    | nil =>
      have : frames = [] := List.eq_nil_of_length_eq_zero (by rw [hlen, ← c3]; rfl)
      rw [if_pos this]
      rfl
    | cons y ys =>
      have : frames ≠ [] := by
        rintro rfl
        rw [List.length_cons, ← hlen] at c3
        exact nomatch c3
      rw [if_neg this]
      show (_ ++ (y :: ys).flatMap y4mFrame, none) = _
      unfold rawVideo
      rw [o1]
      have hy := hok y (List.mem_cons_self ..)
      unfold Y4MHeader.ofRaster
      rw [hy.displayWidth, hy.displayHeight]
  · rw [o2.length_eq, c3, hlen]
  · intro k f g hfk hgk
    · have kx : k < xs.length := by rw [← hlen]; exact (List.getElem?_eq_some_iff.1 hfk).1
      have ky : k < shown.length := by rw [c3]; exact kx
      obtain ⟨x1, x2⟩ := forall₂_get g2 hfk (List.getElem?_eq_getElem kx)
      obtain ⟨y1, y2⟩ := forall₂_get o2 hgk (List.getElem?_eq_getElem ky)
      obtain ⟨-, q, q0, q1, q2, q3⟩ := c4 k _ _ (List.getElem?_eq_getElem kx) (List.getElem?_eq_getElem ky)
      exact ⟨q, q0, q1, q2, near_bytes hw.1 even.1 x1 x2 y2 (hl f (List.mem_of_getElem? hfk)) y1 q3⟩

/-! ### Files of compressed video -/

/-- A player in use, for pictures of one size. -/
structure FilePlayer.Ok (w h : Nat) (p : FilePlayer) : Prop where
  decoder : p.decoder.Ok
  width : p.decoder.state.width = w
  height : p.decoder.state.height = h
  inside : p.frameNo ≤ p.file.frameCount

theorem advanceLoop_ok (R : Renderer) (hR : R.Ok) {w ht : Nat} : ∀ {n : Nat} {p p' : FilePlayer} {x : Raster}, p.Ok w ht → p.frameNo + n ≤ p.file.frameCount →
    p.advanceLoop R n = (p', .ok x) → p'.Ok w ht ∧ p'.file = p.file ∧ p.frameNo < p'.frameNo ∧ x.Ok w ht
  | 0, p, p', x, _, _, h => nomatch h
  | n + 1, p, p', x, hp, hn, h => by
    unfold FilePlayer.advanceLoop at h
    dsimp only at h
    cases h1 : p.file.frame p.frameNo with
    | error e => rw [h1] at h; exact nomatch h
    | ok f =>
      rw [h1] at h
      dsimp only at h
      obtain ⟨k1, k2, k3, -⟩ := C18_rejected_frame_leaves_usable R hR p.decoder hp.decoder f
      have hok := fun (b : Bool) (y : Raster) => output_ok R hR p.decoder hp.decoder f (shown := b) (x := y)
      unfold Decoder.parseAndDecodeFrame at h
      rcases ho : p.decoder.getFrameOutput R f with ⟨d, e | ⟨shown, y⟩⟩
      · rw [ho] at h; exact nomatch h
      · rw [ho] at h k1 k2 k3 hok
        have hd : FilePlayer.Ok w ht { p with decoder := d, frameNo := p.frameNo + 1 } :=
          ⟨k1, k2.trans hp.width, k3.trans hp.height, show p.frameNo + 1 ≤ p.file.frameCount by omega⟩
        cases shown with
        | false =>
          obtain ⟨a1, a2, a3, a4⟩ := advanceLoop_ok R hR (n := n) (p := { p with decoder := d, frameNo := p.frameNo + 1 }) hd
            (show p.frameNo + 1 + n ≤ p.file.frameCount by omega) h
          exact ⟨a1, a2, Nat.lt_of_succ_lt a3, a4⟩
        | true =>
          cases h
          refine ⟨hd, rfl, Nat.lt_succ_self _, ?_⟩
          rw [← hp.width, ← hp.height]
          exact hok _ _ rfl

theorem player_gives (R : Renderer) (hR : R.Ok) {w h : Nat} : ∀ {n : Nat} {p : FilePlayer} {xs : List Raster}, p.Ok w h → p.file.frameCount - p.frameNo ≤ n →
    p.playLoop R n = (xs, none) → Gives (ivfInput R) p xs ∧ (∀ x ∈ xs, x.Ok w h) ∧ xs.length ≤ n
  | n, p, xs, hp, hn, he => by
    by_cases hend : p.eof = true
    · have : xs = [] := by
        cases n with
        | zero => cases he; rfl
        | succ n =>
          unfold FilePlayer.playLoop at he
          rw [if_pos hend] at he
          cases he; rfl
      subst this
      exact ⟨.done (i' := p) (by unfold ivfInput; rw [if_pos hend]), fun _ h => (nomatch h), Nat.zero_le _⟩
    · have hlt : p.frameNo < p.file.frameCount := by
        have := hp.inside
        unfold FilePlayer.eof at hend
        have : p.frameNo ≠ p.file.frameCount := by simpa using hend
        omega
      cases n with
      | zero => omega
      | succ n =>
        unfold FilePlayer.playLoop at he
        rw [if_neg hend] at he
        rcases ha : p.advance R with ⟨p', e | x⟩
        · rw [ha] at he; exact nomatch he
        · rw [ha] at he
          have hl : p.frameNo + (p.file.frameCount - p.frameNo) ≤ p.file.frameCount := by omega
          obtain ⟨a1, a2, a3, a4⟩ := advanceLoop_ok R hR hp hl ha
          rcases hr : p'.playLoop R n with ⟨rs, e⟩
          dsimp only at he
          rw [hr] at he
          cases he
          obtain ⟨b1, b2, b3⟩ := player_gives R hR (n := n) (p := p') a1 (by rw [a2]; omega) hr
          refine ⟨.more (i' := p') ?_ b1, ?_, Nat.succ_le_succ b3⟩
          · unfold ivfInput
            rw [if_neg hend, ha]
          · intro y hy
            rcases List.mem_cons.1 hy with rfl | hy
            · exact a4
            · exact b2 y hy
termination_by n => n

theorem skip_le (d : Decoder) (file : IVF) : ∀ {n k j : Nat}, FilePlayer.skip d file n k = .ok j → j ≤ k + n
  | 0, k, j, h => by cases h; exact Nat.le_refl _
  | n + 1, k, j, h => by
    unfold FilePlayer.skip at h
    cases h1 : file.frame k with
    | error e => rw [h1] at h; exact nomatch h
    | ok f =>
      rw [h1] at h
      change (splitFrame f d.state.width d.state.height false).bind _ = _ at h
      cases h2 : splitFrame f d.state.width d.state.height false with
      | error e => rw [h2] at h; exact nomatch h
      | ok c =>
        rw [h2] at h
        change (if c.keyFrame then _ else _) = _ at h
        split at h
        · cases h; omega
        · have := skip_le d file h
          omega

/-- **C78**, for a file of compressed video: if it can be played to its end, then it can be encoded again, and the pictures that the new file shows are as many,
each near the one that the old file showed. -/
theorem C78_compressed_video {Q : Type} [LinearOrder Q] (M : Meter Q) {w h : Nat} (hf : Fits w h) (hbig : 4 ≤ w ∧ 4 ≤ h) {mode : XcEncMode Q} (hm : mode.Ok)
    {inside : Nat → Inside} (hi : ∀ k, (inside k).Ok w h) (realtime : Bool) (references fresh : References) (hr : fresh.Ok w h) {file : List UInt8} {ivf : IVF}
    (ho : IVF.open file = .ok ivf) (hsize : ivf.width = w ∧ ivf.height = h) (hc : ivf.frameCount < 2 ^ 32) {xs : List Raster}
    (hx : vp8decode codeRenderer fresh file = (xs, none)) :
    ∃ (file' : List UInt8) (shown : List Raster) (indices : List Nat), xcEncIvf codeRenderer M mode inside realtime references fresh file = .ok file' ∧
      (∃ i, IVF.open file' = .ok i ∧ i.width = w ∧ i.height = h ∧ i.frameCount = xs.length) ∧
      (∀ fresh', vp8decode codeRenderer fresh' file' = (shown, none)) ∧
      shown.length = xs.length ∧ indices.length = xs.length ∧
      ∀ (k : Nat) (x y : Raster), xs[k]? = some x → shown[k]? = some y → ∃ q, indices[k]? = some q ∧ q ≤ 127 ∧
        mode.MayUse M.zero inside k (indexBefore realtime indices k) q ∧ FaithfulIn (k == 0 && (inside k).work.twoPasses) q x y := by
  obtain ⟨rfl, rfl⟩ := hsize
  unfold vp8decode at hx
  unfold xcEncIvf
  cases hp : FilePlayer.open fresh file with
  | error e => rw [hp] at hx; exact nomatch hx
  | ok p =>
    rw [hp] at hx
    dsimp only at hx ⊢
    have hpo : p.file = ivf ∧ p.Ok ivf.width ivf.height := by
      unfold FilePlayer.open at hp
      rw [ho] at hp
      dsimp only [bind, Except.bind] at hp
      by_cases hv : ivf.fourcc ≠ vp80
      · rw [if_pos hv] at hp; exact nomatch hp
      · rw [if_neg hv] at hp
        cases hk : FilePlayer.skip (Decoder.new fresh ivf.width ivf.height) ivf ivf.frameCount 0 with
        | error e => rw [hk] at hp; exact nomatch hp
        | ok k =>
          rw [hk] at hp
          cases hp
          have := skip_le _ _ hk
          exact ⟨rfl, ⟨⟨hf.wide, hf.high, fun _ h => (nomatch h), fun _ h => (nomatch h)⟩, hr⟩, rfl, rfl, by show k ≤ ivf.frameCount; omega⟩
    obtain ⟨p1, p2⟩ := hpo
    obtain ⟨g1, g2, g3⟩ := player_gives codeRenderer C63_renderer p2 (Nat.le_refl _) hx
    rw [p1] at g3
    rw [p2.width, p2.height, p1]
    obtain ⟨file', shown, indices, c1, c0, c2, c3, c5, c4⟩ := converted M hf hbig hm hi realtime references (rounds := ivf.frameCount + 1) g1 g2 (by omega) (by omega)
    exact ⟨file', shown, indices, c1, c0, c2, c3, c5, fun k x y h1 h2 => (c4 k x y h1 h2).2⟩

/-! ### Example -/

/-- What the encoder takes from outside the model in the example. -/
def exampleInside (_ : Nat) : Inside :=
  let w : Work := ⟨exampleTwoPasses, exampleInterChoices, grayRaster 40 30 0⟩
  ⟨fun _ => w, w, fun q => 5000 - 30 * q⟩

theorem exampleInside_ok (k : Nat) : (exampleInside k).Ok 40 30 := ⟨fun _ => exampleTwoPasses_work, exampleTwoPasses_work, exampleTwoPasses_kept⟩

/-- The header of a file of 40 by 30 pixels. -/
def exampleHeader : Y4MHeader :=
  { width := 40, height := 30, fpsNumerator := 30000, fpsDenominator := 1001, aspectNumerator := 1, aspectDenominator := 1, color := .c420jpeg }

/-- Two pictures, of which one has stripes. -/
def exampleVideo : List (List UInt8) := [(List.range 1800).map fun k => UInt8.ofNat (k * k), List.replicate 1800 77]

theorem exampleVideo_size : ∀ f ∈ exampleVideo, f.length = rawSize 40 30 :=
  have h : rawSize 40 30 = 1800 := by decide
  h ▸ List.forall_mem_cons.2 ⟨by rw [List.length_map, List.length_range], List.forall_mem_cons.2 ⟨List.length_replicate, fun _ h => nomatch h⟩⟩

theorem effective_le (b : Bool) (q : Quantizer) : luma (effective b q) + 54 ≤ luma (twice q) + 54 ∧ chroma (effective b q) + 54 ≤ chroma (twice q) + 54 := by
  cases b with
  | true => exact ⟨Nat.le_refl _, Nat.le_refl _⟩
  | false =>
    change luma q + 54 ≤ _ ∧ chroma q + 54 ≤ _
    simp only [luma, chroma, plain, whole, twice]
    omega

/-- A file of raw video, with sizes asked for: it is encoded, decoded, and encoded and decoded again. -/
example : ∃ ivf frames' ivf' shown shown',
    xcEncY4m codeRenderer (⟨0, fun _ _ => 3⟩ : Meter Int) (.targetFrameSize [700, 90]) exampleInside true ⟨grayRaster 40 30 9, grayRaster 40 30 8, grayRaster 40 30 7⟩
      ([grayRaster 40 30 1, grayRaster 40 30 2, grayRaster 40 30 3].map some) (rawVideo exampleHeader exampleVideo) = .ok ivf ∧
    List.Forall₂ (fun f g => ∃ q : Nat, q ≤ 127 ∧ NearBytes 40 30 (luma (twice (prescribed q (uniformIndices q))) + 54)
      (chroma (twice (prescribed q (uniformIndices q))) + 54) f g)
      exampleVideo frames' ∧
    xcEncIvf codeRenderer (⟨0, fun _ _ => 3⟩ : Meter Int) (.constantQuantizer 20) exampleInside true ⟨grayRaster 40 30 9, grayRaster 40 30 8, grayRaster 40 30 7⟩
      ⟨grayRaster 40 30 9, grayRaster 40 30 8, grayRaster 40 30 7⟩ ivf = .ok ivf' ∧
    vp8decode codeRenderer ⟨grayRaster 40 30 9, grayRaster 40 30 8, grayRaster 40 30 7⟩ ivf = (shown, none) ∧ (∀ fresh, vp8decode codeRenderer fresh ivf' = (shown', none)) ∧
    List.Forall₂ (FaithfulIn true 20) shown shown' := by
  have hf : Fits 40 30 := ⟨by decide, by decide, by decide⟩
  obtain ⟨ivf, frames', indices, h1, ⟨i, i1, i2, i3, i4⟩, h2, h4, h5, h3⟩ := C78_raw_video (⟨0, fun _ _ => 3⟩ : Meter Int) hf (by decide) (by decide) (header := exampleHeader)
    (by constructor <;> decide) ⟨rfl, rfl⟩ (by decide) (mode := .targetFrameSize [700, 90]) trivial exampleInside_ok true
    ⟨grayRaster 40 30 9, grayRaster 40 30 8, grayRaster 40 30 7⟩ (pool := [grayRaster 40 30 1, grayRaster 40 30 2, grayRaster 40 30 3])
    (fun x hx => by
      simp only [List.mem_cons, List.not_mem_nil, or_false] at hx
      rcases hx with rfl | rfl | rfl <;> exact grayRaster_ok ..)
    (frames := exampleVideo) exampleVideo_size
    (by decide) (by decide)
  let fresh : References := ⟨grayRaster 40 30 9, grayRaster 40 30 8, grayRaster 40 30 7⟩
  have hplay : ∃ xs, vp8decode codeRenderer fresh ivf = (xs, none) := ⟨_, Prod.ext rfl (show (vp8decodeFile codeRenderer fresh ivf).2 = none by rw [h2])⟩
  obtain ⟨xs, hx⟩ := hplay
  obtain ⟨ivf', shown', indices', k1, -, k2, k4, k5, k3⟩ := C78_compressed_video (⟨0, fun _ _ => 3⟩ : Meter Int) hf (by decide) (mode := .constantQuantizer 20)
    (show 20 ≤ 127 by decide) exampleInside_ok true fresh fresh ⟨grayRaster_ok .., grayRaster_ok .., grayRaster_ok ..⟩ i1 ⟨i2, i3⟩
    (by rw [i4]; decide) hx
  refine ⟨ivf, frames', ivf', xs, shown', h1, forall₂_of_get h4 fun k f g hf hg => ?_, k1, hx, k2, forall₂_of_get k4 fun k f g hf hg => ?_⟩
  · obtain ⟨q, -, q1, -, q3⟩ := h3 k f g hf hg
    exact ⟨q, q1, ⟨q3.given, q3.shown, fun k h => (q3.luma k h).trans (effective_le _ _).1, fun k h h2 => (q3.chroma k h h2).trans (effective_le _ _).2⟩⟩
  · obtain ⟨q, -, -, q2, q3⟩ := k3 k f g hf hg
    exact q2 ▸ FidelitySpec.NearBy.mono q3 (effective_le _ _).1 (effective_le _ _).2

end Alfalfa
