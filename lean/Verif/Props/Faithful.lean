import Verif.Spec.Faithful
import Verif.Props.Fidelity
import Verif.Props.Session

/-! C77: what a decoder shows of the frames of an encoder is near the pictures that the encoder was given, whatever calls were made. -/

namespace Alfalfa
open FidelitySpec QuantizerSpec

theorem FidelitySpec.NearBy.mono {a b c d : Nat} {o s : Raster} (h : NearBy a b o s) (hac : a ≤ c) (hbd : b ≤ d) : NearBy c d o s :=
  ⟨fun u v hu hv => (h.y u v hu hv).trans hac, fun u v hu hv => (h.u u v hu hv).trans hbd, fun u v hu hv => (h.v u v hu hv).trans hbd⟩

theorem reach_le (level : Nat) : reach level ≤ 54 := by
  unfold reach swing
  split <;> omega

theorem finishKey_near {width height : Nat} (hf : Fits width height) {s : Session} (hs : s.Ready width height) {w : Work} (hw : w.Ok width height)
    (hkept : w.key.TypesKept) {o : Raster} (ho : o.Ok width height) {qi : Nat} (hq : qi ≤ 127) {R : Renderer} {s' : Session} {bytes : List UInt8} {shown : Raster}
    (h : s.finishKey R w o qi = some (s', bytes, shown)) : FaithfulIn w.twoPasses qi o shown := by
  obtain ⟨f, shown', h1, -, h2⟩ := C75_key_shown hf.wide hf.high hw.key hkept hs.key.range hs.key.segmentation (uniformIndices_range hq) ho hw.scratch
  unfold Session.finishKey Session.rasterKey at h
  rw [hs.wide, hs.high] at h
  dsimp only at h
  rw [h1] at h
  obtain ⟨⟨s1, f1, shown1⟩, e, h⟩ := Option.bind_eq_some_iff.1 h
  cases (Option.some.inj e : _ = (s1, f1, shown1))
  obtain ⟨⟨s2, b2⟩, -, h⟩ := Option.bind_eq_some_iff.1 h
  cases h
  exact h2.mono (Nat.add_le_add_left (reach_le _) _) (Nat.add_le_add_left (reach_le _) _)

theorem finishInter_near {width height : Nat} (hf : Fits width height) {s : Session} (hs : s.Underway width height) {w : Work} (hw : w.Ok width height)
    {o : Raster} (ho : o.Ok width height) {qi : Nat} (hq : qi ≤ 127) {R : Renderer} {s' : Session} {bytes : List UInt8} {shown : Raster}
    (h : s.finishInter R w o qi = some (s', bytes, shown)) : Faithful qi o shown := by
  have w1 := hs.wide
  have w2 := hs.high
  subst w1 w2
  obtain ⟨f, shown', h1, -, h2⟩ := C75_inter_shown hf.wide hf.high hs.segmentation hs.references hw.inter hs.inter.range
    hs.inter.segmentation (uniformIndices_range hq) ho hw.scratch
  unfold Session.finishInter Session.rasterInter at h
  rw [h1] at h
  obtain ⟨⟨s1, f1, shown1⟩, e, h⟩ := Option.bind_eq_some_iff.1 h
  cases (Option.some.inj e : _ = (s1, f1, shown1))
  obtain ⟨⟨s2, b2⟩, -, h⟩ := Option.bind_eq_some_iff.1 h
  cases h
  exact h2.mono (Nat.add_le_add_left (reach_le _) _) (Nat.add_le_add_left (reach_le _) _)

/-- One encoding with a given index. -/
theorem encodeWithQuantizer_near {width height : Nat} (hf : Fits width height) {s : Session} (hs : s.Ready width height)
    (hu : s.hasState = true → s.Underway width height) {w : Work} (hw : w.Ok width height) (hkept : w.key.TypesKept) {o : Raster} (ho : o.Ok width height)
    {qi : Nat} (hq : qi ≤ 127) {R : Renderer} {s' : Session} {bytes : List UInt8} {shown : Raster}
    (h : s.encodeWithQuantizer R w o qi = .ok (s', bytes, shown)) : FaithfulIn (!s.hasState && w.twoPasses) qi o shown := by
  unfold Session.encodeWithQuantizer at h
  rw [hs.fits ho, Bool.not_true, if_neg Bool.false_ne_true] at h
  have hs' : Session.Ready width height { s with hasState := true } := ⟨hs.wide, hs.high, hs.key, hs.inter, hs.last⟩
  by_cases hn : s.hasState = true
  · rw [if_pos hn] at h
    cases hx : s.finishInter R w o qi with
    | none => rw [hx] at h; exact nomatch h
    | some x =>
      rw [hx] at h
      injection h with h
      rw [h] at hx
      rw [hn]
      exact finishInter_near hf (hu hn) hw ho hq hx
  · rw [if_neg hn] at h
    cases hx : ({ s with hasState := true } : Session).finishKey R w o qi with
    | none => rw [hx] at h; exact nomatch h
    | some x =>
      rw [hx] at h
      injection h with h
      rw [h] at hx
      rw [show s.hasState = false by simpa using hn]
      exact finishKey_near hf hs' hw hkept ho hq hx

/-- Any call. -/
theorem call_near {Q : Type} [LinearOrder Q] (M : Meter Q) {width height : Nat} (hf : Fits width height) {s : Session} (hs : s.Ready width height)
    (hu : s.hasState = true → s.Underway width height) {c : Call Q} (hc : c.Ok width height) (hkept : c.last.key.TypesKept) {s' : Session} {bytes : List UInt8}
    {shown : Raster} (h : s.call codeRenderer M c = .ok (s', bytes, shown)) :
    FaithfulIn (!s.hasState && c.last.twoPasses) (c.index M.zero s.lastQi) c.picture shown := by
  have hle := Call.index_le M.zero hs.last hc
  cases c with
  | quantizer o qi w => exact encodeWithQuantizer_near hf hs hu hc.2.2 hkept hc.1 hle h
  | target o size estimate w =>
    change s.encodeWithTarget codeRenderer estimate w o size = _ at h
    unfold Session.encodeWithTarget at h
    rw [hs.fits hc.1, Bool.not_true, if_neg Bool.false_ne_true] at h
    exact encodeWithQuantizer_near hf hs hu hc.2 hkept hc.1 hle h
  | minimum o m work last =>
    change s.encodeWithMinimum codeRenderer M work last o m = _ at h
    have hs' : Session.Ready width height { s with hasState := true } := ⟨hs.wide, hs.high, hs.key, hs.inter, hs.last⟩
    by_cases hn : s.hasState = true
    · obtain ⟨s1, l1, l2, l3, l4⟩ := searchLoop_ok (trial := Session.trialInter M work o) (z := M.zero)
        (P := fun t => t.Underway width height ∧ t.hasState = true ∧ t.encoder = s.encoder)
        (fun t q h hq => trialInter_ok M hf h (hc.2.1 q) hc.1 hq) m 0 127 (by decide) false 0 s ⟨hu hn, hn, rfl⟩
      rw [unmeasuredLoop] at l1
      obtain ⟨s2, bytes2, shown2, k1, -⟩ := finishInter_ok hf l2 hc.2.2 hc.1 hle
      have := minimum_later (hs.fits hc.1) hn l1 k1
      rw [h] at this
      injection this with this
      cases this
      rw [hn]
      exact finishInter_near hf l2 hc.2.2 hc.1 hle k1
    · have hn : s.hasState = false := by simpa using hn
      obtain ⟨s1, l1, l2, l3⟩ := searchLoop_ok (trial := Session.trialKey M work o) (z := M.zero) (P := fun s => s.Ready width height ∧ s.hasState = true)
        (fun s q h hq => trialKey_ok M hf h (hc.2.1 q) hc.1 hq) m 0 127 (by decide) false 0 { s with hasState := true } ⟨hs', rfl⟩
      rw [unmeasuredLoop] at l1
      obtain ⟨s2, bytes2, shown2, k1, -⟩ := finishKey_ok hf l2 hc.2.2 hc.1 hle
      have := minimum_first (hs.fits hc.1) hn l1 k1
      rw [h] at this
      injection this with this
      cases this
      rw [hn]
      exact finishKey_near hf l2 hc.2.2 hkept hc.1 hle k1

/-- What a call leaves of what is used later in the choice of an index. -/
theorem searchLoop_keeps {Q : Type} [LinearOrder Q] {trial : Session → Nat → Option (Session × Q)}
    (ht : ∀ s q s' z, trial s q = some (s', z) → s'.realtime = s.realtime ∧ s'.lastQi = s.lastQi) (minimum : Q) (lo hi : Int) (found : Bool) (best : Nat)
    (s : Session) {x : Session × Nat} (h : searchLoop trial minimum lo hi found best s = some x) : x.1.realtime = s.realtime ∧ x.1.lastQi = s.lastQi := by
  rw [searchLoop] at h
  split at h
  · next hlo =>
    dsimp only at h
    obtain ⟨⟨s1, z⟩, t1, h⟩ := Option.bind_eq_some_iff.1 h
    obtain ⟨k1, k2⟩ := ht _ _ _ _ t1
    dsimp only at h
    rw [← k1, ← k2]
    split at h
    · cases h; exact ⟨rfl, rfl⟩
    · split at h
      · exact searchLoop_keeps ht minimum lo _ _ _ s1 h
      · exact searchLoop_keeps ht minimum _ hi _ _ s1 h
  · cases h; exact ⟨rfl, rfl⟩
termination_by (hi - lo + 1).toNat
decreasing_by all_goals omega

theorem rasterKey_keeps {w : Work} {b : Bool} {s : Session} {o : Raster} {i : QuantIndices} {x : Session × Frame KeyFrameHeader × Raster}
    (h : s.rasterKey w b o i = some x) : x.1.realtime = s.realtime ∧ x.1.lastQi = s.lastQi ∧ x.1.keyHeader = x.2.1.header := by
  unfold Session.rasterKey at h
  obtain ⟨⟨f, shown⟩, -, h⟩ := Option.bind_eq_some_iff.1 h
  cases h
  exact ⟨rfl, rfl, rfl⟩

theorem rasterInter_keeps {w : Work} {b : Bool} {s : Session} {o : Raster} {i : QuantIndices} {x : Session × Frame InterFrameHeader × Raster}
    (h : s.rasterInter w b o i = some x) : x.1.realtime = s.realtime ∧ x.1.lastQi = s.lastQi ∧ x.1.interHeader = x.2.1.header := by
  unfold Session.rasterInter at h
  obtain ⟨⟨f, shown⟩, -, h⟩ := Option.bind_eq_some_iff.1 h
  cases h
  exact ⟨rfl, rfl, rfl⟩

theorem finishKey_remembers {R : Renderer} {w : Work} {s : Session} {o : Raster} {qi : Nat} {x : Session × List UInt8 × Raster} (h : s.finishKey R w o qi = some x) :
    x.1.realtime = s.realtime ∧ x.1.lastQi = if s.realtime then some x.1.keyHeader.quantIndices.yAcQi else s.lastQi := by
  unfold Session.finishKey at h
  obtain ⟨⟨s1, f1, shown1⟩, e, h⟩ := Option.bind_eq_some_iff.1 h
  obtain ⟨k1, k2, k3⟩ := rasterKey_keeps e
  obtain ⟨⟨s2, b2⟩, e2, h⟩ := Option.bind_eq_some_iff.1 h
  unfold Session.writeKey at e2
  obtain ⟨⟨enc, b3⟩, -, e2⟩ := Option.bind_eq_some_iff.1 e2
  cases e2
  cases h
  exact ⟨k1, by rw [← k1, ← k2]; dsimp only; rw [k3]⟩

theorem finishInter_remembers {R : Renderer} {w : Work} {s : Session} {o : Raster} {qi : Nat} {x : Session × List UInt8 × Raster} (h : s.finishInter R w o qi = some x) :
    x.1.realtime = s.realtime ∧ x.1.lastQi = if s.realtime then some x.1.interHeader.quantIndices.yAcQi else s.lastQi := by
  unfold Session.finishInter at h
  obtain ⟨⟨s1, f1, shown1⟩, e, h⟩ := Option.bind_eq_some_iff.1 h
  obtain ⟨k1, k2, k3⟩ := rasterInter_keeps e
  obtain ⟨⟨s2, b2⟩, e2, h⟩ := Option.bind_eq_some_iff.1 h
  unfold Session.writeInter at e2
  obtain ⟨⟨enc, b3⟩, -, e2⟩ := Option.bind_eq_some_iff.1 e2
  cases e2
  cases h
  exact ⟨k1, by rw [← k1, ← k2]; dsimp only; rw [k3]⟩

theorem trialKey_keeps {Q : Type} {M : Meter Q} {work : Nat → Work} {o : Raster} {s s' : Session} {q : Nat} {z : Q} (h : s.trialKey M work o q = some (s', z)) :
    s'.realtime = s.realtime ∧ s'.lastQi = s.lastQi := by
  unfold Session.trialKey at h
  obtain ⟨t, t1, t2⟩ := Option.bind_eq_some_iff.1 h
  obtain ⟨l1, l2, -⟩ := rasterKey_keeps t1
  cases t2
  exact ⟨l1, l2⟩

theorem trialInter_keeps {Q : Type} {M : Meter Q} {work : Nat → Work} {o : Raster} {s s' : Session} {q : Nat} {z : Q} (h : s.trialInter M work o q = some (s', z)) :
    s'.realtime = s.realtime ∧ s'.lastQi = s.lastQi := by
  unfold Session.trialInter at h
  obtain ⟨t, t1, t2⟩ := Option.bind_eq_some_iff.1 h
  obtain ⟨l1, l2, -⟩ := rasterInter_keeps t1
  cases t2
  exact ⟨l1, l2⟩

theorem searchInter_steps {Q : Type} [LinearOrder Q] {R : Renderer} {M : Meter Q} {work : Nat → Work} {last : Work} {s : Session} {o : Raster} {m : Q}
    {x : Session × List UInt8 × Raster} (h : s.searchInter R M work last o m = some x) :
    ∃ y, searchLoop (Session.trialInter M work o) m 0 127 false 0 s = some y ∧ y.1.finishInter R last o y.2 = some x := by
  unfold Session.searchInter at h
  exact Option.bind_eq_some_iff.1 h

theorem searchKey_steps {Q : Type} [LinearOrder Q] {R : Renderer} {M : Meter Q} {work : Nat → Work} {last : Work} {s : Session} {o : Raster} {m : Q}
    {x : Session × List UInt8 × Raster} (h : s.searchKey R M work last o m = some x) :
    ∃ y, searchLoop (Session.trialKey M work o) m 0 127 false 0 s = some y ∧ y.1.finishKey R last o y.2 = some x := by
  unfold Session.searchKey at h
  exact Option.bind_eq_some_iff.1 h

/-- What a call remembers: in real time, the index that it wrote. -/
theorem call_remembers {Q : Type} [LinearOrder Q] {R : Renderer} (M : Meter Q) {s : Session} {c : Call Q} {x : Session × List UInt8 × Raster}
    (h : s.call R M c = .ok x) : x.1.realtime = s.realtime ∧
      x.1.lastQi = if s.realtime then some (if s.hasState then x.1.interHeader.quantIndices.yAcQi else x.1.keyHeader.quantIndices.yAcQi) else s.lastQi := by
  have one : ∀ {o : Raster} {w : Work} {qi : Nat}, s.encodeWithQuantizer R w o qi = .ok x → x.1.realtime = s.realtime ∧
      x.1.lastQi = if s.realtime then some (if s.hasState then x.1.interHeader.quantIndices.yAcQi else x.1.keyHeader.quantIndices.yAcQi) else s.lastQi := by
    intro o w qi h
    unfold Session.encodeWithQuantizer at h
    split at h
    · exact nomatch h
    · by_cases hn : s.hasState = true
      · rw [if_pos hn] at h ⊢
        split at h
        · next e => cases h; exact finishInter_remembers e
        · exact nomatch h
      · rw [if_neg hn] at h ⊢
        split at h
        · next e => cases h; exact finishKey_remembers (s := { s with hasState := true }) e
        · exact nomatch h
  cases c with
  | quantizer o qi w => exact one h
  | target o size estimate w =>
    change s.encodeWithTarget R estimate w o size = _ at h
    unfold Session.encodeWithTarget at h
    split at h
    · exact nomatch h
    · exact one h
  | minimum o m work last =>
    change s.encodeWithMinimum R M work last o m = _ at h
    unfold Session.encodeWithMinimum at h
    split at h
    · exact nomatch h
    · by_cases hn : s.hasState = true
      · rw [if_pos hn] at h ⊢
        split at h
        · next e =>
          cases h
          obtain ⟨y, y1, y2⟩ := searchInter_steps e
          obtain ⟨k1, k2⟩ := searchLoop_keeps (fun _ _ _ _ => trialInter_keeps) _ _ _ _ _ _ y1
          obtain ⟨j1, j2⟩ := finishInter_remembers y2
          rw [k1] at j1 j2
          rw [k2] at j2
          exact ⟨j1, j2⟩
        · exact nomatch h
      · rw [if_neg hn] at h ⊢
        split at h
        · next e =>
          cases h
          obtain ⟨y, y1, y2⟩ := searchKey_steps e
          obtain ⟨k1, k2⟩ := searchLoop_keeps (fun _ _ _ _ => trialKey_keeps) _ _ _ _ _ _ y1
          obtain ⟨j1, j2⟩ := finishKey_remembers y2
          rw [k1] at j1 j2
          rw [k2] at j2
          exact ⟨j1, j2⟩
        · exact nomatch h

theorem targetQuantizer_best (estimate : Nat → Nat) (size : Nat) {last : Option Nat} (hl : ∀ q, last = some q → q ≤ 127) :
    SizeSearch.Best estimate size last (targetQuantizer estimate size last).1 := by
  obtain ⟨h1, -⟩ := C45_tested estimate size hl
  have hw := h1.window _ h1.result
  refine ⟨(C45_window last hl _).1 hw, fun hm q hq hlt => ?_, fun hm hs q hq => ?_⟩
  · exact (C45_best_quality hm size hl).1 q ((C45_window last hl q).2 hq).1 hlt
  · have := (C45_best_quality hm size hl).2 hs
    have := ((C45_window last hl q).2 hq).2
    omega

theorem Call.index_mayUse {Q : Type} [LinearOrder Q] (zero : Q) {last : Option Nat} (hl : ∀ q, last = some q → q ≤ 127) (c : Call Q) :
    c.MayUse zero last (c.index zero last) := by
  cases c with
  | quantizer o qi w => rfl
  | minimum o m work l => rfl
  | target o size estimate w => exact targetQuantizer_best estimate size hl

/-- The indices of some calls, one after the other, and what is shown. -/
def EachNear {Q : Type} [LinearOrder Q] (zero : Q) (realtime : Bool) : Bool → Option Nat → List (Call Q) → List Nat → List Raster → Prop
  | _, _, [], [], [] => True
  | first, last, c :: calls, i :: is, x :: xs =>
    i ≤ 127 ∧ c.MayUse zero last i ∧ FaithfulIn (first && c.last.twoPasses) i c.picture x ∧ EachNear zero realtime false (if realtime then some i else last) calls is xs
  | _, _, _, _, _ => False

theorem EachNear.get {Q : Type} [LinearOrder Q] {zero : Q} {realtime : Bool} : ∀ {first : Bool} {last : Option Nat} {calls : List (Call Q)} {is : List Nat} {xs : List Raster},
    EachNear zero realtime first last calls is xs → is.length = calls.length ∧ xs.length = calls.length ∧
      ∀ (k : Nat) (c : Call Q) (x : Raster), calls[k]? = some c → xs[k]? = some x → ∃ i, is[k]? = some i ∧ i ≤ 127 ∧
        c.MayUse zero (if realtime ∧ k ≠ 0 then is[k - 1]? else last) i ∧ FaithfulIn ((first && k == 0) && c.last.twoPasses) i c.picture x
  | _, _, [], [], [], _ => ⟨rfl, rfl, fun k c x h => by simp at h⟩
  | first, last, c :: calls, i :: is, x :: xs, ⟨h1, h2, h3, h4⟩ => by
    obtain ⟨l1, l2, l3⟩ := h4.get
    refine ⟨by rw [List.length_cons, List.length_cons, l1], by rw [List.length_cons, List.length_cons, l2], fun k c' x' hc hx => ?_⟩
    cases k with
    | zero =>
      cases hc
      cases hx
      refine ⟨i, rfl, h1, ?_, by rw [beq_self_eq_true, Bool.and_true]; exact h3⟩
      rw [if_neg (fun h => h.2 rfl)]
      exact h2
    | succ k =>
      obtain ⟨j, j1, j2, j3, j4⟩ := l3 k c' x' hc hx
      refine ⟨j, j1, j2, ?_, by
        rw [show (k + 1 == 0) = false from rfl, Bool.and_false]
        exact j4⟩
      cases realtime with
      | false => simpa using j3
      | true =>
        cases k with
        | zero => simpa using j3
        | succ k => simpa using j3
  | _, _, [], _ :: _, _, h => h.elim
  | _, _, [], [], _ :: _, h => h.elim
  | _, _, _ :: _, [], _, h => h.elim
  | _, _, _ :: _, _ :: _, [], h => h.elim

theorem laterCalls_near {Q : Type} [LinearOrder Q] (M : Meter Q) {width height : Nat} (hf : Fits width height) : ∀ {calls : List (Call Q)} {s s' : Session}
    {frames : List (List UInt8 × Raster)}, s.Underway width height → s.hasState = true → (∀ c ∈ calls, c.Ok width height ∧ c.last.key.TypesKept) →
    s.calls codeRenderer M calls = .ok (s', frames) → ∃ is, EachNear M.zero s.realtime false s.lastQi calls is (frames.map (·.2))
  | [], s, s', frames, hs, hn, _, h => by cases h; exact ⟨[], trivial⟩
  | c :: rest, s, s', frames, hs, hn, hc, h => by
    have hok := hc c (List.mem_cons_self ..)
    obtain ⟨s1, bytes, shown, k1, k2, k3, k4, -⟩ := laterCall M hf hs hn hok.1
    obtain ⟨m1, m2⟩ := call_remembers M k1
    unfold Session.calls at h
    rw [k1] at h
    change (Session.calls codeRenderer M s1 rest).bind _ = _ at h
    cases hr : Session.calls codeRenderer M s1 rest with
    | error e => rw [hr] at h; exact nomatch h
    | ok x =>
      rw [hr] at h
      cases h
      obtain ⟨is, l⟩ := laterCalls_near M hf k3 k2 (fun c h => hc c (List.mem_cons_of_mem _ h)) hr
      rw [hn, if_pos rfl] at m2
      dsimp only at m1 m2
      rw [k4] at m2
      rw [m1, m2] at l
      exact ⟨_ :: is, Call.index_le M.zero hs.last hok.1, Call.index_mayUse M.zero hs.last c,
        by have := call_near M hf hs.toReady (fun _ => hs) hok.1 hok.2 k1; rw [hn] at this; exact this, l⟩

/-- **C77**: whatever calls are made on a new encoder, whatever it decides inside them and whatever is in its recycled buffers, each call gives a frame;
a decoder of the same size, whatever its history, accepts all of them and shows for each a picture that is near the one given to the call: the
difference at each pixel is at most what the quantizer index of the call allows, with steps twice as wide for the first frame if that takes two passes.
Errors do not add up from frame to frame. -/
theorem C77_calls {Q : Type} [LinearOrder Q] (M : Meter Q) {width height : Nat} (hf : Fits width height) {realtime : Bool} {references : References}
    {keyHeader : KeyFrameHeader} (hk : ReusableKey keyHeader) {interHeader : InterFrameHeader} (hi : ReusableInter interHeader) {s : Session}
    (hs : Session.create width height realtime references keyHeader interHeader = some s) {calls : List (Call Q)}
    (hc : ∀ c ∈ calls, c.Ok width height ∧ c.last.key.TypesKept) {d : Decoder} (hw : d.state.width = width) (hh : d.state.height = height) :
    ∃ (s' : Session) (frames : List (List UInt8 × Raster)) (shown : List Raster) (indices : List Nat), s.calls codeRenderer M calls = .ok (s', frames) ∧
      (d.run codeRenderer (frames.map (·.1))).2 = shown.map (fun x => .ok (true, x)) ∧ indices.length = calls.length ∧ shown.length = calls.length ∧
      ∀ (k : Nat) (c : Call Q) (x : Raster), calls[k]? = some c → shown[k]? = some x → ∃ i, indices[k]? = some i ∧ i ≤ 127 ∧
        c.MayUse M.zero (indexBefore realtime indices k) i ∧ FaithfulIn (k == 0 && c.last.twoPasses) i c.picture x := by
  obtain ⟨s', frames, h1, h2, h3, -⟩ := C69_in_step M hf hk hi hs (fun c h => (hc c h).1) hw hh
  have hr : s.Ready width height ∧ s.hasState = false ∧ s.realtime = realtime ∧ s.lastQi = none := by
    unfold Session.create at hs
    split at hs
    · exact nomatch hs
    · cases hs
      exact ⟨⟨rfl, rfl, hk, hi, fun _ h => nomatch h⟩, rfl, rfl, rfl⟩
  obtain ⟨hr1, hr2, rfl, hr4⟩ := hr
  suffices ∃ is, EachNear M.zero s.realtime true s.lastQi calls is (frames.map (·.2)) by
    obtain ⟨is, hn⟩ := this
    obtain ⟨l1, l2, l3⟩ := hn.get
    rw [hr4] at l3
    exact ⟨s', frames, frames.map (·.2), is, h1, by rw [h3, List.map_map]; rfl, l1, l2, l3⟩
  cases calls with
  | nil => cases h1; exact ⟨[], trivial⟩
  | cons c rest =>
    have hok := hc c (List.mem_cons_self ..)
    obtain ⟨s1, bytes, shown, k1, k2, k3, k4, -⟩ := firstCall M hf hr1 hr2 hok.1
    obtain ⟨m1, m2⟩ := call_remembers M k1
    unfold Session.calls at h1
    rw [k1] at h1
    change (Session.calls codeRenderer M s1 rest).bind _ = _ at h1
    cases hq : Session.calls codeRenderer M s1 rest with
    | error e => rw [hq] at h1; exact nomatch h1
    | ok x =>
      rw [hq] at h1
      cases h1
      obtain ⟨is, l⟩ := laterCalls_near M hf k3 k2 (fun c h => hc c (List.mem_cons_of_mem _ h)) hq
      rw [hr2, if_neg Bool.false_ne_true] at m2
      dsimp only at m1 m2
      rw [k4] at m2
      rw [m1, m2] at l
      exact ⟨_ :: is, Call.index_le M.zero hr1.last hok.1, Call.index_mayUse M.zero hr1.last c,
        by have := call_near M hf hr1 (fun h => by rw [hr2] at h; exact nomatch h) hok.1 hok.2 k1; rw [hr2] at this; exact this, l⟩

/-! ### Example -/

/-- The three calls of `exampleCalls`, with two passes of which the second keeps the types of the macroblocks. -/
def exampleKept : List (Call Int) :=
  let w : Work := ⟨exampleTwoPasses, exampleInterChoices, grayRaster 40 30 0⟩
  [.quantizer (grayRaster 40 30 77) 30 w, .minimum (grayRaster 40 30 78) 5 (fun _ => w) w, .target (grayRaster 40 30 79) 400 (fun q => 5000 - 30 * q) w]

theorem exampleTwoPasses_work : Work.Ok 40 30 ⟨exampleTwoPasses, exampleInterChoices, grayRaster 40 30 0⟩ :=
  ⟨exampleTwoPasses_ok, exampleInterChoices_ok (by decide) (by decide), grayRaster_ok ..⟩

theorem exampleOnePass_work : Work.Ok 40 30 ⟨{ exampleKeyChoices with second := none }, exampleInterChoices, grayRaster 40 30 0⟩ :=
  ⟨⟨(exampleKeyChoices_ok 40 30).trials, (exampleKeyChoices_ok 40 30).counts, fun _ h => (nomatch h)⟩, exampleInterChoices_ok (by decide) (by decide),
    grayRaster_ok ..⟩

example : ∃ s, Session.create 40 30 true ⟨grayRaster 40 30 9, grayRaster 40 30 8, grayRaster 40 30 7⟩ = some s ∧
    ∃ (s' : Session) (frames : List (List UInt8 × Raster)) (shown : List Raster) (indices : List Nat), s.calls codeRenderer ⟨0, fun _ _ => 3⟩ exampleKept = .ok (s', frames) ∧
      (Decoder.run codeRenderer ⟨{ width := 40, height := 30 }, ⟨grayRaster 40 30 1, grayRaster 40 30 2, grayRaster 40 30 3⟩⟩ (frames.map (·.1))).2 =
        shown.map (fun x => .ok (true, x)) ∧ indices.length = 3 ∧ shown.length = 3 ∧
      ∀ (k : Nat) (c : Call Int) (x : Raster), exampleKept[k]? = some c → shown[k]? = some x → ∃ i, indices[k]? = some i ∧ i ≤ 127 ∧
        c.MayUse 0 (indexBefore true indices k) i ∧ FaithfulIn (k == 0 && c.last.twoPasses) i c.picture x := by
  refine ⟨_, rfl, ?_⟩
  exact C77_calls (⟨0, fun _ _ => 3⟩ : Meter Int) (width := 40) (height := 30) ⟨by decide, by decide, by decide⟩
    emptyKeyHeader_reusable emptyInterHeader_reusable (realtime := true)
    (references := ⟨grayRaster 40 30 9, grayRaster 40 30 8, grayRaster 40 30 7⟩) rfl (calls := exampleKept) (fun c hc => by
      rcases List.mem_cons.1 hc with rfl | hc
      · exact ⟨⟨grayRaster_ok .., by decide, exampleTwoPasses_work⟩, exampleTwoPasses_kept⟩
      rcases List.mem_cons.1 hc with rfl | hc
      · exact ⟨⟨grayRaster_ok .., fun _ => exampleTwoPasses_work, exampleTwoPasses_work⟩, exampleTwoPasses_kept⟩
      rcases List.mem_cons.1 hc with rfl | hc
      · exact ⟨⟨grayRaster_ok .., exampleTwoPasses_work⟩, exampleTwoPasses_kept⟩
      · exact nomatch hc)
    (d := ⟨{ width := 40, height := 30 }, ⟨grayRaster 40 30 1, grayRaster 40 30 2, grayRaster 40 30 3⟩⟩) rfl rfl

end Alfalfa
