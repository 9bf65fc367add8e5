import Verif.Props.Fragment

/-! Putting frames together from packets (C24, C25, C26). -/

namespace Alfalfa

theorem insane_iff (f : FragmentedFrame) (p : Packet) : f.insane p = false ↔ f.Accepts p := by
  unfold FragmentedFrame.insane
  constructor
  · intro h
    by_cases h1 : p.connectionId = f.connectionId
    swap; · rw [if_pos h1] at h; exact nomatch h
    rw [if_neg (not_not.mpr h1)] at h
    by_cases h2 : p.sourceState = f.sourceState
    swap; · rw [if_pos h2] at h; exact nomatch h
    rw [if_neg (not_not.mpr h2)] at h
    by_cases h3 : p.targetState = f.targetState
    swap; · rw [if_pos h3] at h; exact nomatch h
    rw [if_neg (not_not.mpr h3)] at h
    by_cases h4 : p.fragmentsInThisFrame = f.fragmentsInThisFrame
    swap; · rw [if_pos h4] at h; exact nomatch h
    rw [if_neg (not_not.mpr h4)] at h
    by_cases h5 : p.frameNo = f.frameNo
    swap; · rw [if_pos h5] at h; exact nomatch h
    rw [if_neg (not_not.mpr h5)] at h
    by_cases h6 : f.fragmentsInThisFrame ≤ p.fragmentNo
    · rw [if_pos h6] at h; exact nomatch h
    exact ⟨h1, h2, h3, h5, h4, by omega⟩
  · intro h
    have := h.number
    rw [if_neg (not_not.mpr h.connectionId), if_neg (not_not.mpr h.sourceState), if_neg (not_not.mpr h.targetState),
      if_neg (not_not.mpr h.fragments), if_neg (not_not.mpr h.frameNo), if_neg (by omega)]

/-- **C26.** A packet that disagrees with the frame being assembled is refused and changes nothing. -/
theorem C26_foreign_packet_refused (f : FragmentedFrame) (p : Packet)
    (h : p.connectionId ≠ f.connectionId ∨ p.sourceState ≠ f.sourceState ∨ p.targetState ≠ f.targetState ∨ p.frameNo ≠ f.frameNo ∨
      p.fragmentsInThisFrame ≠ f.fragmentsInThisFrame) : f.addPacket p = (f, some .invalidPacket) := by
  have hi : f.insane p = true := by
    by_contra hn
    have ha := (insane_iff f p).mp (by simpa using hn)
    rcases h with h | h | h | h | h
    · exact h ha.connectionId
    · exact h ha.sourceState
    · exact h ha.targetState
    · exact h ha.frameNo
    · exact h ha.fragments
  unfold FragmentedFrame.addPacket
  rw [if_pos hi]

theorem Holds.mono {f : FragmentedFrame} {ds es : List Packet} (h : f.Holds ds) (hsub : ∀ p ∈ ds, p ∈ es)
    (hnew : ∀ p ∈ es, f.Accepts p → ∃ q, f.fragments[p.fragmentNo]? = some q ∧ q.valid = true) : f.Holds es :=
  ⟨h.length, h.remaining, fun k q hq => (h.slots k q hq).imp_right fun ⟨h1, h2⟩ => ⟨hsub q h1, h2⟩, hnew⟩

theorem addPacket_holds {f : FragmentedFrame} {ds : List Packet} (h : f.Holds ds) (hn : f.fragmentsInThisFrame < 2 ^ 16) (p : Packet)
    (hp : p.valid = true) :
    (f.addPacket p).1.Holds (ds ++ [p]) ∧ (f.addPacket p).1.fragmentsInThisFrame = f.fragmentsInThisFrame ∧
      (∀ q, (f.addPacket p).1.Accepts q ↔ f.Accepts q) ∧
      (f.addPacket p).2 = if f.insane p then some .invalidPacket else none := by
  unfold FragmentedFrame.addPacket
  cases hi : f.insane p with
  | true =>
    rw [if_pos rfl, if_pos rfl]
    refine ⟨Holds.mono h (fun q hq => List.mem_append_left _ hq) ?_, rfl, (fun q => Iff.rfl), rfl⟩
    intro q hq ha
    obtain hq | hq := List.mem_append.mp hq
    · exact h.filled q hq ha
    · rw [List.mem_singleton.mp hq] at ha
      rw [(insane_iff f p).mpr ha] at hi
      exact nomatch hi
  | false =>
    rw [if_neg (by simp), if_neg (by simp)]
    have ha := (insane_iff f p).mp hi
    have hk : p.fragmentNo < f.fragments.length := h.length.symm ▸ ha.number
    rw [List.getElem?_eq_getElem hk]
    cases hv : f.fragments[p.fragmentNo].valid with
    | true =>
      show (if f.fragments[p.fragmentNo].valid = true then _ else _ : FragmentedFrame × Option NetError).1.Holds _ ∧
        (if f.fragments[p.fragmentNo].valid = true then _ else _ : FragmentedFrame × Option NetError).1.fragmentsInThisFrame = _ ∧
        (∀ q, (if f.fragments[p.fragmentNo].valid = true then _ else _ : FragmentedFrame × Option NetError).1.Accepts q ↔ f.Accepts q) ∧
        (if f.fragments[p.fragmentNo].valid = true then _ else _ : FragmentedFrame × Option NetError).2 = none
      rw [if_pos hv]
      refine ⟨Holds.mono h (fun q hq => List.mem_append_left _ hq) ?_, rfl, (fun q => Iff.rfl), rfl⟩
      intro q hq hqa
      obtain hq | hq := List.mem_append.mp hq
      · exact h.filled q hq hqa
      · rw [List.mem_singleton.mp hq]
        exact ⟨_, List.getElem?_eq_getElem hk, hv⟩
    | false =>
      show (if f.fragments[p.fragmentNo].valid = true then _ else _ : FragmentedFrame × Option NetError).1.Holds _ ∧
        (if f.fragments[p.fragmentNo].valid = true then _ else _ : FragmentedFrame × Option NetError).1.fragmentsInThisFrame = _ ∧
        (∀ q, (if f.fragments[p.fragmentNo].valid = true then _ else _ : FragmentedFrame × Option NetError).1.Accepts q ↔ f.Accepts q) ∧
        (if f.fragments[p.fragmentNo].valid = true then _ else _ : FragmentedFrame × Option NetError).2 = none
      rw [if_neg (by rw [hv]; simp)]
      have hacc : ∀ (g : FragmentedFrame) (r : Nat) (l : List Packet) (q : Packet),
          ({ g with remainingFragments := r, fragments := l } : FragmentedFrame).Accepts q ↔ g.Accepts q :=
        fun g r l q => ⟨fun h => ⟨h.1, h.2, h.3, h.4, h.5, h.6⟩, fun h => ⟨h.1, h.2, h.3, h.4, h.5, h.6⟩⟩
      have hset : ∀ j, (f.fragments.set p.fragmentNo p)[j]? = if p.fragmentNo = j then some p else f.fragments[j]? := by
        intro j; rw [List.getElem?_set, if_pos hk]
      have hcount := List.countP_set (p := fun q : Packet => !q.valid) (a := p) hk
      rw [hv, hp] at hcount
      have hpos : 0 < f.fragments.countP (fun q => !q.valid) := by
        rw [List.countP_pos_iff]
        exact ⟨_, List.getElem_mem hk, by rw [hv]; rfl⟩
      have hle : f.fragments.countP (fun q => !q.valid) ≤ f.fragments.length := List.countP_le_length
      have hl := h.length
      have hr := h.remaining
      refine ⟨⟨?_, ?_, ?_, ?_⟩, rfl, (fun q => hacc f _ _ q), rfl⟩
      · show (f.fragments.set p.fragmentNo p).length = f.fragmentsInThisFrame
        rw [List.length_set, hl]
      · show (f.remainingFragments + 2 ^ 32 - 1) % 2 ^ 32 = (f.fragments.set p.fragmentNo p).countP _
        rw [hcount]
        simp only [Bool.not_false, Bool.not_true, if_true]
        rw [if_neg (by simp)]
        omega
      · intro j q hq
        change (f.fragments.set p.fragmentNo p)[j]? = some q at hq
        rw [hset] at hq
        by_cases hj : p.fragmentNo = j
        · rw [if_pos hj] at hq
          have hq := Option.some.inj hq
          subst hq
          exact Or.inr ⟨List.mem_append_right _ (List.mem_singleton.mpr rfl), hj, (hacc f _ _ p).mpr ha⟩
        · rw [if_neg hj] at hq
          exact (h.slots j q hq).imp_right fun ⟨h1, h2, h3⟩ => ⟨List.mem_append_left _ h1, h2, (hacc f _ _ q).mpr h3⟩
      · intro q hq hqa
        have hqa := (hacc f _ _ q).mp hqa
        show ∃ r, (f.fragments.set p.fragmentNo p)[q.fragmentNo]? = some r ∧ r.valid = true
        rw [hset]
        by_cases hj : p.fragmentNo = q.fragmentNo
        · rw [if_pos hj]; exact ⟨p, rfl, hp⟩
        · rw [if_neg hj]
          obtain hq | hq := List.mem_append.mp hq
          · exact h.filled q hq hqa
          · exact absurd (congrArg Packet.fragmentNo (List.mem_singleton.mp hq)).symm hj

theorem fold_holds (rest : List Packet) : ∀ (f : FragmentedFrame) (ds : List Packet), f.Holds ds → f.fragmentsInThisFrame < 2 ^ 16 →
    (∀ p ∈ rest, p.valid = true) →
    (rest.foldl (fun f p => (f.addPacket p).1) f).Holds (ds ++ rest) ∧
      ∀ q, (rest.foldl (fun f p => (f.addPacket p).1) f).Accepts q ↔ f.Accepts q := by
  induction rest with
  | nil => intro f ds h _ _; rw [List.append_nil]; exact ⟨h, fun q => Iff.rfl⟩
  | cons p rest ih =>
    intro f ds h hn hv
    obtain ⟨h1, h2, h3, _⟩ := addPacket_holds h hn p (hv p (List.mem_cons_self ..))
    obtain ⟨h4, h5⟩ := ih (f.addPacket p).1 (ds ++ [p]) h1 (h2 ▸ hn) (fun q hq => hv q (List.mem_cons_of_mem _ hq))
    rw [List.append_assoc] at h4
    exact ⟨h4, fun q => (h5 q).trans (h3 q)⟩

theorem incoming_holds (c : Nat) (p : Packet) (h : p.Fragment) (hc : p.connectionId = c) :
    ∃ f, FragmentedFrame.incoming c p = .ok f ∧ f.Holds [p] ∧ f.fragmentsInThisFrame < 2 ^ 16 ∧ f.Accepts p := by
  obtain ⟨f, hf⟩ : ∃ f : FragmentedFrame, f =
    { connectionId := c, sourceState := p.sourceState, targetState := p.targetState, frameNo := p.frameNo
      fragmentsInThisFrame := p.fragmentsInThisFrame, fragments := List.replicate p.fragmentsInThisFrame { valid := false }
      remainingFragments := p.fragmentsInThisFrame } := ⟨_, rfl⟩
  have ha : f.Accepts p := by subst hf; exact ⟨hc, rfl, rfl, rfl, rfl, h.number⟩
  have hlt : f.fragmentsInThisFrame < 2 ^ 16 := by subst hf; exact h.fragmentsInThisFrame
  have h0 : f.Holds [] := by
    subst hf
    refine ⟨?_, ?_, ?_, ?_⟩
    · exact List.length_replicate
    · show p.fragmentsInThisFrame = _
      rw [List.countP_replicate]; rfl
    · intro k q hq
      change (List.replicate p.fragmentsInThisFrame _)[k]? = some q at hq
      rw [List.getElem?_replicate] at hq
      split at hq
      · exact Or.inl (by rw [← Option.some.inj hq])
      · exact nomatch hq
    · intro q hq
      exact absurd hq (List.not_mem_nil)
  obtain ⟨h1, h2, h3, h4⟩ := addPacket_holds h0 hlt p h.valid
  have hi := (insane_iff f p).mpr ha
  rw [hi, if_neg (by simp)] at h4
  refine ⟨(f.addPacket p).1, ?_, h1, h2 ▸ hlt, (h3 p).mpr ha⟩
  unfold FragmentedFrame.incoming
  rw [← hf]
  show (if f.insane p = true then _ else _) = _
  rw [hi, if_neg (by simp), show f.addPacket p = ((f.addPacket p).1, none) from Prod.ext rfl h4]

/-- **C26, over a whole reception.** Whatever packets arrive after the first one, in whatever order, the assembly holds only packets that arrived,
that agree with the first one and that sit in the slot of their own number, and misses none it could hold. -/
theorem C26_assembly_holds (c : Nat) (p : Packet) (rest : List Packet) (hp : p.Fragment) (hc : p.connectionId = c) (hr : ∀ q ∈ rest, q.Fragment) :
    ∃ f, assemble c (p :: rest) = some f ∧ f.Accepts p ∧ f.Holds (p :: rest) := by
  obtain ⟨f, h1, h2, h3, h4⟩ := incoming_holds c p hp hc
  obtain ⟨h5, h6⟩ := fold_holds rest f [p] h2 h3 (fun q hq => (hr q hq).valid)
  refine ⟨_, ?_, (h6 p).mpr h4, h5⟩
  rw [assemble, h1]

/-- A packet of another connection does not start an assembly. -/
theorem C26_foreign_connection (c : Nat) (p : Packet) (rest : List Packet) (hc : p.connectionId ≠ c) : assemble c (p :: rest) = none := by
  rw [assemble]
  unfold FragmentedFrame.incoming
  have : ∀ f : FragmentedFrame, f.connectionId = c → f.insane p = true := by
    intro f hf
    unfold FragmentedFrame.insane
    rw [if_pos (hf ▸ hc)]
  dsimp only
  rw [this _ rfl]
  rfl

/-- The packets among the byte strings that arrived. -/
theorem mem_parsed (ws : List (List UInt8)) (p : Packet) :
    (p ∈ ws.filterMap parsedPacket) ↔ p.Fragment ∧ ∃ w ∈ ws, p.toBytes = some w := by
  rw [List.mem_filterMap]
  constructor
  · rintro ⟨w, hw, h⟩
    have hs := C22_packet_parser_safe w
    cases hp : Packet.parse w with
    | error e => rw [parsedPacket, hp] at h; exact nomatch h
    | ok q =>
      rw [parsedPacket, hp] at h
      rw [hp] at hs
      have h := Option.some.inj h
      subst h
      exact ⟨hs.1, w, hw, hs.2⟩
  · rintro ⟨hf, w, hw, hb⟩
    obtain ⟨b, hb', hp⟩ := C20_packet_round_trip p hf
    rw [hb] at hb'
    have hb' := Option.some.inj hb'
    subst hb'
    exact ⟨w, hw, by rw [parsedPacket, hp]⟩

/-- What is in the slots when only genuine fragments claim to belong to the frame. -/
theorem received (c s t f time : Nat) (whole : List UInt8) (ps : List Packet) (hcut : CutOf c s t f time whole ps)
    (hc : c < 2 ^ 16) (hs : s < 2 ^ 32) (ht : t < 2 ^ 32) (hf : f < 2 ^ 32) (htime : time < 2 ^ 32) (hn : ps.length < 2 ^ 16)
    (w : List UInt8) (ws : List (List UInt8)) (hfirst : ∃ p ∈ ps, p.toBytes = some w)
    (hgen : ∀ v ∈ ws, ∀ p, Packet.parse v = .ok p → p.Claims ps → p ∈ ps) :
    ∃ ff, receive c (w :: ws) = some ff ∧ ff.fragmentsInThisFrame = ps.length ∧ ff.fragments.length = ps.length ∧
      ff.remainingFragments = ff.fragments.countP (fun q => !q.valid) ∧
      ∀ k (hk : k < ps.length), ∃ q, ff.fragments[k]? = some q ∧
        ((∃ v ∈ w :: ws, ps[k].toBytes = some v) → q = ps[k] ∧ q.valid = true) ∧
        ((¬ ∃ v ∈ w :: ws, ps[k].toBytes = some v) → q.valid = false) := by
  have hfrag := hcut.fragment hc hs ht hf htime hn
  obtain ⟨p, hp, hw⟩ := hfirst
  obtain ⟨b, hb, hpar⟩ := C20_packet_round_trip p (hfrag p hp)
  rw [hw] at hb
  have hb := Option.some.inj hb
  subst hb
  obtain ⟨ds, hds⟩ : ∃ ds, ds = ws.filterMap parsedPacket := ⟨_, rfl⟩
  have hlist : (w :: ws).filterMap parsedPacket = p :: ds := by
    have hw' : parsedPacket w = some p := by rw [parsedPacket, hpar]
    rw [List.filterMap_cons, hw', hds]
  have hmem := mem_parsed (w :: ws)
  rw [hlist] at hmem
  have hmem' := mem_parsed ws
  rw [← hds] at hmem'
  obtain ⟨ff, h1, h2, h3⟩ := C26_assembly_holds c p ds (hfrag p hp) (hcut.same p hp).2.1 (fun q hq => ((hmem' q).mp hq).1)
  have hcount : ff.fragmentsInThisFrame = ps.length := h2.fragments ▸ hcut.announced p hp
  have hlen : ff.fragments.length = ps.length := h3.length.trans hcount
  refine ⟨ff, ?_, hcount, hlen, h3.remaining, ?_⟩
  · rw [receive, hlist, h1]
  · intro k hk
    have hget : ff.fragments[k]? = some ff.fragments[k] := List.getElem?_eq_getElem (hlen ▸ hk)
    refine ⟨_, hget, ?_, ?_⟩
    all_goals generalize ff.fragments[k] = q at hget
    · rintro ⟨v, hv, hbv⟩
      have hin : ps[k] ∈ p :: ds := (hmem _).mpr ⟨hfrag _ (List.getElem_mem hk), v, hv, hbv⟩
      have hnum : ps[k].fragmentNo = k := hcut.number k _ (List.getElem?_eq_getElem hk)
      have hacc : ff.Accepts ps[k] := by
        obtain ⟨_, a1, a2, a3, a4⟩ := hcut.same _ (List.getElem_mem hk)
        obtain ⟨_, b1, b2, b3, b4⟩ := hcut.same p hp
        exact ⟨by rw [← h2.connectionId, a1, b1], by rw [← h2.sourceState, a2, b2], by rw [← h2.targetState, a3, b3],
          by rw [← h2.frameNo, a4, b4], by rw [hcount, hcut.announced _ (List.getElem_mem hk)], by rw [hnum, hcount]; exact hk⟩
      obtain ⟨r, hr, hrv⟩ := h3.filled _ hin hacc
      rw [hnum, hget] at hr
      have hr := Option.some.inj hr
      subst hr
      refine ⟨?_, hrv⟩
      obtain h | ⟨g1, g2, g3⟩ := h3.slots k q hget
      · rw [h] at hrv; exact nomatch hrv
      · have hqps : q ∈ ps := by
          obtain rfl | hq := List.mem_cons.mp g1
          · exact hp
          · obtain ⟨hqf, u, hu, hub⟩ := (hmem' q).mp hq
            obtain ⟨b, hb, hqp⟩ := C20_packet_round_trip q hqf
            rw [hub] at hb
            have hb := Option.some.inj hb
            subst hb
            exact hgen u hu q hqp ⟨p, hp, by rw [g3.connectionId, h2.connectionId], by rw [g3.sourceState, h2.sourceState],
              by rw [g3.targetState, h2.targetState], by rw [g3.frameNo, h2.frameNo], by rw [g3.fragments, h2.fragments]⟩
        obtain ⟨j, hj, rfl⟩ := List.mem_iff_getElem.mp hqps
        have := hcut.number j _ (List.getElem?_eq_getElem hj)
        rw [g2] at this
        subst this
        rfl
    · intro hno
      obtain h | ⟨g1, g2, g3⟩ := h3.slots k q hget
      · exact h
      · refine absurd ?_ hno
        have hqps : q ∈ ps := by
          obtain rfl | hq := List.mem_cons.mp g1
          · exact hp
          · obtain ⟨hqf, u, hu, hub⟩ := (hmem' q).mp hq
            obtain ⟨b, hb, hqp⟩ := C20_packet_round_trip q hqf
            rw [hub] at hb
            have hb := Option.some.inj hb
            subst hb
            exact hgen u hu q hqp ⟨p, hp, by rw [g3.connectionId, h2.connectionId], by rw [g3.sourceState, h2.sourceState],
              by rw [g3.targetState, h2.targetState], by rw [g3.frameNo, h2.frameNo], by rw [g3.fragments, h2.fragments]⟩
        obtain ⟨j, hj, rfl⟩ := List.mem_iff_getElem.mp hqps
        have := hcut.number j _ (List.getElem?_eq_getElem hj)
        rw [g2] at this
        subst this
        exact ((hmem _).mp g1).2

/-- **C24.** A frame's packets are sent and byte strings arrive: the first one a packet of the frame, then anything, in any order and any number of
times, except forged fragments of this frame.  The assembly is complete exactly when each packet of the frame has arrived, and then it is the
frame. -/
theorem C24_reassembly (c s t f time : Nat) (whole : List UInt8) (ps : List Packet) (hcut : CutOf c s t f time whole ps)
    (hc : c < 2 ^ 16) (hs : s < 2 ^ 32) (ht : t < 2 ^ 32) (hf : f < 2 ^ 32) (htime : time < 2 ^ 32) (hn : ps.length < 2 ^ 16)
    (w : List UInt8) (ws : List (List UInt8)) (hfirst : ∃ p ∈ ps, p.toBytes = some w)
    (hgen : ∀ v ∈ ws, ∀ p, Packet.parse v = .ok p → p.Claims ps → p ∈ ps) :
    ∃ ff, receive c (w :: ws) = some ff ∧ (ff.complete = true ↔ ∀ p ∈ ps, ∃ v ∈ w :: ws, p.toBytes = some v) ∧
      (ff.complete = true → ff.frame = .ok whole ∧ ff.packets = .ok ps) ∧
      (ff.complete = false → ff.frame = .error .invalidPacket ∧ ff.packets = .error .invalidPacket) := by
  obtain ⟨ff, h1, h2, h3, h4, h5⟩ := received c s t f time whole ps hcut hc hs ht hf htime hn w ws hfirst hgen
  have hcomp : ff.complete = true ↔ ∀ p ∈ ps, ∃ v ∈ w :: ws, p.toBytes = some v := by
    unfold FragmentedFrame.complete
    rw [beq_iff_eq, h4, List.countP_eq_zero]
    constructor
    · intro h p hp
      obtain ⟨k, hk, rfl⟩ := List.mem_iff_getElem.mp hp
      obtain ⟨q, hq, _, hno⟩ := h5 k hk
      by_contra hn
      have := h q (List.mem_of_getElem? hq)
      rw [hno hn] at this
      exact this rfl
    · intro h q hq
      obtain ⟨k, hk, rfl⟩ := List.mem_iff_getElem.mp hq
      obtain ⟨r, hr, hyes, _⟩ := h5 k (h3 ▸ hk)
      rw [List.getElem?_eq_getElem hk] at hr
      have hr := Option.some.inj hr
      rw [hr, (hyes (h _ (List.getElem_mem (h3 ▸ hk)))).2]
      simp
  refine ⟨ff, h1, hcomp, ?_, ?_⟩
  · intro hdone
    have hall := hcomp.mp hdone
    have heq : ff.fragments = ps := by
      refine List.ext_getElem h3 fun k hk hk' => ?_
      obtain ⟨r, hr, hyes, _⟩ := h5 k hk'
      rw [List.getElem?_eq_getElem hk] at hr
      rw [Option.some.inj hr, (hyes (hall _ (List.getElem_mem hk'))).1]
    unfold FragmentedFrame.frame FragmentedFrame.packets
    rw [if_neg (not_not.mpr hdone), if_neg (by rintro (h | h); exact h hdone; exact h (h3.trans h2.symm)), heq, hcut.payloads]
    exact ⟨rfl, rfl⟩
  · intro hnot
    unfold FragmentedFrame.frame FragmentedFrame.packets
    rw [hnot, if_pos (by simp), if_pos (by simp)]
    exact ⟨rfl, rfl⟩

theorem flatten_length_const (l : List (List UInt8)) (n : Nat) (h : ∀ a ∈ l, a.length = n) : l.flatten.length = l.length * n := by
  induction l with
  | nil => simp
  | cons a l ih =>
    rw [List.flatten_cons, List.length_append, ih (fun b hb => h b (List.mem_cons_of_mem _ hb)), h a (List.mem_cons_self ..), List.length_cons,
      Nat.succ_mul, Nat.add_comm]

theorem CutOf.prefix {c s t f time : Nat} {whole : List UInt8} {ps : List Packet} (h : CutOf c s t f time whole ps) (k : Nat) (hk : k ≤ ps.length) :
    ((ps.take k).map (·.payload)).flatten = whole.take (1400 * k) := by
  obtain rfl | hlt := Nat.eq_or_lt_of_le hk
  · rw [List.take_length, h.payloads, List.take_of_length_le]
    have := h.count
    omega
  · have hl : ((ps.take k).map (·.payload)).flatten.length = 1400 * k := by
      rw [flatten_length_const _ 1400, List.length_map, List.length_take]
      · omega
      · intro a ha
        obtain ⟨p, hp, rfl⟩ := List.mem_map.mp ha
        refine h.full p ?_
        rw [List.dropLast_eq_take]
        exact List.mem_of_mem_take (i := k) (by rwa [List.take_take, Nat.min_eq_left (by omega)])
    have := h.payloads
    rw [← List.take_append_drop k ps, List.map_append, List.flatten_append] at this
    rw [← this, ← hl, List.take_left]

/-- **C25.** In the same circumstances, the partial frame is the frame up to the first fragment that has not arrived. -/
theorem C25_partial_frame (c s t f time : Nat) (whole : List UInt8) (ps : List Packet) (hcut : CutOf c s t f time whole ps)
    (hc : c < 2 ^ 16) (hs : s < 2 ^ 32) (ht : t < 2 ^ 32) (hf : f < 2 ^ 32) (htime : time < 2 ^ 32) (hn : ps.length < 2 ^ 16)
    (w : List UInt8) (ws : List (List UInt8)) (hfirst : ∃ p ∈ ps, p.toBytes = some w)
    (hgen : ∀ v ∈ ws, ∀ p, Packet.parse v = .ok p → p.Claims ps → p ∈ ps) :
    ∃ ff, receive c (w :: ws) = some ff ∧
      ∀ k, (∀ j p, j < k → ps[j]? = some p → ∃ v ∈ w :: ws, p.toBytes = some v) →
        (k = ps.length ∨ ∃ p, ps[k]? = some p ∧ ¬ ∃ v ∈ w :: ws, p.toBytes = some v) → ff.partialFrame = whole.take (1400 * k) := by
  obtain ⟨ff, h1, h2, h3, h4, h5⟩ := received c s t f time whole ps hcut hc hs ht hf htime hn w ws hfirst hgen
  refine ⟨ff, h1, ?_⟩
  intro k hall hend
  have hk : k ≤ ps.length := by
    obtain h | ⟨p, hp, _⟩ := hend
    · exact h ▸ Nat.le_refl _
    · exact Nat.le_of_lt (List.getElem?_eq_some_iff.mp hp).1
  have htake : ff.fragments.take k = ps.take k := by
    refine List.ext_getElem (by simp [h3]) fun j hj hj' => ?_
    rw [List.length_take] at hj hj'
    rw [List.getElem_take, List.getElem_take]
    obtain ⟨r, hr, hyes, _⟩ := h5 j (by omega)
    rw [List.getElem?_eq_getElem (by omega)] at hr
    rw [Option.some.inj hr, (hyes (hall j _ (by omega) (List.getElem?_eq_getElem (by omega)))).1]
  have hvalid : ∀ p ∈ ff.fragments.take k, p.valid = true := by
    rw [htake]
    exact fun p hp => (hcut.same p (List.mem_of_mem_take hp)).1
  have hstop : (ff.fragments.drop k).takeWhile (·.valid) = [] := by
    obtain h | ⟨p, hp, hno⟩ := hend
    · rw [List.drop_eq_nil_of_le (by omega)]; rfl
    · obtain ⟨hlt, rfl⟩ := List.getElem?_eq_some_iff.mp hp
      obtain ⟨r, hr, _, hn⟩ := h5 k hlt
      rw [List.getElem?_eq_getElem (by omega)] at hr
      rw [List.drop_eq_getElem_cons (by omega), Option.some.inj hr, List.takeWhile_cons, hn hno]
      rfl
  unfold FragmentedFrame.partialFrame
  rw [← List.take_append_drop k ff.fragments, List.takeWhile_append_of_pos hvalid, hstop, List.append_nil, htake, hcut.prefix k hk]

/-- **C23 to C25 together**, from the frame to the frame: cut it, deliver any packets of the cut in any order and multiplicity. -/
theorem C24_any_order (whole : List UInt8) (c s t f time fuel : Nat) (h0 : 0 < whole.length) (hl : whole.length ≤ 65535 * 1400)
    (hfuel : (whole.length + 1399) / 1400 ≤ fuel)
    (hc : c < 2 ^ 16) (hs : s < 2 ^ 32) (ht : t < 2 ^ 32) (hf : f < 2 ^ 32) (htime : time < 2 ^ 32) :
    ∃ ff, FragmentedFrame.outgoing fuel c s t f time whole = some ff ∧
      ∀ order : List Nat, order ≠ [] → (∀ k ∈ order, k < ff.fragments.length) →
        ∃ wires, (order.mapM fun k => ff.fragments[k]?.bind Packet.toBytes) = some wires ∧
          ∃ g, receive c wires = some g ∧ (g.complete = true ↔ ∀ k < ff.fragments.length, k ∈ order) ∧
            (g.complete = true → g.frame = .ok whole) ∧
            ∀ k, (∀ j < k, j ∈ order) → k ∉ order → g.partialFrame = whole.take (1400 * k) := by
  obtain ⟨ff, h1, hcut, _, _, _, _⟩ := C23_fragmentation whole c s t f time fuel h0 hl hfuel
  refine ⟨ff, h1, ?_⟩
  have hn : ff.fragments.length < 2 ^ 16 := by have := hcut.count; omega
  have hfrag := hcut.fragment hc hs ht hf htime hn
  generalize ff.fragments = ps at hcut hn hfrag
  intro order hne hin
  have wire : ∀ k, k < ps.length → ∃ p w, ps[k]? = some p ∧ p ∈ ps ∧ p.fragmentNo = k ∧ p.toBytes = some w ∧ Packet.parse w = .ok p := by
    intro k hk
    obtain ⟨w, hw, hp⟩ := C20_packet_round_trip ps[k] (hfrag _ (List.getElem_mem hk))
    exact ⟨ps[k], w, List.getElem?_eq_getElem hk, List.getElem_mem hk, hcut.number k _ (List.getElem?_eq_getElem hk), hw, hp⟩
  have wires : ∃ wires, (order.mapM fun k => ps[k]?.bind Packet.toBytes) = some wires ∧ wires.length = order.length ∧
      (∀ v ∈ wires, ∃ p ∈ ps, p.toBytes = some v ∧ Packet.parse v = .ok p ∧ p.fragmentNo ∈ order) ∧
      (∀ k ∈ order, ∃ p, ps[k]? = some p ∧ ∃ v ∈ wires, p.toBytes = some v) := by
    clear hne
    induction order with
    | nil => exact ⟨[], rfl, rfl, (fun v hv => by simp at hv), (fun k hk => by simp at hk)⟩
    | cons k order ih =>
      obtain ⟨ws, e, hlen, a, b⟩ := ih (fun j hj => hin j (List.mem_cons_of_mem _ hj))
      obtain ⟨p, w, g1, g2, g3, g4, g5⟩ := wire k (hin k (List.mem_cons_self ..))
      refine ⟨w :: ws, ?_, ?_, ?_, ?_⟩
      · rw [List.mapM_cons, g1, Option.bind_some, g4, e]; rfl
      · rw [List.length_cons, List.length_cons, hlen]
      · intro v hv
        obtain rfl | hv := List.mem_cons.mp hv
        · exact ⟨p, g2, g4, g5, g3 ▸ List.mem_cons_self ..⟩
        · obtain ⟨q, q1, q2, q3, q4⟩ := a v hv
          exact ⟨q, q1, q2, q3, List.mem_cons_of_mem _ q4⟩
      · intro j hj
        obtain rfl | hj := List.mem_cons.mp hj
        · exact ⟨p, g1, w, List.mem_cons_self .., g4⟩
        · obtain ⟨q, q1, v, q2, q3⟩ := b j hj
          exact ⟨q, q1, v, List.mem_cons_of_mem _ q2, q3⟩
  obtain ⟨ws, e, hlen, a, b⟩ := wires
  refine ⟨ws, e, ?_⟩
  obtain ⟨w, rest, rfl⟩ : ∃ w rest, ws = w :: rest := by
    cases ws with
    | nil => exact absurd (List.length_eq_zero_iff.mp hlen.symm) hne
    | cons w rest => exact ⟨w, rest, rfl⟩
  have arrived : ∀ k p, ps[k]? = some p → ((∃ v ∈ w :: rest, p.toBytes = some v) ↔ k ∈ order) := by
    intro k p hp
    have hnum := hcut.number k p hp
    constructor
    · rintro ⟨v, hv, hb⟩
      obtain ⟨q, q1, q2, q3, q4⟩ := a v hv
      obtain ⟨v', hv', hpp⟩ := C20_packet_round_trip p (hfrag p (List.mem_of_getElem? hp))
      rw [hb] at hv'
      rw [← Option.some.inj hv', q3] at hpp
      rw [Except.ok.inj hpp, hnum] at q4
      exact q4
    · intro hk
      obtain ⟨q, q1, v, q2, q3⟩ := b k hk
      rw [hp] at q1
      rw [Option.some.inj q1]
      exact ⟨v, q2, q3⟩
  have hfirst : ∃ p ∈ ps, p.toBytes = some w := by
    obtain ⟨p, p1, p2, _⟩ := a w (List.mem_cons_self ..)
    exact ⟨p, p1, p2⟩
  have hgen : ∀ v ∈ rest, ∀ p, Packet.parse v = .ok p → p.Claims ps → p ∈ ps := by
    intro v hv p hp _
    obtain ⟨q, q1, _, q3, _⟩ := a v (List.mem_cons_of_mem _ hv)
    rw [hp] at q3
    exact Except.ok.inj q3 ▸ q1
  obtain ⟨g, r1, r2, r3, _⟩ := C24_reassembly c s t f time whole ps hcut hc hs ht hf htime hn w rest hfirst hgen
  obtain ⟨g', r1', r4⟩ := C25_partial_frame c s t f time whole ps hcut hc hs ht hf htime hn w rest hfirst hgen
  rw [r1] at r1'
  have := Option.some.inj r1'
  subst this
  refine ⟨g, r1, ?_, fun h => (r3 h).1, ?_⟩
  · rw [r2]
    constructor
    · intro h k hk
      exact (arrived k _ (List.getElem?_eq_getElem hk)).mp (h _ (List.getElem_mem hk))
    · intro h p hp
      obtain ⟨k, hk, rfl⟩ := List.mem_iff_getElem.mp hp
      exact (arrived k _ (List.getElem?_eq_getElem hk)).mpr (h k hk)
  · intro k hbefore hk
    by_cases hkl : k < ps.length
    · refine r4 k (fun j p hj hp => (arrived j p hp).mpr (hbefore j hj)) (Or.inr ⟨_, List.getElem?_eq_getElem hkl, ?_⟩)
      rw [arrived k _ (List.getElem?_eq_getElem hkl)]
      exact hk
    · have : k = ps.length := by
        by_contra hne
        have := hin _ (hbefore ps.length (by omega))
        omega
      exact r4 k (fun j p hj hp => (arrived j p hp).mpr (hbefore j hj)) (Or.inl this)

/-! ### Examples -/

/-- 3000 bytes are three fragments; they arrive as 2, 0, 2, 1 and the frame is there. -/
example : ∃ ff wires g, FragmentedFrame.outgoing 3 7 1 2 9 33000 (List.replicate 3000 5) = some ff ∧ ff.fragments.length = 3 ∧
    ([2, 0, 2, 1].mapM fun k => ff.fragments[k]?.bind Packet.toBytes) = some wires ∧ receive 7 wires = some g ∧
    g.complete = true ∧ g.frame = .ok (List.replicate 3000 5) := by
  obtain ⟨ff', e, hcut, _⟩ := C23_fragmentation (List.replicate 3000 5) 7 1 2 9 33000 3 (by rw [List.length_replicate]; omega) (by rw [List.length_replicate]; omega) (by rw [List.length_replicate])
  obtain ⟨ff, h, hany⟩ := C24_any_order (List.replicate 3000 5) 7 1 2 9 33000 3 (by rw [List.length_replicate]; omega) (by rw [List.length_replicate]; omega) (by rw [List.length_replicate]) (by decide) (by decide) (by decide)
    (by decide) (by decide)
  rw [e] at h
  have := Option.some.inj h
  subst this
  have hlen : ff'.fragments.length = 3 := by rw [hcut.count, List.length_replicate]
  obtain ⟨wires, hw, g, hg, hc, hf, _⟩ := hany [2, 0, 2, 1] (by simp) (by rw [hlen]; decide)
  have hdone := hc.mpr (by rw [hlen]; decide)
  exact ⟨ff', wires, g, e, hlen, hw, hg, hdone, hf hdone⟩

/-- Only the first and the last have arrived: not complete, and the partial frame is the first 1400 bytes. -/
example : ∃ ff wires g, FragmentedFrame.outgoing 3 7 1 2 9 33000 (List.replicate 3000 5) = some ff ∧
    ([2, 0].mapM fun k => ff.fragments[k]?.bind Packet.toBytes) = some wires ∧ receive 7 wires = some g ∧
    g.complete = false ∧ g.partialFrame = List.replicate 1400 5 := by
  obtain ⟨ff', e, hcut, _⟩ := C23_fragmentation (List.replicate 3000 5) 7 1 2 9 33000 3 (by rw [List.length_replicate]; omega) (by rw [List.length_replicate]; omega) (by rw [List.length_replicate])
  obtain ⟨ff, h, hany⟩ := C24_any_order (List.replicate 3000 5) 7 1 2 9 33000 3 (by rw [List.length_replicate]; omega) (by rw [List.length_replicate]; omega) (by rw [List.length_replicate]) (by decide) (by decide) (by decide)
    (by decide) (by decide)
  rw [e] at h
  have := Option.some.inj h
  subst this
  have hlen : ff'.fragments.length = 3 := by rw [hcut.count, List.length_replicate]
  obtain ⟨wires, hw, g, hg, hc, hf, hpart⟩ := hany [2, 0] (by simp) (by rw [hlen]; decide)
  refine ⟨ff', wires, g, e, hw, hg, ?_, ?_⟩
  · rw [← Bool.not_eq_true, hc, hlen]; decide
  · rw [hpart 1 (by decide) (by decide), List.take_replicate]; rfl

/-- A packet of the next frame does not disturb the assembly of this one. -/
example : ∃ f, FragmentedFrame.incoming 1337 examplePacket = .ok f ∧
    f.addPacket { examplePacket with frameNo := 70001, fragmentNo := 4 } = (f, some .invalidPacket) := by
  obtain ⟨f, h, _, _, ha⟩ := incoming_holds 1337 examplePacket examplePacket_fragment rfl
  exact ⟨f, h, C26_foreign_packet_refused _ _ (Or.inr (Or.inr (Or.inr (Or.inl (by rw [← ha.frameNo]; decide)))))⟩

/-- A whole reception with a stranger in it. -/
example : ∃ f, assemble 1337 [examplePacket, { examplePacket with frameNo := 70001, fragmentNo := 4 }, { examplePacket with fragmentNo := 299 }] = some f ∧
    f.Accepts examplePacket ∧ f.Holds [examplePacket, { examplePacket with frameNo := 70001, fragmentNo := 4 }, { examplePacket with fragmentNo := 299 }] := by
  refine C26_assembly_holds 1337 examplePacket _ examplePacket_fragment rfl ?_
  intro q hq
  rw [List.mem_cons, List.mem_singleton] at hq
  obtain rfl | rfl := hq
  · refine ⟨⟨?_, ?_, ?_, ?_, ?_, ?_⟩, rfl, ?_, ?_⟩ <;> decide
  · refine ⟨⟨?_, ?_, ?_, ?_, ?_, ?_⟩, rfl, ?_, ?_⟩ <;> decide

end Alfalfa
