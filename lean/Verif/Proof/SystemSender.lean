import Verif.Proof.SystemReceiver
import Verif.Props.Sender

/-! The sender inside the system: it still has the encoders it may need. -/

namespace Alfalfa

variable {E : Type} (minihash : E → Nat)

/-- The loop that forgets encoders stops at the acknowledged state. -/
theorem cleanUp_spec (acked assumed : Nat) : ∀ (l : List Nat) (m : NatMap E), l.Nodup → acked ∈ l → l.getLast? = some assumed →
    ∃ pre post, l = pre ++ acked :: post ∧ acked ∉ pre ∧
      cleanUp acked (some assumed) l m = some (acked :: post, fun j => if j ∈ pre then none else m j) := by
  intro l
  induction l with
  | nil => intro m _ h; exact absurd h List.not_mem_nil
  | cons s rest ih =>
    intro m hn hm hl
    rw [cleanUp]
    by_cases hs : s = acked
    · rw [if_neg (not_not.mpr hs)]
      refine ⟨[], rest, by rw [hs]; rfl, List.not_mem_nil, ?_⟩
      rw [hs]
      simp
    · rw [if_pos hs]
      have hm' : acked ∈ rest := by
        obtain h | h := List.mem_cons.mp hm
        · exact absurd h.symm hs
        · exact h
      obtain ⟨hsr, hn'⟩ := List.nodup_cons.mp hn
      have hl' : rest.getLast? = some assumed := by
        rw [← hl, show s :: rest = [s] ++ rest from rfl, getLast?_append_ne _ _ (mem_ne_nil hm')]
      have hsa : s ≠ assumed := fun h => hsr (h ▸ List.mem_of_getLast? hl')
      rw [if_pos hsa, if_neg hsr]
      obtain ⟨pre, post, e1, e2, e3⟩ := ih (m.erase s) hn' hm' hl'
      refine ⟨s :: pre, post, by rw [e1]; rfl, ?_, ?_⟩
      · intro h
        obtain h | h := List.mem_cons.mp h
        · exact hs h.symm
        · exact e2 h
      · rw [e3]
        congr 2
        funext j
        by_cases hj : j ∈ pre
        · rw [if_pos hj, if_pos (List.mem_cons_of_mem _ hj)]
        · rw [if_neg hj]
          by_cases hjs : j = s
          · rw [if_pos (by rw [hjs]; exact List.mem_cons_self ..)]; exact if_pos hjs
          · rw [if_neg (fun h => (List.mem_cons.mp h).elim hjs hj)]; exact if_neg hjs

/-- The sender in the system, when the frames sent so far lead to `targets`. -/
structure SInv (initial : Nat) (targets : List Nat) (s : Sender E) : Prop where
  connection : s.connectionId = 1337
  start : s.initialState = initial
  fresh : (initial :: targets).Nodup
  states : ∃ p, s.encoderStates = targets.drop p ∧ (p = 0 ∨ p < rank targets s.receiverCompleteStates) ∧ (targets ≠ [] → p < targets.length)
  dom : ∀ t, (s.encoders t).isSome = true ↔ t = initial ∨ t ∈ s.encoderStates
  key : ∀ t e, s.encoders t = some e → minihash e = t
  assumed : s.receiverAssumedState = targets.getLast?
  jobs : ∀ j ∈ s.jobs, minihash j.encoder = initial ∨ minihash j.encoder ∈ targets
  acked : ∀ a, s.receiverLastAckedState = some a → targets ≠ [] ∧ (a ∈ targets → s.receiverCompleteStates.getLast? = some a)
  last : ∀ c, s.receiverCompleteStates.getLast? = some c → c ∈ targets
  delay : s.avgDelay ≠ 2 ^ 32 - 1 → targets ≠ []

theorem start_sinv (mode : OperationMode) (base : E) (now : Int) : SInv minihash (minihash base) [] (Sender.start minihash 1337 mode base now) where
  connection := rfl
  start := rfl
  fresh := by simp
  states := ⟨0, rfl, Or.inl rfl, fun h => absurd rfl h⟩
  dom := by
    intro t
    show ((if t = minihash base then some base else none : Option E)).isSome = true ↔ t = minihash base ∨ t ∈ []
    by_cases ht : t = minihash base
    · simp [ht]
    · simp [ht]
  key := by
    intro t e h
    change (if t = minihash base then some base else none) = some e at h
    by_cases ht : t = minihash base
    · rw [if_pos ht] at h; rw [← Option.some.inj h, ht]
    · rw [if_neg ht] at h; exact nomatch h
  assumed := rfl
  jobs := fun j h => absurd h List.not_mem_nil
  acked := fun a h => (nomatch h)
  last := fun c h => (nomatch h)
  delay := fun h => absurd rfl h

section
variable {minihash} {initial : Nat} {targets : List Nat}

/-- A complete state that the sender knows of is one it has an encoder for. -/
theorem SInv.last_held {s : Sender E} (hs : SInv minihash initial targets s) {c : Nat} (hc : s.receiverCompleteStates.getLast? = some c) :
    c ∈ s.encoderStates := by
  obtain ⟨p, h1, h2, _⟩ := hs.states
  have hmem := hs.last c hc
  rw [h1]
  have hidx : p ≤ targets.idxOf c := by
    obtain h | h := h2
    · omega
    · rw [rank_last hc] at h; omega
  have hlt := List.idxOf_lt_length_of_mem hmem
  have hg : (targets.drop p)[targets.idxOf c - p]? = some c := by
    rw [List.getElem?_drop, Nat.add_sub_cancel' hidx, List.getElem?_eq_getElem hlt, List.getElem_idxOf]
  exact List.mem_of_getElem? hg

theorem SInv.assumed_held {s : Sender E} (hs : SInv minihash initial targets s) {t : Nat} (h : s.receiverAssumedState = some t) :
    s.encoderStates.getLast? = some t := by
  obtain ⟨p, h1, _, h3⟩ := hs.states
  rw [hs.assumed] at h
  have hne : targets ≠ [] := mem_ne_nil (List.mem_of_getLast? h)
  rw [h1, List.getLast?_drop, if_neg (by have := h3 hne; omega), h]

theorem SInv.cleanUp {s s' : Sender E} (hs : SInv minihash initial targets s) (h : s.cleanUp = some s') : SInv minihash initial targets s' ∧
    s'.mode = s.mode ∧ s'.avgDelay = s.avgDelay ∧ s'.jobs = s.jobs ∧ s'.receiverCompleteStates = s.receiverCompleteStates := by
  obtain ⟨states, encoders, rfl, ⟨rfl, rfl⟩ | ⟨acked, h1, h2, h3, h4⟩⟩ := cleanUp_eq h
  · exact ⟨hs, rfl, rfl, rfl, rfl⟩
  refine ⟨?_, rfl, rfl, rfl, rfl⟩
  obtain ⟨hne, hac⟩ := hs.acked acked h1
  obtain ⟨p, e1, e2, e3⟩ := hs.states
  have hin : acked ∈ s.encoderStates := by
    obtain h | h := (hs.dom acked).mp h3
    · exact absurd (h.trans hs.start.symm) h2
    · exact h
  have hmem : acked ∈ targets := List.mem_of_mem_drop (e1 ▸ hin)
  have hnt : targets.Nodup := (List.nodup_cons.mp hs.fresh).2
  obtain ⟨t, ht⟩ : ∃ t, targets.getLast? = some t := ⟨_, List.getLast?_eq_some_getLast hne⟩
  have hass : s.receiverAssumedState = some t := hs.assumed.trans ht
  obtain ⟨pre, post, f1, f2, f3⟩ := cleanUp_spec acked t s.encoderStates s.encoders (by rw [e1]; exact (List.drop_sublist _ _).nodup hnt) hin
    (hs.assumed_held hass)
  rw [hass, f3] at h4
  obtain ⟨rfl, rfl⟩ := Prod.mk.inj (Option.some.inj h4)
  have hdrop : acked :: post = targets.drop (p + pre.length) := by
    rw [← List.drop_drop, ← e1, f1, List.drop_left]
  have hidx : targets.idxOf acked = p + pre.length := by
    have hlt : p + pre.length < targets.length := by
      by_contra hge
      rw [List.drop_eq_nil_of_le (by omega)] at hdrop
      exact nomatch hdrop
    have hget : targets[p + pre.length] = acked := by
      have : (targets.drop (p + pre.length))[0]? = some acked := by rw [← hdrop]; rfl
      rw [List.getElem?_drop, Nat.add_zero] at this
      exact (List.getElem?_eq_some_iff.mp this).2
    conv => lhs; rw [← hget]
    exact List.Nodup.idxOf_getElem hnt _ hlt
  refine ⟨hs.connection, hs.start, hs.fresh, ⟨p + pre.length, hdrop, Or.inr ?_, ?_⟩, ?_, ?_, hs.assumed, hs.jobs, hs.acked, hs.last, hs.delay⟩
  · show _ < rank targets s.receiverCompleteStates
    rw [rank_last (hac hmem), hidx]; omega
  · intro _
    have := List.idxOf_lt_length_of_mem hmem
    omega
  · intro t
    show ((if t ∈ pre then none else s.encoders t : Option E)).isSome = true ↔ t = initial ∨ t ∈ acked :: post
    have hdis : ∀ x ∈ pre, x ∉ acked :: post := by
      have hnd : s.encoderStates.Nodup := by rw [e1]; exact (List.drop_sublist _ _).nodup hnt
      rw [f1, List.nodup_append] at hnd
      exact fun x hx hx' => hnd.2.2 x hx x hx' rfl
    have hpre : ∀ x ∈ pre, x ≠ initial := by
      intro x hx he
      refine (List.nodup_cons.mp hs.fresh).1 ?_
      rw [← he]
      refine List.mem_of_mem_drop (i := p) ?_
      rw [← e1, f1]; exact List.mem_append_left _ hx
    by_cases htp : t ∈ pre
    · rw [if_pos htp]
      constructor
      · intro h; exact nomatch h
      · rintro (h | h)
        · exact absurd h (hpre t htp)
        · exact absurd h (hdis t htp)
    · rw [if_neg htp, hs.dom t, f1]
      constructor
      · rintro (h | h)
        · exact Or.inl h
        · obtain h | h := List.mem_append.mp h
          · exact absurd h htp
          · exact Or.inr h
      · rintro (h | h)
        · exact Or.inl h
        · exact Or.inr (List.mem_append_right _ h)
  · intro t e he
    change (if t ∈ pre then none else s.encoders t) = some e at he
    by_cases htp : t ∈ pre
    · rw [if_pos htp] at he; exact nomatch he
    · rw [if_neg htp] at he; exact hs.key t e he

/-- The cleanup does not fail. -/
theorem SInv.cleanUp_total {s : Sender E} (hs : SInv minihash initial targets s) : ∃ s', s.cleanUp = some s' := by
  unfold Sender.cleanUp
  cases ha : s.receiverLastAckedState with
  | none => exact ⟨s, rfl⟩
  | some acked =>
    dsimp only
    by_cases hc : acked ≠ s.initialState ∧ (s.encoders acked).isSome = true
    swap
    · rw [if_neg hc]; exact ⟨_, rfl⟩
    rw [if_pos hc]
    have hin : acked ∈ s.encoderStates := by
      obtain h | h := (hs.dom acked).mp hc.2
      · exact absurd (h.trans hs.start.symm) hc.1
      · exact h
    obtain ⟨p, e1, e2, e3⟩ := hs.states
    obtain ⟨t, ht⟩ : ∃ t, targets.getLast? = some t := ⟨_, List.getLast?_eq_some_getLast (hs.acked acked ha).1⟩
    have hass : s.receiverAssumedState = some t := hs.assumed.trans ht
    obtain ⟨pre, post, f1, f2, f3⟩ := cleanUp_spec acked t s.encoderStates s.encoders
      (by rw [e1]; exact (List.drop_sublist _ _).nodup (List.nodup_cons.mp hs.fresh).2) hin (hs.assumed_held hass)
    rw [hass, f3]
    exact ⟨_, rfl⟩

/-- The state that is selected is the initial one or one that a frame led to, and the sender has an encoder for it. -/
theorem SInv.select {s : Sender E} (hs : SInv minihash initial targets s) (now : Int) :
    ∃ source u e, s.select now = some (source, u) ∧ s.encoders source = some e ∧ (source = initial ∨ source ∈ targets) := by
  have hinit : ∃ e, s.encoders initial = some e := Option.isSome_iff_exists.mp ((hs.dom initial).mpr (Or.inl rfl))
  have hsub : ∀ t ∈ s.encoderStates, t ∈ targets := by
    intro t ht
    obtain ⟨p, e1, _⟩ := hs.states
    exact List.mem_of_mem_drop (e1 ▸ ht)
  have hheld : ∀ t ∈ s.encoderStates, ∃ e, s.encoders t = some e := fun t ht => Option.isSome_iff_exists.mp ((hs.dom t).mpr (Or.inr ht))
  have hknown : ∃ e, s.encoders s.knownState = some e ∧ (s.knownState = initial ∨ s.knownState ∈ targets) := by
    unfold Sender.knownState
    cases hl : s.receiverCompleteStates.getLast? with
    | none =>
      obtain ⟨e, he⟩ := hinit
      exact ⟨e, by rw [Option.getD_none, hs.start]; exact he, Or.inl hs.start⟩
    | some c =>
      obtain ⟨e, he⟩ := hheld c (hs.last_held hl)
      exact ⟨e, he, Or.inr (hs.last c hl)⟩
  obtain ⟨e, he, hk⟩ := hknown
  unfold Sender.select
  by_cases hn : now < s.conservativeUntil
  · rw [if_pos hn]; exact ⟨_, _, e, rfl, he, hk⟩
  rw [if_neg hn]
  cases ha : s.receiverLastAckedState with
  | none =>
    dsimp only
    cases has : s.receiverAssumedState with
    | none =>
      obtain ⟨e, he⟩ := hinit
      exact ⟨_, _, e, rfl, by rw [Option.getD_none, hs.start]; exact he, Or.inl hs.start⟩
    | some t =>
      have hm := List.mem_of_getLast? (hs.assumed_held has)
      obtain ⟨e, he⟩ := hheld t hm
      exact ⟨_, _, e, rfl, he, Or.inr (hsub t hm)⟩
  | some acked =>
    dsimp only
    by_cases hnone : (s.encoders acked).isNone = true
    · rw [if_pos hnone]; exact ⟨_, _, e, rfl, he, hk⟩
    · rw [if_neg hnone]
      obtain ⟨t, ht⟩ : ∃ t, targets.getLast? = some t := ⟨_, List.getLast?_eq_some_getLast (hs.acked acked ha).1⟩
      have hass : s.receiverAssumedState = some t := hs.assumed.trans ht
      have hm := List.mem_of_getLast? (hs.assumed_held hass)
      obtain ⟨e, he⟩ := hheld t hm
      rw [hass]
      exact ⟨t, _, e, rfl, he, Or.inr (hsub t hm)⟩

theorem SInv.startEncode {s s' : Sender E} {now : Int} {cc : Nat} {due : Bool} (hs : SInv minihash initial targets s)
    (h : s.startEncode now cc due = some s') : SInv minihash initial targets s' ∧ s'.receiverCompleteStates = s.receiverCompleteStates ∧
      s'.receiverLastAckedState = s.receiverLastAckedState := by
  obtain ⟨_, rfl⟩ | ⟨_, s1, source, u, e, h1, h2, h3, rfl⟩ := startEncode_spec h
  · exact ⟨hs, rfl, rfl⟩
  · obtain ⟨i1, _, _, _, c1⟩ := hs.cleanUp h1
    have hla : s1.receiverLastAckedState = s.receiverLastAckedState := by
      obtain ⟨st, en, rfl, _⟩ := cleanUp_eq h1; rfl
    refine ⟨⟨i1.connection, i1.start, i1.fresh, i1.states, i1.dom, i1.key, i1.assumed, ?_, i1.acked, i1.last, i1.delay⟩, c1, hla⟩
    obtain ⟨src, u', e', k1, k2, k3⟩ := i1.select now
    rw [h2] at k1
    have k1 := (Prod.mk.inj (Option.some.inj k1)).1
    subst k1
    rw [h3] at k2
    have hmh := i1.key source e h3
    intro j hj
    change j ∈ encodeJobs s.mode s.lastQuantizer e cc at hj
    have : j.encoder = e := by
      unfold encodeJobs at hj
      cases hm : s.mode with
      | conventional => rw [hm] at hj; rw [List.mem_singleton.mp hj]
      | s1 => rw [hm] at hj; simp at hj; obtain h | h := hj <;> rw [h]
      | s2 => rw [hm] at hj; simp at hj; obtain h | h := hj <;> rw [h]
    rw [this, hmh]
    exact k3

theorem SInv.startEncode_total {s : Sender E} (hs : SInv minihash initial targets s) (now : Int) (cc : Nat) (due : Bool)
    (hd : ¬ (s.mode = .conventional ∧ due = true ∧ s.avgDelay = 0)) : ∃ s', s.startEncode now cc due = some s' := by
  unfold Sender.startEncode
  by_cases hj : s.jobs = []
  swap
  · rw [if_pos (by simpa using hj)]; exact ⟨_, rfl⟩
  rw [if_neg (by simp [hj])]
  obtain ⟨s1, h1⟩ := hs.cleanUp_total
  obtain ⟨i1, m1, a1, _⟩ := hs.cleanUp h1
  obtain ⟨src, u, e, h2, h3, _⟩ := i1.select now
  rw [h1]
  show ∃ s', ((s1.select now).bind _) = some s'
  rw [h2]
  show ∃ s', ((s1.encoders src).bind _) = some s'
  rw [h3]
  show ∃ s', (if s1.mode = .conventional ∧ due = true ∧ s1.avgDelay = 0 then none else _) = some s'
  rw [if_neg (by rw [m1, a1]; exact hd)]
  exact ⟨_, rfl⟩

theorem SInv.acknowledge {s s' : Sender E} {a : AckPacket} (hs : SInv minihash initial targets s) (hne : targets ≠ [])
    (hcur : a.currentState ∈ targets → a.completeStates.getLast? = some a.currentState) (hlast : ∀ c, a.completeStates.getLast? = some c → c ∈ targets)
    (hrank : rank targets s.receiverCompleteStates ≤ rank targets a.completeStates) (h : s.acknowledge a = some s') :
    SInv minihash initial targets s' ∧ (s' = s ∨ (s'.receiverCompleteStates = a.completeStates ∧ s'.receiverLastAckedState = some a.currentState)) := by
  obtain ⟨_, rfl⟩ | ⟨_, seq, _, ⟨_, _, rfl⟩ | ⟨_, rfl⟩⟩ := acknowledge_spec h
  · exact ⟨hs, Or.inl rfl⟩
  · exact ⟨hs, Or.inl rfl⟩
  · obtain ⟨p, e1, e2, e3⟩ := hs.states
    refine ⟨⟨hs.connection, hs.start, hs.fresh, ⟨p, e1, ?_, e3⟩, hs.dom, hs.key, hs.assumed, hs.jobs, ?_, hlast, fun _ => hne⟩, Or.inr ⟨rfl, rfl⟩⟩
    · show p = 0 ∨ p < rank targets a.completeStates
      obtain h | h := e2
      · exact Or.inl h
      · exact Or.inr (by omega)
    · intro b hb
      change some a.currentState = some b at hb
      rw [← Option.some.inj hb]
      exact ⟨hne, hcur⟩

theorem SInv.endEncode {s s' : Sender E} {results : List (E × List UInt8)} {time : Nat} {ff : Option FragmentedFrame}
    (hs : SInv minihash initial targets s) (h : s.endEncode minihash results time = some (s', ff))
    (hfresh : ∀ f, ff = some f → (initial :: (targets ++ [f.targetState])).Nodup ∧ s.receiverLastAckedState ≠ some f.targetState) :
    SInv minihash initial (targets ++ (ff.toList.map (·.targetState))) s' ∧ s'.receiverCompleteStates = s.receiverCompleteStates ∧
      s'.receiverLastAckedState = s.receiverLastAckedState ∧
      ∀ f, ff = some f → (f.sourceState = initial ∨ f.sourceState ∈ targets) ∧ ∃ e, f.targetState = minihash e := by
  obtain ⟨size, choice, _, hch, ⟨hcn, rfl, rfl⟩ | ⟨best, o, f, count, _, ho, hf, hcount, rfl, rfl⟩⟩ := endEncode_spec minihash h
  · rw [Option.toList_none, List.map_nil, List.append_nil]
    exact ⟨⟨hs.connection, hs.start, hs.fresh, hs.states, hs.dom, hs.key, hs.assumed, fun j h => absurd h List.not_mem_nil, hs.acked, hs.last, hs.delay⟩,
      rfl, rfl, fun f h => (nomatch h)⟩
  · rw [Option.toList_some, List.map_singleton]
    have hfields : f.sourceState = o.sourceMinihash ∧ f.targetState = minihash o.encoder := by
      unfold FragmentedFrame.outgoing at hf
      obtain ⟨ps, _, hf⟩ := Option.bind_eq_some_iff.mp hf
      cases ps with
      | nil => exact nomatch hf
      | cons first rest =>
        dsimp only at hf
        obtain ⟨fs, _, hf⟩ := Option.bind_eq_some_iff.mp hf
        rw [← Option.some.inj hf]
        exact ⟨rfl, rfl⟩
    obtain ⟨hfr, hla⟩ := hfresh f rfl
    obtain ⟨j, r, hj, _, hoe⟩ := zipWith_get _ _ _ _ _ ho
    have hsrc : o.sourceMinihash = initial ∨ o.sourceMinihash ∈ targets := by
      rw [hoe]; exact hs.jobs j (List.mem_of_getElem? hj)
    rw [hfields.2] at hfr hla ⊢
    have hnot : minihash o.encoder ≠ initial ∧ minihash o.encoder ∉ targets := by
      rw [List.nodup_cons, List.nodup_append] at hfr
      refine ⟨fun h => hfr.1 (by rw [← h]; simp), fun h => hfr.2.2.2 _ h _ (List.mem_singleton.mpr rfl) rfl⟩
    obtain ⟨p, e1, e2, e3⟩ := hs.states
    have hple : p ≤ targets.length := by
      by_cases hne : targets = []
      · obtain h | h := e2
        · omega
        · unfold rank at h
          cases hl : s.receiverCompleteStates.getLast? with
          | none => rw [hl] at h; exact absurd h (Nat.not_lt_zero _)
          | some c => have := hs.last c hl; rw [hne] at this; exact absurd this List.not_mem_nil
      · exact Nat.le_of_lt (e3 hne)
    have hnone : s.encoders (minihash o.encoder) = none := by
      cases he : s.encoders (minihash o.encoder) with
      | none => rfl
      | some e =>
        have := (hs.dom (minihash o.encoder)).mp (by rw [he]; rfl)
        obtain h | h := this
        · exact absurd h hnot.1
        · exact absurd (List.mem_of_mem_drop (e1 ▸ h)) hnot.2
    refine ⟨⟨hs.connection, hs.start, hfr, ⟨p, ?_, ?_, ?_⟩, ?_, ?_, ?_, fun j h => absurd h List.not_mem_nil, ?_, ?_, ?_⟩, rfl, rfl, ?_⟩
    · show s.encoderStates ++ _ = _
      rw [e1, List.drop_append_of_le_length hple]
    · show p = 0 ∨ p < rank _ s.receiverCompleteStates
      rw [rank_append _ hs.last]; exact e2
    · intro _; simp; omega
    · intro t
      show ((if t = minihash o.encoder then (s.encoders (minihash o.encoder)).or (some o.encoder) else s.encoders t : Option E)).isSome = true ↔
        t = initial ∨ t ∈ s.encoderStates ++ [minihash o.encoder]
      by_cases ht : t = minihash o.encoder
      · rw [if_pos ht, hnone, ht]; simp
      · rw [if_neg ht, hs.dom t, List.mem_append, List.mem_singleton]
        constructor
        · rintro (h | h)
          · exact Or.inl h
          · exact Or.inr (Or.inl h)
        · rintro (h | h | h)
          · exact Or.inl h
          · exact Or.inr h
          · exact absurd h ht
    · intro t e he
      change (if t = minihash o.encoder then (s.encoders (minihash o.encoder)).or (some o.encoder) else s.encoders t) = some e at he
      by_cases ht : t = minihash o.encoder
      · rw [if_pos ht, hnone] at he
        rw [ht, ← Option.some.inj he]
      · rw [if_neg ht] at he; exact hs.key t e he
    · show some _ = _
      simp
    · intro a ha
      change s.receiverLastAckedState = some a at ha
      refine ⟨by simp, fun hin => ?_⟩
      obtain hin | hin := List.mem_append.mp hin
      · exact (hs.acked a ha).2 hin
      · rw [List.mem_singleton.mp hin] at ha; exact absurd ha hla
    · intro c hc
      exact List.mem_append_left _ (hs.last c hc)
    · intro _; simp
    · intro g hg
      rw [← Option.some.inj hg, hfields.1]
      exact ⟨hsrc, o.encoder, hfields.2⟩

end

end Alfalfa
