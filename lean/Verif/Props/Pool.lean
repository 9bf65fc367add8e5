import Verif.Spec.Pool
import Mathlib.Data.List.Basic

/-! The pool of pictures (C49). -/

namespace Alfalfa

variable {α : Type}

/-- What a handle of the pool stands for. -/
def Pool.view (p : Pool α) (h : PoolHandle) : Option (Held α) := (p.heap h.address).map fun o => ⟨h.frozen, o.width, o.height, o.content⟩

/-- All handles. -/
def Pool.held (p : Pool α) : List (Option (Held α)) := p.handles.map fun h => h.bind p.view

/-- What holds in every history in which no mutable picture is hashed. -/
structure Pool.Ok (H : α → Nat) (p : Pool α) : Prop where
  distinct : p.unused.Nodup
  unused : ∀ a ∈ p.unused, a < p.next ∧ ∃ o, p.heap a = some o ∧ o.cache = none
  live : ∀ h, some h ∈ p.handles → h.address < p.next ∧ h.address ∉ p.unused ∧ ∃ o, p.heap h.address = some o ∧
    ∀ c, o.cache = some c → h.frozen = true ∧ c = H o.content
  alone : ∀ (i j : Nat) (h k : PoolHandle), p.handles[i]? = some (some h) → p.handles[j]? = some (some k) → h.address = k.address → i = j ∨ h.frozen = true ∧ k.frozen = true

variable {H : α → Nat} {p : Pool α}

theorem Pool.held_get (p : Pool α) (id : Nat) : p.held[id]? = p.handles[id]?.map fun h => h.bind p.view := by
  unfold Pool.held; rw [List.getElem?_map]

theorem Pool.Ok.get (hp : p.Ok H) {id : Nat} {h : PoolHandle} (hh : p.handles[id]? = some (some h)) :
    ∃ o, p.heap h.address = some o ∧ (∀ c, o.cache = some c → h.frozen = true ∧ c = H o.content) ∧
      p.held[id]? = some (some ⟨h.frozen, o.width, o.height, o.content⟩) := by
  obtain ⟨-, -, o, h1, h2⟩ := hp.live h (List.mem_of_getElem? hh)
  refine ⟨o, h1, h2, ?_⟩
  rw [Pool.held_get, hh]
  simp [Pool.view, h1]

theorem Pool.held_none {id : Nat} (hh : ∀ h, p.handles[id]? ≠ some (some h)) : ∀ x, p.held[id]? ≠ some (some x) := by
  intro x hx
  rw [Pool.held_get] at hx
  cases he : p.handles[id]? with
  | none => rw [he] at hx; exact nomatch hx
  | some y =>
    cases y with
    | none => rw [he] at hx; exact nomatch hx
    | some h => exact hh h he

/-- Handles whose objects did not change stand for the same. -/
theorem held_same {p q : Pool α} (hh : q.handles = p.handles) (hv : ∀ h, some h ∈ p.handles → q.view h = p.view h) : q.held = p.held := by
  unfold Pool.held
  rw [hh]
  refine List.map_congr_left fun h hm => ?_
  cases h with
  | none => rfl
  | some h => exact hv h hm

/-- A new handle. -/
theorem held_append {p q : Pool α} (h : PoolHandle) (hh : q.handles = p.handles ++ [some h]) (hv : ∀ h, some h ∈ p.handles → q.view h = p.view h) :
    q.held = p.held ++ [q.view h] := by
  unfold Pool.held
  rw [hh, List.map_append]
  refine congrArg₂ _ (List.map_congr_left fun h hm => ?_) rfl
  cases h with
  | none => rfl
  | some h => exact hv h hm

theorem held_set_none {p q : Pool α} (id : Nat) (hh : q.handles = p.handles.set id none) (hv : ∀ (j : Nat) (h : PoolHandle), j ≠ id → p.handles[j]? = some (some h) → q.view h = p.view h) :
    q.held = p.held.set id none := by
  unfold Pool.held
  rw [hh]
  apply List.ext_getElem?
  intro j
  rw [List.getElem?_map, List.getElem?_set, List.getElem?_set, List.length_map, List.getElem?_map]
  by_cases hj : id = j
  · rw [if_pos hj, if_pos hj]
    split <;> rfl
  · rw [if_neg hj, if_neg hj]
    cases he : p.handles[j]? with
    | none => rfl
    | some y =>
      cases y with
      | none => rfl
      | some h => exact congrArg some (hv j h (Ne.symm hj) he)

theorem getElem?_set_none {β : Type} {l : List (Option β)} {id i : Nat} {h : β} (hi : (l.set id none)[i]? = some (some h)) : i ≠ id ∧ l[i]? = some (some h) := by
  rw [List.getElem?_set] at hi
  by_cases he : id = i
  · rw [if_pos he] at hi
    split at hi <;> exact nomatch hi
  · rw [if_neg he] at hi
    exact ⟨Ne.symm he, hi⟩

theorem getElem?_append_one {β : Type} {l : List (Option β)} {i : Nat} {h k : β} (hi : (l ++ [some k])[i]? = some (some h)) :
    l[i]? = some (some h) ∨ i = l.length ∧ h = k := by
  by_cases hl : i < l.length
  · rw [List.getElem?_append_left hl] at hi
    exact .inl hi
  · rw [List.getElem?_append_right (by omega)] at hi
    have : i - l.length = 0 := by
      have := (List.getElem?_eq_some_iff.1 hi).1
      simp at this
      omega
    rw [this] at hi
    simp only [List.getElem?_cons_zero, Option.some.injEq] at hi
    exact .inr ⟨by omega, hi.symm⟩

/-- A new mutable handle on an object that nobody has. -/
theorem Pool.Ok.addMutable {q : Pool α} (hq : q.Ok H) {a : Nat} (h1 : a < q.next) (h2 : a ∉ q.unused) {o : PoolObject α} (h3 : q.heap a = some o)
    (h4 : o.cache = none) (h5 : ∀ h, some h ∈ q.handles → h.address ≠ a) : (q.addHandle ⟨false, a⟩).1.Ok H := by
  refine ⟨hq.distinct, hq.unused, fun h hm => ?_, fun i j h k hi hj he => ?_⟩
  · rcases List.mem_append.1 hm with hm | hm
    · exact hq.live h hm
    · obtain rfl : h = ⟨false, a⟩ := by simpa using hm
      refine ⟨h1, h2, o, h3, fun c hc => ?_⟩
      rw [h4] at hc
      exact nomatch hc
  · rcases getElem?_append_one hi with hi | ⟨rfl, rfl⟩ <;> rcases getElem?_append_one hj with hj | ⟨rfl, rfl⟩
    · exact hq.alone i j h k hi hj he
    · exact absurd he (h5 h (List.mem_of_getElem? hi))
    · exact absurd he.symm (h5 k (List.mem_of_getElem? hj))
    · exact .inl rfl

/-- A new frozen handle on an object that only frozen handles have. -/
theorem Pool.Ok.addFrozen {q : Pool α} (hq : q.Ok H) {a : Nat} (h1 : a < q.next) (h2 : a ∉ q.unused) {o : PoolObject α} (h3 : q.heap a = some o)
    (h4 : ∀ c, o.cache = some c → c = H o.content) (h5 : ∀ h, some h ∈ q.handles → h.address = a → h.frozen = true) : (q.addHandle ⟨true, a⟩).1.Ok H := by
  refine ⟨hq.distinct, hq.unused, fun h hm => ?_, fun i j h k hi hj he => ?_⟩
  · rcases List.mem_append.1 hm with hm | hm
    · exact hq.live h hm
    · obtain rfl : h = ⟨true, a⟩ := by simpa using hm
      exact ⟨h1, h2, o, h3, fun c hc => ⟨rfl, h4 c hc⟩⟩
  · rcases getElem?_append_one hi with hi | ⟨rfl, rfl⟩ <;> rcases getElem?_append_one hj with hj | ⟨rfl, rfl⟩
    · exact hq.alone i j h k hi hj he
    · exact .inr ⟨h5 h (List.mem_of_getElem? hi) he, rfl⟩
    · exact .inr ⟨rfl, h5 k (List.mem_of_getElem? hj) he.symm⟩
    · exact .inl rfl

/-- A handle is gone. -/
theorem Pool.Ok.dropHandle (hp : p.Ok H) (id : Nat) : ({ p with handles := p.handles.set id none } : Pool α).Ok H := by
  refine ⟨hp.distinct, hp.unused, fun h hm => ?_, fun i j h k hi hj he => ?_⟩
  · obtain ⟨i, hi⟩ := List.getElem?_of_mem hm
    exact hp.live h (List.mem_of_getElem? (getElem?_set_none hi).2)
  · exact hp.alone i j h k (getElem?_set_none hi).2 (getElem?_set_none hj).2 he

theorem Pool.allocate_view (q : Pool α) (fresh : α) (w h : Nat) {k : PoolHandle} (hk : k.address < q.next) : (q.allocate fresh w h).1.view k = q.view k := by
  unfold Pool.view Pool.allocate Pool.store
  simp only
  rw [if_neg (by omega)]

/-- A new object. -/
theorem Pool.Ok.allocate {q : Pool α} (hq : q.Ok H) (fresh : α) (w h : Nat) : (q.allocate fresh w h).1.Ok H := by
  have other : ∀ a < q.next, (q.allocate fresh w h).1.heap a = q.heap a := by
    intro a ha
    show (if a = q.next then _ else _) = _
    rw [if_neg (by omega)]
  refine ⟨hq.distinct, fun a ha => ?_, fun k hk => ?_, hq.alone⟩
  · obtain ⟨h1, o, h2, h3⟩ := hq.unused a ha
    exact ⟨Nat.lt_succ_of_lt h1, o, by rw [other a h1]; exact h2, h3⟩
  · obtain ⟨h1, h2, o, h3, h4⟩ := hq.live k hk
    exact ⟨Nat.lt_succ_of_lt h1, h2, o, by rw [other _ h1]; exact h3, h4⟩

theorem Pool.Ok.deleteUnused (hp : p.Ok H) : p.deleteUnused.Ok H := by
  refine ⟨List.nodup_nil, fun a ha => absurd ha (List.not_mem_nil), fun k hk => ?_, hp.alone⟩
  obtain ⟨h1, h2, o, h3, h4⟩ := hp.live k hk
  refine ⟨h1, List.not_mem_nil, o, ?_, h4⟩
  show (if k.address ∈ p.unused then none else p.heap k.address) = _
  rw [if_neg h2]
  exact h3

/-- What the pool hands out: an object of the right size that nobody else has. -/
theorem Pool.Ok.makeRaster (hp : p.Ok H) (fresh : α) (w h : Nat) : p.makeRaster fresh w h = .error .unsupported ∧ p.allowResize = false ∧
      (∃ a ∈ p.unused.head?, ∃ o, p.heap a = some o ∧ (o.width ≠ w ∨ o.height ≠ h)) ∨
    ∃ q a o, p.makeRaster fresh w h = .ok (q, a) ∧ q.Ok H ∧ q.handles = p.handles ∧ (∀ k, some k ∈ p.handles → q.view k = p.view k ∧ k.address ≠ a) ∧
      a < q.next ∧ a ∉ q.unused ∧ q.heap a = some o ∧ o.cache = none ∧ o.width = w ∧ o.height = h := by
  have new : ∀ q : Pool α, q.Ok H → q.handles = p.handles → (∀ k, some k ∈ p.handles → q.view k = p.view k) →
      ∃ q' a o, (Except.ok (q.allocate fresh w h) : Except PoolError _) = .ok (q', a) ∧ q'.Ok H ∧ q'.handles = p.handles ∧
        (∀ k, some k ∈ p.handles → q'.view k = p.view k ∧ k.address ≠ a) ∧
        a < q'.next ∧ a ∉ q'.unused ∧ q'.heap a = some o ∧ o.cache = none ∧ o.width = w ∧ o.height = h := by
    intro q hq h1 h2
    refine ⟨(q.allocate fresh w h).1, q.next, ⟨w, h, fresh, none⟩, rfl, hq.allocate fresh w h, h1, fun k hk => ?_, Nat.lt_succ_self _,
      fun hm => Nat.lt_irrefl _ (hq.unused _ hm).1, if_pos rfl, rfl, rfl, rfl⟩
    have := (hq.live k (by rw [h1]; exact hk)).1
    exact ⟨by rw [q.allocate_view fresh w h this]; exact h2 k hk, by omega⟩
  unfold Pool.makeRaster
  cases hu : p.unused with
  | nil => exact .inr (new p hp rfl fun _ _ => rfl)
  | cons a rest =>
    obtain ⟨h1, o, h2, h3⟩ := hp.unused a (by rw [hu]; exact List.mem_cons_self)
    simp only [h2]
    split
    · rename_i hsize
      split
      · refine .inr (new p.deleteUnused hp.deleteUnused rfl fun k hk => ?_)
        unfold Pool.view Pool.deleteUnused
        simp only
        rw [if_neg (hp.live k hk).2.1]
      · rename_i hr
        exact .inl ⟨rfl, by simpa using hr, a, by simp, o, h2, hsize⟩
    · rename_i hsize
      have hd := hp.distinct
      rw [hu, List.nodup_cons] at hd
      have hlive : ∀ k, some k ∈ p.handles → k.address ≠ a := fun k hk he => (hp.live k hk).2.1 (by rw [he, hu]; exact List.mem_cons_self)
      refine .inr ⟨_, a, o, rfl, ⟨hd.2, fun b hb => hp.unused b (by rw [hu]; exact List.mem_cons_of_mem _ hb), fun k hk => ?_, hp.alone⟩, rfl, fun k hk => ⟨rfl, hlive k hk⟩, h1,
        hd.1, h2, h3, by tauto, by tauto⟩
      obtain ⟨e1, e2, e3⟩ := hp.live k hk
      exact ⟨e1, fun hm => e2 (by rw [hu]; exact List.mem_cons_of_mem _ hm), e3⟩

/-- Changing an object that one mutable handle has. -/
theorem Pool.Ok.storeMutable (hp : p.Ok H) {id : Nat} {k : PoolHandle} (hk : p.handles[id]? = some (some k)) (hm : k.frozen = false) {o : PoolObject α} (ho : o.cache = none) :
    (p.store k.address (some o)).Ok H ∧ (p.store k.address (some o)).held = p.held.set id (some ⟨false, o.width, o.height, o.content⟩) := by
  have other : ∀ a, a ≠ k.address → (p.store k.address (some o)).heap a = p.heap a := fun a ha => if_neg ha
  refine ⟨⟨hp.distinct, fun a ha => ?_, fun j hj => ?_, hp.alone⟩, ?_⟩
  · obtain ⟨h1, h2⟩ := hp.unused a ha
    refine ⟨h1, ?_⟩
    rw [other a fun he => (hp.live k (List.mem_of_getElem? hk)).2.1 (by rw [← he]; exact ha)]
    exact h2
  · obtain ⟨h1, h2, h3⟩ := hp.live j hj
    refine ⟨h1, h2, ?_⟩
    by_cases he : j.address = k.address
    · rw [he]
      exact ⟨o, if_pos rfl, fun c hc => by rw [ho] at hc; exact nomatch hc⟩
    · rw [other _ he]
      exact h3
  · apply List.ext_getElem?
    intro j
    have hlt : id < p.held.length := by
      unfold Pool.held
      rw [List.length_map]
      exact (List.getElem?_eq_some_iff.1 hk).1
    rw [List.getElem?_set]
    by_cases hj : id = j
    · subst hj
      rw [if_pos rfl, if_pos hlt, Pool.held_get]
      show (p.handles[id]?).map _ = _
      rw [hk]
      show some (Pool.view _ k) = _
      unfold Pool.view
      rw [show (p.store k.address (some o)).heap k.address = some o from if_pos rfl, hm]
      rfl
    · rw [if_neg hj, Pool.held_get, Pool.held_get]
      show (p.handles[j]?).map _ = _
      cases hy : p.handles[j]? with
      | none => rfl
      | some y =>
        cases y with
        | none => rfl
        | some h =>
          show some (Pool.view _ h) = some (p.view h)
          unfold Pool.view
          rw [other _ fun he => ?_]
          rcases hp.alone j id h k hy hk he with e | ⟨-, e⟩
          · exact hj e.symm
          · rw [hm] at e
            exact nomatch e

/-- One operation. -/
theorem pool_step (hp : p.Ok H) (fresh : α) (op : PoolOp α) (hop : ∀ id, op ≠ .hashMutable id) :
    Held.Step H p.held op (p.step H fresh op).1.held (p.step H fresh op).2 ∧ (p.step H fresh op).1.Ok H := by
  have hlen : p.held.length = p.handles.length := by unfold Pool.held; rw [List.length_map]
  cases op with
  | setResize allow => exact ⟨.setResize _ _, ⟨hp.distinct, hp.unused, hp.live, hp.alone⟩⟩
  | hashMutable id => exact absurd rfl (hop id)
  | acquire w h =>
    unfold Pool.step
    simp only
    rcases hp.makeRaster fresh w h with ⟨e, -⟩ | ⟨q, a, o, e, hq, h1, h2, h3, h4, h5, h6, rfl, rfl⟩
    · rw [e]
      exact ⟨.refused _ _ _, hp⟩
    · rw [e]
      simp only [h5, h6, Option.isSome_none]
      refine ⟨?_, hq.addMutable h3 h4 h5 h6 fun k hk => (h2 k (by rw [← h1]; exact hk)).2⟩
      have e1 : (q.addHandle ⟨false, a⟩).1.held = p.held ++ [(q.addHandle ⟨false, a⟩).1.view ⟨false, a⟩] :=
        held_append _ (by show q.handles ++ _ = _; rw [h1]) fun k hk => (h2 k hk).1
      have e2 : (q.addHandle ⟨false, a⟩).1.view ⟨false, a⟩ = some ⟨false, o.width, o.height, o.content⟩ := by
        show (q.heap a).map _ = _
        rw [h5]
        rfl
      show Held.Step H p.held _ (q.addHandle ⟨false, a⟩).1.held (.ok (.handle q.handles.length))
      rw [e1, e2, h1, ← hlen]
      exact .acquire _ _ _ _
  | write id content =>
    unfold Pool.step
    simp only
    split
    · rename_i k hk
      obtain ⟨o, h1, h2, h3⟩ := hp.get hk
      split
      · rename_i hm
        rw [hm] at h3
        have hc : o.cache = none := by
          cases hc : o.cache with
          | none => rfl
          | some c => have := (h2 c hc).1; rw [hm] at this; exact nomatch this
        simp only [h1]
        obtain ⟨e1, e2⟩ := hp.storeMutable hk hm (o := { o with content := content }) hc
        refine ⟨?_, e1⟩
        rw [e2]
        exact .write _ id _ _ _ _ h3
      · rename_i hm
        exact ⟨.wrongKind _ id _ _ h3 (.inl ⟨by simpa using hm, .inr ⟨_, rfl⟩⟩), hp⟩
    · rename_i hn
      exact ⟨.absent _ id _ (Pool.held_none fun h he => hn h he) (by simp), hp⟩
  | read id =>
    unfold Pool.step
    simp only
    split
    · rename_i k hk
      obtain ⟨o, h1, h2, h3⟩ := hp.get hk
      simp only [h1]
      exact ⟨.read _ id _ _ _ _ h3, hp⟩
    · rename_i hn
      exact ⟨.absent _ id _ (Pool.held_none fun h he => hn h he) (by simp), hp⟩
  | freeze id =>
    unfold Pool.step
    simp only
    split
    · rename_i k hk
      obtain ⟨o, h1, h2, h3⟩ := hp.get hk
      obtain ⟨l1, l2, -⟩ := hp.live k (List.mem_of_getElem? hk)
      split
      · rename_i hm
        rw [hm] at h3
        have hc : o.cache = none := by
          cases hc : o.cache with
          | none => rfl
          | some c => have := (h2 c hc).1; rw [hm] at this; exact nomatch this
        simp only [h1, hc, Option.isSome_none]
        have hd := hp.dropHandle id
        refine ⟨?_, hd.addFrozen l1 l2 h1 (by rw [hc]; exact fun c hx => nomatch hx) fun h hm' he => ?_⟩
        · have e1 : (Pool.addHandle { p with handles := p.handles.set id none } ⟨true, k.address⟩).1.held = ({ p with handles := p.handles.set id none } : Pool α).held ++ [some ⟨true, o.width, o.height, o.content⟩] := by
            rw [held_append (p := { p with handles := p.handles.set id none }) (q := (Pool.addHandle { p with handles := p.handles.set id none } ⟨true, k.address⟩).1)
              ⟨true, k.address⟩ rfl fun _ _ => rfl]
            refine congrArg (fun x => _ ++ [x]) ?_
            show (p.heap k.address).map _ = _
            rw [h1]
            rfl
          have e2 : ({ p with handles := p.handles.set id none } : Pool α).held = p.held.set id none := held_set_none id rfl fun _ _ _ _ => rfl
          show Held.Step H p.held _ (Pool.addHandle { p with handles := p.handles.set id none } ⟨true, k.address⟩).1.held (.ok (.handle (p.handles.set id none).length))
          rw [e1, e2, List.length_set, ← hlen]
          exact .freeze _ id _ _ _ h3
        · obtain ⟨i, hi⟩ := List.getElem?_of_mem hm'
          obtain ⟨n1, n2⟩ := getElem?_set_none hi
          rcases hp.alone i id h k n2 hk he with e | ⟨e, -⟩
          · exact absurd e n1
          · exact e
      · rename_i hm
        exact ⟨.wrongKind _ id _ _ h3 (.inl ⟨by simpa using hm, .inl rfl⟩), hp⟩
    · rename_i hn
      exact ⟨.absent _ id _ (Pool.held_none fun h he => hn h he) (by simp), hp⟩
  | copy id =>
    unfold Pool.step
    simp only
    split
    · rename_i k hk
      obtain ⟨o, h1, h2, h3⟩ := hp.get hk
      obtain ⟨l1, l2, -⟩ := hp.live k (List.mem_of_getElem? hk)
      split
      · rename_i hm
        rw [hm] at h3
        refine ⟨?_, hp.addFrozen l1 l2 h1 (fun c hc => (h2 c hc).2) fun h hm' he => ?_⟩
        · have e1 : (p.addHandle ⟨true, k.address⟩).1.held = p.held ++ [some ⟨true, o.width, o.height, o.content⟩] := by
            rw [held_append (p := p) (q := (p.addHandle ⟨true, k.address⟩).1) ⟨true, k.address⟩ rfl fun _ _ => rfl]
            refine congrArg (fun x => _ ++ [x]) ?_
            show (p.heap k.address).map _ = _
            rw [h1]
            rfl
          show Held.Step H p.held _ (p.addHandle ⟨true, k.address⟩).1.held (.ok (.handle p.handles.length))
          rw [e1, ← hlen]
          exact .copy _ id _ _ _ h3
        · obtain ⟨i, hi⟩ := List.getElem?_of_mem hm'
          rcases hp.alone i id h k hi hk he with e | ⟨e, -⟩
          · subst e
            rw [hk] at hi
            cases hi
            exact hm
          · exact e
      · rename_i hm
        exact ⟨.wrongKind _ id _ _ h3 (.inr ⟨by simpa using hm, .inl rfl⟩), hp⟩
    · rename_i hn
      exact ⟨.absent _ id _ (Pool.held_none fun h he => hn h he) (by simp), hp⟩
  | hash id =>
    unfold Pool.step
    simp only
    split
    · rename_i k hk
      obtain ⟨o, h1, h2, h3⟩ := hp.get hk
      obtain ⟨l1, l2, -⟩ := hp.live k (List.mem_of_getElem? hk)
      split
      · rename_i hm
        rw [hm] at h3
        unfold Pool.hashObject
        simp only [h1]
        cases hc : o.cache with
        | some c =>
          refine ⟨?_, hp⟩
          simp only
          rw [(h2 c hc).2]
          exact .hash _ id _ _ _ h3
        | none =>
          simp only
          have hsame : (p.store k.address (some { o with cache := some (H o.content) })).held = p.held := by
            refine held_same rfl fun h _ => ?_
            unfold Pool.view Pool.store
            simp only
            by_cases he : h.address = k.address
            · rw [if_pos he, he, h1]; rfl
            · rw [if_neg he]
          refine ⟨by rw [hsame]; exact .hash _ id _ _ _ h3, ⟨hp.distinct, fun a ha => ?_, fun h hh => ?_, hp.alone⟩⟩
          · obtain ⟨u1, u2⟩ := hp.unused a ha
            refine ⟨u1, ?_⟩
            show ∃ x, (if a = k.address then _ else _) = some x ∧ _
            rw [if_neg fun he => l2 (by rw [← he]; exact ha)]
            exact u2
          · obtain ⟨u1, u2, u3⟩ := hp.live h hh
            refine ⟨u1, u2, ?_⟩
            show ∃ x, (if h.address = k.address then _ else _) = some x ∧ _
            by_cases he : h.address = k.address
            · rw [if_pos he]
              refine ⟨_, rfl, fun c hc' => ⟨?_, (Option.some.inj hc').symm⟩⟩
              obtain ⟨i, hi⟩ := List.getElem?_of_mem hh
              have hi : p.handles[i]? = some (some h) := hi
              rcases hp.alone i id h k hi hk he with e | ⟨e, -⟩
              · subst e
                rw [hk] at hi
                cases hi
                exact hm
              · exact e
            · rw [if_neg he]
              exact u3
      · rename_i hm
        exact ⟨.wrongKind _ id _ _ h3 (.inr ⟨by simpa using hm, .inr rfl⟩), hp⟩
    · rename_i hn
      exact ⟨.absent _ id _ (Pool.held_none fun h he => hn h he) (by simp), hp⟩
  | release id =>
    unfold Pool.step
    simp only
    split
    · rename_i k hk
      obtain ⟨o, h1, h2, h3⟩ := hp.get hk
      obtain ⟨l1, l2, -⟩ := hp.live k (List.mem_of_getElem? hk)
      have hd := hp.dropHandle id
      have e2 : ({ p with handles := p.handles.set id none } : Pool α).held = p.held.set id none := held_set_none id rfl fun _ _ _ _ => rfl
      split
      · refine ⟨?_, hd⟩
        rw [e2]
        exact .release _ id _ _ _ _ h3
      · rename_i hlast
        have hlast : ∀ h, some h ∈ p.handles.set id none → h.address ≠ k.address := by
          intro h hh he
          exact hlast (List.any_eq_true.2 ⟨some h, hh, by simpa using he⟩)
        unfold Pool.discard
        simp only [h1]
        have other : ∀ a, a ≠ k.address → (Pool.store { p with handles := p.handles.set id none } k.address (some { o with cache := none })).heap a = p.heap a :=
          fun a ha => if_neg ha
        refine ⟨?_, ⟨?_, fun a ha => ?_, fun h hh => ?_, hd.alone⟩⟩
        · have e3 : ({ Pool.store { p with handles := p.handles.set id none } k.address (some { o with cache := none }) with unused := p.unused ++ [k.address] } : Pool α).held =
            ({ p with handles := p.handles.set id none } : Pool α).held :=
            held_same rfl fun h hh => by
              unfold Pool.view
              exact congrArg _ (other _ (hlast h hh))
          rw [e3, e2]
          exact .release _ id _ _ _ _ h3
        · refine List.nodup_append.2 ⟨hp.distinct, by simp, fun a ha b hb => ?_⟩
          obtain rfl := List.mem_singleton.1 hb
          exact fun he => l2 (by rw [← he]; exact ha)
        · rcases List.mem_append.1 ha with ha | ha
          · obtain ⟨u1, u2⟩ := hp.unused a ha
            refine ⟨u1, ?_⟩
            have := other a fun he => l2 (by rw [← he]; exact ha)
            show ∃ x, Pool.heap (Pool.store _ _ _) a = _ ∧ _
            rw [this]
            exact u2
          · obtain rfl := List.mem_singleton.1 ha
            exact ⟨l1, _, if_pos rfl, rfl⟩
        · obtain ⟨u1, u2, u3⟩ := hd.live h hh
          refine ⟨u1, fun hx => ?_, ?_⟩
          · rcases List.mem_append.1 hx with hx | hx
            · exact u2 hx
            · exact hlast h hh (List.mem_singleton.1 hx)
          · show ∃ x, Pool.heap (Pool.store _ _ _) h.address = _ ∧ _
            rw [other _ (hlast h hh)]
            exact u3
    · rename_i hn
      exact ⟨.absent _ id _ (Pool.held_none fun h he => hn h he) (by simp), hp⟩

theorem Pool.Ok.empty (allow : Bool) : ({ allowResize := allow } : Pool α).Ok H :=
  ⟨List.nodup_nil, by simp, by simp, by simp⟩

theorem pool_run (H : α → Nat) (ops : List (α × PoolOp α)) : ∀ (p : Pool α), p.Ok H → (∀ op ∈ ops, ∀ id, op.2 ≠ .hashMutable id) →
    Held.Steps H p.held (ops.map (·.2)) (p.run H ops).1.held (p.run H ops).2 ∧ (p.run H ops).1.Ok H := by
  induction ops with
  | nil => intro p hp _; exact ⟨.nil _, hp⟩
  | cons op ops ih =>
    intro p hp hops
    obtain ⟨h1, h2⟩ := pool_step hp op.1 op.2 (hops op List.mem_cons_self)
    obtain ⟨h3, h4⟩ := ih _ h2 fun x hx => hops x (List.mem_cons_of_mem _ hx)
    exact ⟨.cons _ _ _ _ _ _ _ h1 h3, h4⟩

/-- **C49.** In every history of acquiring, writing, reading, freezing, copying, hashing and releasing, whatever the new and the reused pictures contain, everything that
is returned is as if each handle had its own picture: no handle sees what is written through another, sizes are as requested, and hashes are
those of the contents.  In particular nothing is used after it was deleted and no assertion fails. -/
theorem C49_as_values (H : α → Nat) (allow : Bool) (ops : List (α × PoolOp α)) (hops : ∀ op ∈ ops, ∀ id, op.2 ≠ .hashMutable id) :
    Held.Steps H [] (ops.map (·.2)) (Pool.run H { allowResize := allow } ops).1.held (Pool.run H { allowResize := allow } ops).2 :=
  (pool_run H ops _ (Pool.Ok.empty allow) hops).1

theorem step_error {held held' : List (Option (Held α))} {op : PoolOp α} {e : PoolError} (h : Held.Step H held op held' (.error e)) : e = .unsupported ∨ e = .misuse := by
  cases h <;> simp

theorem steps_error {held held' : List (Option (Held α))} {ops : List (PoolOp α)} {rs : List (Except PoolError (PoolResult α))} (h : Held.Steps H held ops held' rs) :
    ∀ e, .error e ∈ rs → e = .unsupported ∨ e = .misuse := by
  induction h with
  | nil => intro e he; exact absurd he (by simp)
  | cons held op held' r ops held'' rs h hs ih =>
    intro e he
    rcases List.mem_cons.1 he with he | he
    · subst he
      exact step_error h
    · exact ih e he

/-- **C49, safety.** Nothing is used after it was deleted, and no assertion fails. -/
theorem C49_safe (H : α → Nat) (allow : Bool) (ops : List (α × PoolOp α)) (hops : ∀ op ∈ ops, ∀ id, op.2 ≠ .hashMutable id) :
    (.error .freed) ∉ (Pool.run H { allowResize := allow } ops).2 ∧ (.error .assertion) ∉ (Pool.run H { allowResize := allow } ops).2 := by
  have := steps_error (C49_as_values H allow ops hops)
  exact ⟨fun h => by simpa using this _ h, fun h => by simpa using this _ h⟩

/-- **C49, no aliases.** After every history, a mutable handle's object belongs to no other handle, and no unused object to any. -/
theorem C49_no_aliases (H : α → Nat) (allow : Bool) (ops : List (α × PoolOp α)) (hops : ∀ op ∈ ops, ∀ id, op.2 ≠ .hashMutable id)
    (p : Pool α) (hp : p = (Pool.run H { allowResize := allow } ops).1) :
    (∀ (i j : Nat) (h k : PoolHandle), p.handles[i]? = some (some h) → p.handles[j]? = some (some k) → i ≠ j → h.frozen = false → h.address ≠ k.address) ∧
    ∀ h, some h ∈ p.handles → h.address ∉ p.unused := by
  have ok : p.Ok H := hp ▸ (pool_run H ops _ (Pool.Ok.empty allow) hops).2
  refine ⟨fun i j h k h1 h2 h3 h4 he => ?_, fun h hh => (ok.live h hh).2.1⟩
  rcases ok.alone i j h k h1 h2 he with e | ⟨e, -⟩
  · exact h3 e
  · rw [h4] at e
    exact nomatch e

theorem frozen_step {held held' : List (Option (Held α))} {op : PoolOp α} {r : Except PoolError (PoolResult α)} (h : Held.Step H held op held' r) {id : Nat} {x : Held α}
    (hx : held[id]? = some (some x)) (hf : x.frozen = true) (hop : op ≠ .release id) : held'[id]? = some (some x) := by
  have hlt := (List.getElem?_eq_some_iff.1 hx).1
  have hset : ∀ j y, j ≠ id → (held.set j y)[id]? = some (some x) := fun j y hj => by rw [List.getElem?_set_ne hj]; exact hx
  have hne : ∀ j w h c, held[j]? = some (some ⟨false, w, h, c⟩) → j ≠ id := by
    rintro j w h c hj rfl
    rw [hx] at hj
    cases hj
    exact nomatch hf
  cases h with
  | acquire => rw [List.getElem?_append_left hlt]; exact hx
  | copy => rw [List.getElem?_append_left hlt]; exact hx
  | freeze j w h c hj => rw [List.getElem?_append_left (by rw [List.length_set]; exact hlt)]; exact hset _ _ (hne _ _ _ _ hj)
  | write j w h c c' hj => exact hset _ _ (hne _ _ _ _ hj)
  | release j f w h c hj => exact hset _ _ fun he => hop (by rw [he])
  | _ => exact hx

theorem frozen_steps {held held' : List (Option (Held α))} {ops : List (PoolOp α)} {rs : List (Except PoolError (PoolResult α))} (h : Held.Steps H held ops held' rs) {id : Nat} {x : Held α}
    (hf : x.frozen = true) (hops : .release id ∉ ops) (hx : held[id]? = some (some x)) : held'[id]? = some (some x) := by
  induction h with
  | nil => exact hx
  | cons held op held' r ops held'' rs h hs ih =>
    simp only [List.mem_cons, not_or] at hops
    exact ih hops.2 (frozen_step h hx hf (Ne.symm hops.1))

/-- **C49, frozen pictures do not change.** What a frozen handle shows after any history, it shows after everything that can happen until it is released. -/
theorem C49_frozen_is_constant (H : α → Nat) (allow : Bool) (before after : List (α × PoolOp α)) (hb : ∀ op ∈ before, ∀ id, op.2 ≠ .hashMutable id)
    (ha : ∀ op ∈ after, ∀ id, op.2 ≠ .hashMutable id) (p q : Pool α) (hp : p = (Pool.run H { allowResize := allow } before).1) (hq : q = (p.run H after).1)
    (id : Nat) (h : PoolHandle) (hh : p.handles[id]? = some (some h)) (hf : h.frozen = true) (hr : ∀ op ∈ after, op.2 ≠ .release id) (fresh : α) :
    ∃ w ht c, (p.step H fresh (.read id)).2 = .ok (.picture w ht c) ∧ (q.step H fresh (.read id)).2 = .ok (.picture w ht c) := by
  have ok : p.Ok H := hp ▸ (pool_run H before _ (Pool.Ok.empty allow) hb).2
  obtain ⟨hs, okq⟩ := pool_run H after p ok ha
  rw [← hq] at hs okq
  obtain ⟨o, h1, -, h3⟩ := ok.get hh
  rw [hf] at h3
  have h4 := frozen_steps hs rfl (fun hm => by
    obtain ⟨x, hx, he⟩ := List.mem_map.1 hm
    exact hr x hx he) h3
  refine ⟨o.width, o.height, o.content, ?_, ?_⟩
  · simp [Pool.step, hh, h1]
  · rw [Pool.held_get] at h4
    cases hy : q.handles[id]? with
    | none => rw [hy] at h4; exact nomatch h4
    | some y =>
      rw [hy] at h4
      cases y with
      | none => exact nomatch h4
      | some k =>
        obtain ⟨o', e1, -, -⟩ := okq.get hy
        simp only [Option.map_some, Option.some.injEq, Option.bind_some, Pool.view, e1, Held.mk.injEq] at h4
        simp [Pool.step, hy, e1, h4.2]

/-! ### When a picture is refused -/

/-- All objects have one size. -/
def Pool.Sized (w h : Nat) (p : Pool α) : Prop := ∀ a o, p.heap a = some o → o.width = w ∧ o.height = h

theorem Pool.Sized.store {w h : Nat} (hs : p.Sized w h) {a : Nat} {o : PoolObject α} (ho : o.width = w ∧ o.height = h) : (p.store a (some o)).Sized w h := by
  intro b x hb
  have hb : (if b = a then some o else p.heap b) = some x := hb
  split at hb
  · cases hb; exact ho
  · exact hs b x hb

theorem sized_step {w h : Nat} (hs : p.Sized w h) (fresh : α) (op : PoolOp α) (hop : ∀ w' h', op = .acquire w' h' → w' = w ∧ h' = h) :
    (p.step H fresh op).1.Sized w h ∧ (p.step H fresh op).2 ≠ .error .unsupported := by
  cases op with
  | acquire w' h' =>
    obtain ⟨rfl, rfl⟩ := hop _ _ rfl
    have main : ∀ r, p.makeRaster fresh w' h' = r → (∀ q a, r = .ok (q, a) → q.Sized w' h') ∧ r ≠ .error .unsupported := by
      intro r hr
      subst hr
      unfold Pool.makeRaster
      split
      · refine ⟨fun q a he => ?_, by simp⟩
        cases he
        intro b x hb
        have hb : (if b = p.next then some (PoolObject.mk w' h' fresh none) else p.heap b) = some x := hb
        split at hb
        · cases hb; exact ⟨rfl, rfl⟩
        · exact hs b x hb
      · split
        · exact ⟨fun q a he => (nomatch he), by simp⟩
        · rename_i o ho
          have := hs _ o ho
          rw [if_neg (by simp [this])]
          refine ⟨fun q a he => ?_, by simp⟩
          cases he
          exact hs
    unfold Pool.step
    simp only
    obtain ⟨m1, m2⟩ := main _ rfl
    split
    · rename_i e he
      rw [he] at m2
      exact ⟨hs, fun h => m2 (by cases h; rfl)⟩
    · rename_i q a he
      have := m1 q a he
      split
      · exact ⟨this, by simp⟩
      · split
        · exact ⟨this, by simp⟩
        · exact ⟨this, by simp [Pool.addHandle]⟩
  | write id c =>
    unfold Pool.step
    simp only
    split
    · split
      · split
        · exact ⟨hs, by simp⟩
        · rename_i o ho
          exact ⟨hs.store (hs _ o ho), by simp⟩
      · exact ⟨hs, by simp⟩
    · exact ⟨hs, by simp⟩
  | read id =>
    unfold Pool.step
    simp only
    split
    · split
      · exact ⟨hs, by simp⟩
      · exact ⟨hs, by simp⟩
    · exact ⟨hs, by simp⟩
  | freeze id =>
    unfold Pool.step
    simp only
    split
    · split
      · split
        · exact ⟨hs, by simp⟩
        · split
          · exact ⟨hs, by simp⟩
          · exact ⟨hs, by simp [Pool.addHandle]⟩
      · exact ⟨hs, by simp⟩
    · exact ⟨hs, by simp⟩
  | copy id =>
    unfold Pool.step
    simp only
    split
    · split
      · exact ⟨hs, by simp [Pool.addHandle]⟩
      · exact ⟨hs, by simp⟩
    · exact ⟨hs, by simp⟩
  | hash id =>
    unfold Pool.step Pool.hashObject
    simp only
    split
    · split
      · split
        · exact ⟨hs, by simp⟩
        · rename_i o ho
          split
          · exact ⟨hs, by simp⟩
          · exact ⟨hs.store (hs _ o ho), by simp⟩
      · exact ⟨hs, by simp⟩
    · exact ⟨hs, by simp⟩
  | hashMutable id =>
    unfold Pool.step Pool.hashObject
    simp only
    split
    · split
      · split
        · exact ⟨hs, by simp⟩
        · rename_i o ho
          split
          · exact ⟨hs, by simp⟩
          · exact ⟨hs.store (hs _ o ho), by simp⟩
      · exact ⟨hs, by simp⟩
    · exact ⟨hs, by simp⟩
  | release id =>
    unfold Pool.step Pool.discard
    simp only
    split
    · split
      · exact ⟨hs, by simp⟩
      · split
        · rename_i he
          split at he
          · cases he; exact ⟨hs, by simp⟩
          · exact nomatch he
        · rename_i q he
          split at he
          · exact nomatch he
          · rename_i o ho
            cases he
            exact ⟨Pool.Sized.store (p := { p with handles := p.handles.set id none }) hs (o := { o with cache := none }) (hs _ o ho), by simp⟩
    · exact ⟨hs, by simp⟩
  | setResize allow => exact ⟨hs, by simp [Pool.step]⟩

theorem sized_run (H : α → Nat) (w h : Nat) (ops : List (α × PoolOp α)) (hops : ∀ op ∈ ops, ∀ w' h', op.2 = .acquire w' h' → w' = w ∧ h' = h) :
    ∀ (p : Pool α), p.Sized w h → (.error .unsupported) ∉ (p.run H ops).2 := by
  induction ops with
  | nil => intro p _; simp [Pool.run]
  | cons op ops ih =>
    intro p hs
    obtain ⟨h1, h2⟩ := sized_step (H := H) hs op.1 op.2 (hops op List.mem_cons_self)
    have := ih (fun x hx => hops x (List.mem_cons_of_mem _ hx)) _ h1
    intro hm
    rcases List.mem_cons.1 hm with hm | hm
    · exact h2 hm.symm
    · exact this hm

/-- **C49, refusals.** A program that asks for pictures of one size is never refused. -/
theorem C49_one_size_never_refused (H : α → Nat) (allow : Bool) (w h : Nat) (ops : List (α × PoolOp α))
    (hops : ∀ op ∈ ops, ∀ w' h', op.2 = .acquire w' h' → w' = w ∧ h' = h) : (.error .unsupported) ∉ (Pool.run H { allowResize := allow } ops).2 :=
  sized_run H w h ops hops _ (by intro a o ha; exact nomatch ha)

/-- **C49, deviation.** The hash of a picture that can still be written to is kept when the picture is changed: hashing it again gives the hash of what it
was, and freezing it fails an assertion. -/
theorem C49_mutable_hash_is_stale : (Pool.run (fun n : Nat => n) {} [(5, .acquire 16 16), (0, .hashMutable 0), (0, .write 0 7), (0, .hashMutable 0), (0, .freeze 0)]).2 =
    [.ok (.handle 0), .ok (.hash 5), .ok .nothing, .ok (.hash 5), .error .assertion] := rfl

/-- **C49, deviation.** A picture of another size is refused as soon as one has been released, and only then. -/
theorem C49_other_size_refused : (Pool.run (fun n : Nat => n) {} [(5, .acquire 16 16), (6, .acquire 32 32), (0, .release 0), (7, .acquire 32 32)]).2 =
    [.ok (.handle 0), .ok (.handle 1), .ok .nothing, .error .unsupported] := rfl

/-- A history with reuse: the second picture has the object of the first, its own content and hash. -/
example : (Pool.run (fun n : Nat => n) {} [(5, .acquire 16 16), (0, .write 0 7), (0, .freeze 0), (0, .copy 1), (0, .hash 1), (0, .release 1), (8, .acquire 16 16), (0, .read 2),
    (0, .release 2), (9, .acquire 16 16), (0, .write 4 3), (0, .freeze 4), (0, .hash 5)]).2 =
    [.ok (.handle 0), .ok .nothing, .ok (.handle 1), .ok (.handle 2), .ok (.hash 7), .ok .nothing, .ok (.handle 3), .ok (.picture 16 16 7),
     .ok .nothing, .ok (.handle 4), .ok .nothing, .ok (.handle 5), .ok (.hash 3)] := rfl

end Alfalfa
