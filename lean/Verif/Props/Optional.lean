import Verif.Model.Optional

/-! C89: an optional value behaves as a value that may be missing, and its object is destroyed exactly once. -/

namespace Alfalfa

variable {α : Type}

/-! ### What a user expects -/

/-- Variables that hold a value or nothing; `none` is a variable that is gone. -/
abbrev Holders (α : Type) := List (Option (Option α))

/-- How many of them hold a value. -/
def held (vs : Holders α) : Nat := vs.countP fun v => v.join.isSome

/-- The value of an argument. -/
def Holders.read (vs : Holders α) : OptionalSource α → Option α
  | .value a => some a
  | .inside j => (vs.getD j none).join

/-- What each operation should do. -/
def Holders.step (leaves : α → α) (vs : Holders α) : OptionalOp α → Holders α × OptionalOutcome α
  | .empty => (vs ++ [some none], .done)
  | .full a throws => if throws then (vs, .threw) else (vs ++ [some (some a)], .done)
  | .copy j throws => match vs.getD j none with
    | none => (vs, .undefined)
    | some none => (vs ++ [some none], .done)
    | some (some a) => if throws then (vs, .threw) else (vs ++ [some (some a)], .done)
  | .move j throws => match vs.getD j none with
    | none => (vs, .undefined)
    | some none => (vs ++ [some none], .done)
    | some (some a) => if throws then (vs, .threw) else (vs.set j (some (some (leaves a))) ++ [some (some a)], .done)
  | .initialize i a throws => match vs.getD i none, vs.read a with
    | none, _ => (vs, .undefined)
    | some (some _), _ => (vs, .assertion)
    | some none, none => (vs, .undefined)
    | some none, some a => if throws then (vs, .threw) else (vs.set i (some (some a)), .done)
  | .assignCopy i j throws => match vs.getD i none, vs.getD j none with
    | some _, some none => (vs.set i (some none), .done)
    | some _, some (some a) => if throws then (vs.set i (some none), .threw) else (vs.set i (some (some a)), .done)
    | _, _ => (vs, .undefined)
  | .assignMove i j throws => match vs.getD i none, vs.getD j none with
    | some _, some none => (vs.set i (some none), .done)
    | some _, some (some a) => if throws then (vs.set i (some none), .threw) else ((vs.set j (some (some (leaves a)))).set i (some (some a)), .done)
    | _, _ => (vs, .undefined)
  | .clear i => match vs.getD i none with
    | none => (vs, .undefined)
    | some _ => (vs.set i (some none), .done)
  | .reset i a throws => match vs.getD i none, vs.read a with
    | some _, some a => if throws then (vs.set i (some none), .threw) else (vs.set i (some (some a)), .done)
    | _, _ => (vs, .undefined)
  | .get i => match vs.getD i none with
    | none => (vs, .undefined)
    | some none => (vs, .assertion)
    | some (some a) => (vs, .value a)
  | .getOr i b => match vs.getD i none with
    | none => (vs, .undefined)
    | some none => (vs, .value b)
    | some (some a) => (vs, .value a)
  | .destroy i => match vs.getD i none with
    | none => (vs, .undefined)
    | some _ => (vs.set i none, .done)

/-- Operations one after the other, up to the first that ends the program. -/
def Holders.run (leaves : α → α) (vs : Holders α) : List (OptionalOp α) → Holders α × List (OptionalOutcome α)
  | [] => (vs, [])
  | op :: rest =>
    let (vs, o) := vs.step leaves op
    match o with
    | .assertion | .undefined => (vs, [o])
    | _ => let (vs, os) := Holders.run leaves vs rest
           (vs, o :: os)

/-- The uses for which this holds: an assignment from another variable whose constructor does not throw, a reset with a value that is not the one to be replaced. -/
def OptionalOp.Fine : OptionalOp α → Prop
  | .assignCopy i j throws => i ≠ j ∧ throws = false
  | .assignMove i j throws => i ≠ j ∧ throws = false
  | .reset i a _ => a ≠ .inside i
  | _ => True

/-! ### Proof -/

/-- The variable that holds this. -/
def holding (o : Option α) : OptionalVar α := ⟨o.isSome, o⟩

/-- The flag says whether there is an object, and the objects that were made and not destroyed are those that are there. -/
structure Holds (w : OptionalWorld α) (vs : Holders α) : Prop where
  variables : w.variables = vs.map (Option.map holding)
  balance : w.made = w.destroyed + held vs

theorem Holds.live {w : OptionalWorld α} {vs : Holders α} (h : Holds w vs) (i : Nat) : w.live i = (vs.getD i none).map holding := by
  unfold OptionalWorld.live
  rw [h.variables, List.getD_eq_getElem?_getD, List.getD_eq_getElem?_getD, List.getElem?_map]
  cases vs[i]? <;> rfl

theorem count_append (vs : Holders α) (o : Option α) : held (vs ++ [some o]) = held vs + if o.isSome then 1 else 0 := by
  unfold held
  rw [List.countP_append, List.countP_singleton]
  rfl

theorem getD_lt {vs : Holders α} {i : Nat} {o : Option α} (h : vs.getD i none = some o) : i < vs.length := by
  rw [List.getD_eq_getElem?_getD] at h
  rcases Nat.lt_or_ge i vs.length with h' | h'
  · exact h'
  · rw [List.getElem?_eq_none h'] at h
    exact nomatch h

theorem getD_set_ne {vs : Holders α} {i j : Nat} (h : i ≠ j) (v : Option (Option α)) : (vs.set i v).getD j none = vs.getD j none := by
  rw [List.getD_eq_getElem?_getD, List.getD_eq_getElem?_getD, List.getElem?_set_ne h]

theorem getD_set_self {vs : Holders α} {i : Nat} {o : Option α} (h : vs.getD i none = some o) (v : Option (Option α)) : (vs.set i v).getD i none = v := by
  rw [List.getD_eq_getElem?_getD, List.getElem?_set_self (getD_lt h), Option.getD_some]

theorem count_set {vs : Holders α} {i : Nat} {o : Option α} (h : vs.getD i none = some o) (v : Option (Option α)) :
    held (vs.set i v) + (if o.isSome then 1 else 0) = held vs + if v.join.isSome then 1 else 0 := by
  induction vs generalizing i with
  | nil => exact nomatch h
  | cons a rest ih =>
    cases i with
    | zero =>
      have : a = some o := h
      subst this
      unfold held
      rw [List.set_cons_zero, List.countP_cons, List.countP_cons]
      show _ + _ + _ = _ + (if o.isSome then 1 else 0) + _
      omega
    | succ i =>
      have := ih (i := i) h
      unfold held at this ⊢
      rw [List.set_cons_succ, List.countP_cons, List.countP_cons]
      omega

theorem Holds.add {w : OptionalWorld α} {vs : Holders α} (h : Holds w vs) : Holds (w.addVar ⟨false, none⟩) (vs ++ [some none]) :=
  ⟨by unfold OptionalWorld.addVar; rw [List.map_append, ← h.variables]; rfl, by rw [count_append]; exact h.balance⟩

theorem Holds.addFull {w : OptionalWorld α} {vs : Holders α} (h : Holds w vs) (a : α) :
    Holds { w.addVar ⟨true, some a⟩ with made := w.made + 1 } (vs ++ [some (some a)]) :=
  ⟨by unfold OptionalWorld.addVar; rw [List.map_append, ← h.variables]; rfl, by
    rw [count_append]
    have := h.balance
    show w.made + 1 = w.destroyed + (held vs + 1)
    omega⟩

/-- A value put where there was one, or nothing where there was nothing, without counting. -/
theorem Holds.set {w : OptionalWorld α} {vs : Holders α} (h : Holds w vs) {i : Nat} {o : Option α} (hi : vs.getD i none = some o) {o' : Option α}
    (ho : o.isSome = o'.isSome) : Holds (w.setVar i (some (holding o'))) (vs.set i (some o')) :=
  ⟨by unfold OptionalWorld.setVar; rw [List.map_set, ← h.variables]; rfl, by
    have h1 : held (vs.set i (some o')) + (if o.isSome then 1 else 0) = held vs + if o'.isSome then 1 else 0 := count_set hi (some o')
    have := h.balance
    rw [ho] at h1
    show w.made = w.destroyed + _
    omega⟩

/-- A value put where there was none. -/
theorem Holds.fill {w : OptionalWorld α} {vs : Holders α} (h : Holds w vs) {i : Nat} (hi : vs.getD i none = some none) (a : α) :
    Holds { w.setVar i (some ⟨true, some a⟩) with made := w.made + 1 } (vs.set i (some (some a))) :=
  ⟨by unfold OptionalWorld.setVar; rw [List.map_set, ← h.variables]; rfl, by
    have h1 : held (vs.set i (some (some a))) + 0 = held vs + 1 := count_set hi (some (some a))
    have := h.balance
    show w.made + 1 = w.destroyed + _
    omega⟩

/-- A variable whose object, if it has one, was destroyed. -/
theorem Holds.emptied {w : OptionalWorld α} {vs : Holders α} (h : Holds w vs) {i : Nat} {o : Option α} (hi : vs.getD i none = some o) :
    ∃ w', w.endIfFlagged i = some w' ∧ w'.live i = some ⟨o.isSome, none⟩ ∧ Holds (w'.setVar i (some ⟨false, none⟩)) (vs.set i (some none)) ∧
      w'.made = w.made ∧ w'.variables = w.variables.set i (some ⟨o.isSome, none⟩) := by
  have hl := h.live i
  rw [hi] at hl
  have hb := h.balance
  have hc := count_set hi (some none)
  have hlt : i < w.variables.length := by rw [h.variables, List.length_map]; exact getD_lt hi
  unfold OptionalWorld.endIfFlagged OptionalWorld.endObject
  rw [hl]
  cases o with
  | none =>
    refine ⟨w, rfl, hl, ⟨by unfold OptionalWorld.setVar; rw [List.map_set, ← h.variables]; rfl, ?_⟩, rfl, ?_⟩
    · have h1 : held (vs.set i (some none)) + 0 = held vs + 0 := hc
      show w.made = w.destroyed + _
      omega
    · refine List.ext_getElem? fun k => ?_
      by_cases hk : k = i
      · subst hk
        rw [List.getElem?_set_self hlt]
        unfold OptionalWorld.live at hl
        rw [List.getD_eq_getElem?_getD, List.getElem?_eq_getElem hlt, Option.getD_some] at hl
        rw [List.getElem?_eq_getElem hlt, hl]
        rfl
      · rw [List.getElem?_set_ne (fun e => hk e.symm)]
  | some a =>
    refine ⟨_, rfl, ?_, ⟨?_, ?_⟩, rfl, rfl⟩
    · unfold OptionalWorld.live OptionalWorld.setVar
      dsimp only
      rw [List.getD_eq_getElem?_getD, List.getElem?_set_self hlt]
      rfl
    · unfold OptionalWorld.setVar
      dsimp only
      rw [List.set_set, List.map_set, ← h.variables]
      rfl
    · have h1 : held (vs.set i (some none)) + 1 = held vs + 0 := hc
      show w.made = w.destroyed + 1 + _
      omega

theorem Holds.read {w : OptionalWorld α} {vs : Holders α} (h : Holds w vs) (a : OptionalSource α) : w.read a = vs.read a := by
  cases a with
  | value a => rfl
  | inside j =>
    unfold OptionalWorld.read Holders.read
    dsimp only
    rw [h.live]
    cases vs.getD j none <;> rfl

/-- The same outcome; and unless it is undefined, the world after it corresponds to the variables after it. -/
def Agrees (x : OptionalWorld α × OptionalOutcome α) (y : Holders α × OptionalOutcome α) : Prop := x.2 = y.2 ∧ (y.2 ≠ .undefined → Holds x.1 y.1)

theorem agrees_undefined {w : OptionalWorld α} {vs : Holders α} : Agrees (w, .undefined) (vs, .undefined) := ⟨rfl, fun h => absurd rfl h⟩

theorem construct_agrees (leaves : α → α) {w : OptionalWorld α} {vs : Holders α} (h : Holds w vs) (j : Nat) (throws : Bool) :
    Agrees (w.construct leaves j throws) (vs.step leaves (.move j throws)) := by
  unfold OptionalWorld.construct Holders.step
  dsimp only
  rw [h.live]
  cases hj : vs.getD j none with
  | none => exact agrees_undefined
  | some o =>
    cases o with
    | none => exact ⟨rfl, fun _ => h.add⟩
    | some a =>
      cases throws with
      | true => exact ⟨rfl, fun _ => h⟩
      | false => exact ⟨rfl, fun _ => (h.set hj (o' := some (leaves a)) rfl).addFull a⟩

theorem set_getD_self {vs : Holders α} {i : Nat} {o : Option α} (h : vs.getD i none = some o) : vs.set i (some o) = vs := by
  refine List.ext_getElem? fun k => ?_
  by_cases hk : k = i
  · subst hk
    have := getD_lt h
    rw [List.getElem?_set_self this]
    rw [List.getD_eq_getElem?_getD, List.getElem?_eq_getElem this, Option.getD_some] at h
    rw [List.getElem?_eq_getElem this, h]
  · rw [List.getElem?_set_ne fun e => hk e.symm]

theorem copy_step (leaves : α → α) (vs : Holders α) (j : Nat) (throws : Bool) : vs.step leaves (.copy j throws) = vs.step id (.move j throws) := by
  unfold Holders.step
  dsimp only
  cases hj : vs.getD j none with
  | none => rfl
  | some o =>
    cases o with
    | none => rfl
    | some a =>
      dsimp only [id]
      rw [set_getD_self hj]

theorem assignCopy_step (leaves : α → α) (vs : Holders α) (i j : Nat) (throws : Bool) :
    vs.step leaves (.assignCopy i j throws) = vs.step id (.assignMove i j throws) := by
  unfold Holders.step
  dsimp only
  cases vs.getD i none with
  | none => rfl
  | some x =>
    cases hj : vs.getD j none with
    | none => rfl
    | some o =>
      cases o with
      | none => rfl
      | some a =>
        dsimp only [id]
        rw [set_getD_self hj]

theorem assign_agrees (leaves : α → α) {w : OptionalWorld α} {vs : Holders α} (h : Holds w vs) {i j : Nat} (hij : i ≠ j) :
    Agrees (w.assign leaves i j false) (vs.step leaves (.assignMove i j false)) := by
  have hj := h.live j
  have hi := h.live i
  unfold OptionalWorld.assign Holders.step
  dsimp only
  rw [hi, hj]
  cases ei : vs.getD i none with
  | none => exact agrees_undefined
  | some o =>
    cases ej : vs.getD j none with
    | none => exact agrees_undefined
    | some p =>
      obtain ⟨w', e1, e2, e3, e4, e5⟩ := h.emptied ei
      show Agrees (match w.endIfFlagged i with | none => _ | some w => _) _
      rw [e1]
      dsimp only
      rw [e2]
      dsimp only
      cases p with
      | none => exact ⟨rfl, fun _ => e3⟩
      | some a =>
        have hlj : (w'.setVar i (some ⟨true, none⟩)).live j = some ⟨true, some a⟩ := by
          unfold OptionalWorld.live OptionalWorld.setVar
          dsimp only
          rw [e5, List.set_set, List.getD_eq_getElem?_getD, List.getElem?_set_ne hij, ← List.getD_eq_getElem?_getD]
          unfold OptionalWorld.live at hj
          rw [hj, ej]
          rfl
        have ej' : (vs.set i (some none)).getD j none = some (some a) := by rw [getD_set_ne hij, ej]
        have ei' : ((vs.set i (some none)).set j (some (some (leaves a)))).getD i none = some none := by
          rw [getD_set_ne hij.symm, getD_set_self ei]
        have fin := (e3.set ej' (o' := some (leaves a)) rfl).fill ei' a
        have hv : ((vs.set i (some none)).set j (some (some (leaves a)))).set i (some (some a)) = (vs.set j (some (some (leaves a)))).set i (some (some a)) := by
          rw [List.set_comm _ _ hij, List.set_set]
        rw [hv] at fin
        show Agrees (match ((w'.setVar i (some ⟨true, none⟩)).live j).bind (·.object) with | none => _ | some a => _) _
        rw [hlj]
        show Agrees (if false = true then _ else _) _
        rw [if_neg Bool.false_ne_true]
        have hf : (holding (some a)).flag = true := rfl
        dsimp only [Option.bind_some]
        rw [hf, hlj]
        refine ⟨rfl, fun _ => ?_⟩
        have same : ({ ((w'.setVar i (some ⟨true, none⟩)).setVar j (some ⟨true, some (leaves a)⟩)).setVar i (some ⟨true, some a⟩) with made := w'.made + 1 } : OptionalWorld α) =
            { ((w'.setVar i (some ⟨false, none⟩)).setVar j (some (holding (some (leaves a))))).setVar i (some ⟨true, some a⟩) with made := w'.made + 1 } := by
          unfold OptionalWorld.setVar
          congr 1
          dsimp only
          rw [List.set_comm _ _ hij, List.set_set, List.set_comm _ _ hij, List.set_set]
          rfl
        exact same ▸ fin

theorem initialize_agrees (leaves : α → α) {w : OptionalWorld α} {vs : Holders α} (h : Holds w vs) (i : Nat) (a : OptionalSource α) (throws : Bool) :
    Agrees (w.initialize i a throws) (vs.step leaves (.initialize i a throws)) := by
  unfold OptionalWorld.initialize Holders.step
  dsimp only
  rw [h.live, h.read]
  cases ei : vs.getD i none with
  | none => exact agrees_undefined
  | some o =>
    cases o with
    | some b => exact ⟨rfl, fun _ => h⟩
    | none =>
      cases vs.read a with
      | none => exact agrees_undefined
      | some b =>
        cases throws with
        | true => exact ⟨rfl, fun _ => h⟩
        | false => exact ⟨rfl, fun _ => h.fill ei b⟩

theorem clear_agrees {w : OptionalWorld α} {vs : Holders α} (h : Holds w vs) {i : Nat} {o : Option α} (hi : vs.getD i none = some o) :
    ∃ w', w.clear i = some w' ∧ Holds w' (vs.set i (some none)) := by
  obtain ⟨w', e1, e2, e3, -, -⟩ := h.emptied hi
  unfold OptionalWorld.clear
  rw [e1]
  dsimp only
  rw [e2]
  exact ⟨_, rfl, e3⟩

theorem clear_none {w : OptionalWorld α} {vs : Holders α} (h : Holds w vs) {i : Nat} (hi : vs.getD i none = none) : w.endIfFlagged i = none ∧ w.clear i = none := by
  have : w.endIfFlagged i = none := by
    unfold OptionalWorld.endIfFlagged
    rw [h.live, hi]
    rfl
  refine ⟨this, ?_⟩
  unfold OptionalWorld.clear
  rw [this]

theorem step_agrees (leaves : α → α) {w : OptionalWorld α} {vs : Holders α} (h : Holds w vs) {op : OptionalOp α} (hop : op.Fine) :
    Agrees (w.step leaves op) (vs.step leaves op) := by
  cases op with
  | empty => exact ⟨rfl, fun _ => h.add⟩
  | full a throws =>
    cases throws with
    | true => exact ⟨rfl, fun _ => h⟩
    | false => exact ⟨rfl, fun _ => h.addFull a⟩
  | copy j throws => rw [copy_step]; exact construct_agrees id h j throws
  | move j throws => exact construct_agrees leaves h j throws
  | «initialize» i a throws => exact initialize_agrees leaves h i a throws
  | assignCopy i j throws =>
    obtain ⟨hij, rfl⟩ := hop
    rw [assignCopy_step]
    exact assign_agrees id h hij
  | assignMove i j throws =>
    obtain ⟨hij, rfl⟩ := hop
    exact assign_agrees leaves h hij
  | clear i =>
    unfold OptionalWorld.step Holders.step
    dsimp only
    cases hi : vs.getD i none with
    | none => rw [(clear_none h hi).2]; exact agrees_undefined
    | some o =>
      obtain ⟨w', e1, e2⟩ := clear_agrees h hi
      rw [e1]
      exact ⟨rfl, fun _ => e2⟩
  | reset i a throws =>
    unfold OptionalWorld.step
    dsimp only
    cases hi : vs.getD i none with
    | none =>
      rw [(clear_none h hi).2]
      unfold Holders.step
      dsimp only
      rw [hi]
      exact agrees_undefined
    | some o =>
      obtain ⟨w', e1, e2⟩ := clear_agrees h hi
      rw [e1]
      dsimp only
      have := initialize_agrees leaves e2 i a throws
      have hr : Holders.read (vs.set i (some none)) a = vs.read a := by
        cases a with
        | value a => rfl
        | inside j =>
          unfold Holders.read
          dsimp only
          rw [getD_set_ne fun e => hop (by rw [e])]
      unfold Holders.step at this ⊢
      dsimp only at this ⊢
      rw [getD_set_self hi, hr] at this
      rw [hi]
      cases hv : vs.read a with
      | none =>
        rw [hv] at this
        exact ⟨this.1, fun h => absurd rfl h⟩
      | some b =>
        rw [hv] at this
        dsimp only at this ⊢
        rw [List.set_set] at this
        exact this
  | get i =>
    unfold OptionalWorld.step Holders.step
    dsimp only
    rw [h.live]
    cases vs.getD i none with
    | none => exact agrees_undefined
    | some o => cases o <;> exact ⟨rfl, fun _ => h⟩
  | getOr i b =>
    unfold OptionalWorld.step Holders.step
    dsimp only
    rw [h.live]
    cases vs.getD i none with
    | none => exact agrees_undefined
    | some o => cases o <;> exact ⟨rfl, fun _ => h⟩
  | destroy i =>
    unfold OptionalWorld.step Holders.step
    dsimp only
    cases hi : vs.getD i none with
    | none => rw [(clear_none h hi).1]; exact agrees_undefined
    | some o =>
      obtain ⟨w', e1, -, e3, -, -⟩ := h.emptied hi
      rw [e1]
      refine ⟨rfl, fun _ => ⟨?_, ?_⟩⟩
      · have := e3.variables
        unfold OptionalWorld.setVar at this ⊢
        dsimp only at this ⊢
        rw [← List.set_set (a := some ⟨false, none⟩), this, List.map_set, List.set_set, List.map_set]
        rfl
      · have h1 : held (vs.set i none) + (if o.isSome then 1 else 0) = held vs + 0 := count_set hi none
        have h2 : held (vs.set i (some none)) + (if o.isSome then 1 else 0) = held vs + 0 := count_set hi (some none)
        have h3 : w'.made = w'.destroyed + held (vs.set i (some none)) := e3.balance
        show w'.made = w'.destroyed + held (vs.set i none)
        omega

theorem run_agrees (leaves : α → α) : ∀ {ops : List (OptionalOp α)} {w : OptionalWorld α} {vs : Holders α}, Holds w vs → (∀ op ∈ ops, op.Fine) →
    (w.run leaves ops).2 = (Holders.run leaves vs ops).2 ∧
      (.undefined ∉ (Holders.run leaves vs ops).2 → Holds (w.run leaves ops).1 (Holders.run leaves vs ops).1)
  | [], _, _, h, _ => ⟨rfl, fun _ => h⟩
  | op :: rest, w, vs, h, hf => by
    obtain ⟨h1, h2⟩ := step_agrees leaves h (hf op (List.mem_cons_self ..))
    have ih (hne : (vs.step leaves op).2 ≠ .undefined) := run_agrees leaves (h2 hne) fun op h => hf op (List.mem_cons_of_mem _ h)
    unfold OptionalWorld.run Holders.run
    dsimp only
    rw [h1]
    cases ho : (vs.step leaves op).2 with
    | undefined => exact ⟨rfl, fun hn => absurd (List.mem_singleton.2 rfl) hn⟩
    | assertion => exact ⟨rfl, fun _ => h2 (by rw [ho]; exact fun h => nomatch h)⟩
    | done =>
      obtain ⟨i1, i2⟩ := ih (by rw [ho]; exact fun h => nomatch h)
      exact ⟨congrArg _ i1, fun hn => i2 fun hm => hn (List.mem_cons_of_mem _ hm)⟩
    | value a =>
      obtain ⟨i1, i2⟩ := ih (by rw [ho]; exact fun h => nomatch h)
      exact ⟨congrArg _ i1, fun hn => i2 fun hm => hn (List.mem_cons_of_mem _ hm)⟩
    | threw =>
      obtain ⟨i1, i2⟩ := ih (by rw [ho]; exact fun h => nomatch h)
      exact ⟨congrArg _ i1, fun hn => i2 fun hm => hn (List.mem_cons_of_mem _ hm)⟩

/-- **C89** (all but assignments of a variable to itself, resets with the value to be replaced, and assignments in which the constructor throws).  Whatever a program does with
optional variables, each operation has the outcome that it has for variables that hold a value or nothing; so it is undefined only if it uses a variable that is gone or a
value that is not there. -/
theorem C89_values_partial (leaves : α → α) {ops : List (OptionalOp α)} (h : ∀ op ∈ ops, op.Fine) :
    (OptionalWorld.run leaves {} ops).2 = (Holders.run leaves [] ops).2 := (run_agrees leaves ⟨rfl, rfl⟩ h).1

/-- **C89** (with the same exceptions): at any time the objects that were made and not destroyed are those that the variables hold.  So when all variables are gone, each
object was destroyed exactly once. -/
theorem C89_lifetimes_partial (leaves : α → α) {ops : List (OptionalOp α)} (h : ∀ op ∈ ops, op.Fine)
    (hu : .undefined ∉ (OptionalWorld.run leaves {} ops).2) :
    let w := (OptionalWorld.run leaves {} ops).1
    w.made = w.destroyed + held (Holders.run leaves [] ops).1 ∧ ((∀ v ∈ w.variables, v = none) → w.made = w.destroyed) := by
  obtain ⟨h1, h2⟩ := run_agrees leaves (w := {}) (vs := []) ⟨rfl, rfl⟩ h
  have hw := h2 (h1 ▸ hu)
  refine ⟨hw.balance, fun hv => ?_⟩
  have : held (Holders.run leaves [] ops).1 = 0 := by
    unfold held
    refine List.countP_eq_zero.2 fun v hm => ?_
    have := hv (v.map holding) (by rw [hw.variables]; exact List.mem_map_of_mem hm)
    cases v with
    | none => exact Bool.false_ne_true
    | some o => exact nomatch this
  rw [hw.balance, this, Nat.add_zero]

/-- **C89** is false of the assignment of a variable to itself: the object is destroyed and then copied. -/
theorem C89_self_assignment (leaves : α → α) (a : α) : (OptionalWorld.run leaves {} [.full a false, .assignCopy 0 0 false]).2 = [.done, .undefined] := rfl

/-- **C89** is false of a reset with the value that is replaced. -/
theorem C89_self_reset (leaves : α → α) (a : α) : (OptionalWorld.run leaves {} [.full a false, .reset 0 (.inside 0) false]).2 = [.done, .undefined] := rfl

/-- **C89** is false if a constructor throws in an assignment: the variable claims to hold a value, and when it is destroyed an object is destroyed that was never made. -/
theorem C89_throwing_assignment (leaves : α → α) (a : α) :
    (OptionalWorld.run leaves {} [.full a false, .empty, .assignCopy 1 0 true, .destroy 1]).2 = [.done, .done, .threw, .undefined] := rfl

/-! ### Examples -/

/-- Variables are made, copied, moved, reset and destroyed; one constructor throws. -/
def exampleOptionalOps : List (OptionalOp Nat) :=
  [.full 5 false, .copy 0 false, .full 6 true, .move 1 false, .empty, .assignMove 3 2 false, .reset 0 (.inside 3) false, .get 0, .getOr 2 9, .clear 1,
    .initialize 1 (.value 8) false, .destroy 0, .destroy 1, .destroy 2, .destroy 3]

theorem exampleOptionalOps_fine : ∀ op ∈ exampleOptionalOps, op.Fine := by
  intro op h
  simp only [exampleOptionalOps, List.mem_cons, List.not_mem_nil, or_false] at h
  rcases h with rfl | rfl | rfl | rfl | rfl | rfl | rfl | rfl | rfl | rfl | rfl | rfl | rfl | rfl | rfl <;> simp [OptionalOp.Fine]

example : .undefined ∉ (OptionalWorld.run (fun _ => 0) {} exampleOptionalOps).2 ∧ (OptionalWorld.run (fun _ => 0) {} exampleOptionalOps).1.made = 6 ∧
    (OptionalWorld.run (fun _ => 0) {} exampleOptionalOps).1.destroyed = 6 := by decide

end Alfalfa
