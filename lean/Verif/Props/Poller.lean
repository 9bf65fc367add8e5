import Verif.Model.Poller
import Mathlib.Tactic.Linarith

/-! The event loop (C54). -/

namespace Alfalfa

variable {σ : Type}

/-- What a callback that ran says about itself: it was called in some state, returned what is recorded, and if it returned that the loop should go on, it read
or wrote its descriptor, unless the poll ends in the error that says it did not. -/
structure RanProperly (D : Descriptors σ) (a : PollAction σ) (result : Option ActionResult) (outcome : Except PollError PollResult) : Prop where
  called : ∃ s, (a.callback s).2 = result ∧
    (result = some .continue_ ∨ result = some .cancel → outcome ≠ .error .busyWait →
      D.count s a.fd a.direction ≠ D.count (a.callback s).1 a.fd a.direction)

/-- The part of an action that does not change. -/
def PollAction.fixed (a : PollAction σ) : Nat × PollDirection × (σ → σ × Option ActionResult) × (σ → Bool) := (a.fd, a.direction, a.callback, a.interested)

/-- The actions after the loop: each as it was, or cancelled. -/
def AfterLoop (i : Nat) (before : List (PollAction σ)) (ran : List (Nat × Option ActionResult)) (after : List (PollAction σ)) : Prop :=
  after.length = before.length ∧ ∀ k a, before[k]? = some a → ∃ a', after[k]? = some a' ∧ a'.fixed = a.fixed ∧
    (a'.active = true → a.active = true ∧ (i + k, some .cancel) ∉ ran) ∧ ((i + k, some .cancel) ∉ ran → a' = a)

theorem AfterLoop.same (i : Nat) (before : List (PollAction σ)) (ran : List (Nat × Option ActionResult)) (h : ∀ x ∈ ran, x.2 ≠ some .cancel) :
    AfterLoop i before ran before :=
  ⟨rfl, fun _ a ha => ⟨a, ha, rfl, fun hx => ⟨hx, fun hr => h _ hr rfl⟩, fun _ => rfl⟩⟩

theorem AfterLoop.cons {i : Nat} {a a' : PollAction σ} {before after : List (PollAction σ)} {ran : List (Nat × Option ActionResult)}
    {own : List (Nat × Option ActionResult)} (h : AfterLoop (i + 1) before ran after) (hr : ∀ x ∈ ran, i + 1 ≤ x.1) (ho : ∀ x ∈ own, x.1 = i) (hf : a'.fixed = a.fixed)
    (h1 : a'.active = true → a.active = true ∧ (i, some .cancel) ∉ own) (h2 : (i, some .cancel) ∉ own → a' = a) :
    AfterLoop i (a :: before) (own ++ ran) (a' :: after) := by
  have low : ∀ r, (i, r) ∉ ran := fun r hx => by have := hr _ hx; simp at this
  refine ⟨by simp [h.1], fun k x hx => ?_⟩
  cases k with
  | zero =>
    simp only [List.getElem?_cons_zero, Option.some.injEq] at hx
    subst hx
    refine ⟨a', rfl, hf, fun hy => ⟨(h1 hy).1, ?_⟩, fun hn => h2 fun hm => hn (by simp [hm])⟩
    simp only [Nat.add_zero, List.mem_append, not_or]
    exact ⟨(h1 hy).2, low _⟩
  | succ k =>
    simp only [List.getElem?_cons_succ] at hx
    obtain ⟨y, e1, e2, e3, e4⟩ := h.2 k x hx
    have e : i + 1 + k = i + (k + 1) := by omega
    rw [e] at e3 e4
    have high : (i + (k + 1), some ActionResult.cancel) ∉ own := fun hm => by have := ho _ hm; simp at this
    refine ⟨y, by simpa using e1, e2, fun hy => ⟨(e3 hy).1, ?_⟩, fun hn => e4 fun hm => hn (by simp [hm])⟩
    simp only [List.mem_append, not_or]
    exact ⟨high, (e3 hy).2⟩

/-- What the loop does. -/
structure LoopDone (D : Descriptors σ) (i : Nat) (todo : List (PollAction σ × Bool × Revents)) (o : PollOutcome σ) : Prop where
  /-- Callbacks run only of actions that were asked for and are ready, and no descriptor before has failed. -/
  ready : ∀ x ∈ o.ran, ∃ (a : PollAction σ) (r : Revents), todo[x.1 - i]? = some (a, true, r) ∧ i ≤ x.1 ∧ r.has a.direction = true ∧ r.failed = false ∧ RanProperly D a x.2 o.result
  order : (o.ran.map (·.1)).Pairwise (· < ·)
  all : o.result = .ok .success → (∀ (k : Nat) (a : PollAction σ) (asked : Bool) (r : Revents), todo[k]? = some (a, asked, r) → r.failed = false ∧
    (asked = true → r.has a.direction = true → ∃ res, (i + k, res) ∈ o.ran ∧ (res = some .continue_ ∨ res = some .cancel)))
  ended : ∀ status, o.result = .ok (.exit status) → (∃ (k : Nat) (a : PollAction σ) (asked : Bool) (r : Revents), todo[k]? = some (a, asked, r) ∧ r.failed = true ∧ status = 1) ∨
    ∃ k : Nat, o.ran.getLast? = some (k, some (.exit status))
  noTimeout : o.result ≠ .ok .timeout
  threw : o.result = .error .callback → ∃ k : Nat, o.ran.getLast? = some (k, none)
  after : AfterLoop i (todo.map (·.1)) o.ran o.actions
  lower : ∀ x ∈ o.ran, i ≤ x.1

theorem serveActions_spec (D : Descriptors σ) (todo : List (PollAction σ × Bool × Revents)) : ∀ (i : Nat) (s : σ), LoopDone D i todo (serveActions D i todo s) := by
  induction todo with
  | nil =>
    intro i s
    exact ⟨by simp [serveActions], by simp [serveActions], by simp [serveActions], by simp [serveActions], by simp [serveActions], by simp [serveActions],
      ⟨rfl, by simp⟩, by simp [serveActions]⟩
  | cons t rest ih =>
    intro i s
    obtain ⟨a, asked, r⟩ := t
    unfold serveActions
    simp only
    split
    · rename_i hfail
      exact ⟨by simp, by simp, by simp, fun status h => .inl ⟨0, a, asked, r, rfl, hfail, by cases h; rfl⟩, by simp, by simp,
        AfterLoop.same _ _ _ (by simp), by simp⟩
    · rename_i hfail
      have hfail : r.failed = false := by simpa using hfail
      split
      · rename_i hrun
        obtain ⟨hasked, hready⟩ : asked = true ∧ r.has a.direction = true := by simpa using hrun
        subst hasked
        -- a callback that ends the loop
        have stop : ∀ (result : Option ActionResult) (s' : σ) (out : Except PollError PollResult) (a' : PollAction σ),
            (a.callback s).2 = result → (result = some .continue_ ∨ result = some .cancel → out = .error .busyWait) → a'.fixed = a.fixed →
            (a'.active = true → a.active = true ∧ result ≠ some .cancel) → (result ≠ some .cancel → a' = a) →
            out ≠ .ok .success → out ≠ .ok .timeout → (∀ st, out = .ok (.exit st) → result = some (.exit st)) → (out = .error .callback → result = none) →
            LoopDone D i ((a, true, r) :: rest) ⟨a' :: rest.map (·.1), s', [(i, result)], out⟩ := by
          intro result s' out a' e1 e2 e3 e4 e5 e6 e7 e8 e9
          refine ⟨?_, by simp, fun h => absurd h e6, fun st h => .inr ⟨i, by rw [e8 st h]; rfl⟩, e7, fun h => ⟨i, by rw [e9 h]; rfl⟩, ?_, by simp⟩
          · intro x hx
            obtain rfl := List.mem_singleton.1 hx
            refine ⟨a, r, by simp, Nat.le_refl _, hready, hfail, ⟨s, e1, fun h1 h2 => absurd (e2 h1) h2⟩⟩
          · have := AfterLoop.cons (i := i) (own := [(i, result)]) (a := a) (a' := a') (AfterLoop.same (i + 1) (rest.map (·.1)) [] (by simp)) (by simp) (by simp) e3
              (fun h => ⟨(e4 h).1, fun hm => (e4 h).2 (by simpa using (Prod.mk.inj (List.mem_singleton.1 hm)).2.symm)⟩)
              (fun h => e5 fun he => h (by simp [he]))
            simpa using this
        -- a callback after which the loop goes on
        have goOn : ∀ (result : Option ActionResult) (a' : PollAction σ), (a.callback s).2 = result → (result = some .continue_ ∨ result = some .cancel) →
            a'.fixed = a.fixed → (a'.active = true → a.active = true ∧ result ≠ some .cancel) → (result ≠ some .cancel → a' = a) →
            LoopDone D i ((a, true, r) :: rest) (if D.count s a'.fd a'.direction = D.count (a.callback s).1 a'.fd a'.direction then
              ⟨a' :: rest.map (·.1), (a.callback s).1, [(i, result)], .error .busyWait⟩
              else { serveActions D (i + 1) rest (a.callback s).1 with
                                                                      actions := a' :: (serveActions D (i + 1) rest (a.callback s).1).actions
                                                                      ran := (i, result) :: (serveActions D (i + 1) rest (a.callback s).1).ran }) := by
          intro result a' e1 e2 e3 e4 e5
          have hfd : a'.fd = a.fd := congrArg (·.1) e3
          have hdir : a'.direction = a.direction := congrArg (·.2.1) e3
          split
          · exact stop result _ _ a' e1 (fun _ => rfl) e3 e4 e5 (by simp) (by simp) (by simp) (by simp)
          · rename_i hcount
            rw [hfd, hdir] at hcount
            have hi := ih (i + 1) (a.callback s).1
            generalize serveActions D (i + 1) rest (a.callback s).1 = o at hi ⊢
            refine ⟨?_, ?_, ?_, ?_, hi.noTimeout, ?_, ?_, ?_⟩
            · intro x hx
              rcases List.mem_cons.1 hx with rfl | hx
              · exact ⟨a, r, by simp, Nat.le_refl _, hready, hfail, ⟨s, e1, fun _ _ => hcount⟩⟩
              · obtain ⟨b, q, h1, h2, h3, h4, h5⟩ := hi.ready x hx
                refine ⟨b, q, ?_, by omega, h3, h4, h5⟩
                rw [show x.1 - i = (x.1 - (i + 1)) + 1 by omega]
                simpa using h1
            · simp only [List.map_cons, List.pairwise_cons]
              refine ⟨fun k hk => ?_, hi.order⟩
              obtain ⟨x, hx, rfl⟩ := List.mem_map.1 hk
              have := hi.lower x hx
              omega
            · intro h k b asked q hk
              cases k with
              | zero =>
                simp only [List.getElem?_cons_zero, Option.some.injEq, Prod.mk.injEq] at hk
                obtain ⟨rfl, rfl, rfl⟩ := hk
                exact ⟨hfail, fun _ _ => ⟨result, by simp, e2⟩⟩
              | succ k =>
                obtain ⟨h1, h2⟩ := hi.all h k b asked q (by simpa using hk)
                refine ⟨h1, fun h3 h4 => ?_⟩
                obtain ⟨res, h5, h6⟩ := h2 h3 h4
                exact ⟨res, by rw [show i + (k + 1) = i + 1 + k by omega]; simp [h5], h6⟩
            · intro status h
              rcases hi.ended status h with ⟨k, b, q1, q2, h1, h2, h3⟩ | ⟨k, h1⟩
              · exact .inl ⟨k + 1, b, q1, q2, by simpa using h1, h2, h3⟩
              · refine .inr ⟨k, ?_⟩
                simp only [List.getLast?_cons, h1, Option.getD_some]
            · intro h
              obtain ⟨k, h1⟩ := hi.threw h
              exact ⟨k, by simp only [List.getLast?_cons, h1, Option.getD_some]⟩
            · have := AfterLoop.cons (own := [(i, result)]) (a := a) (a' := a') hi.after hi.lower (by simp) e3
                (fun h => ⟨(e4 h).1, fun hm => (e4 h).2 (by simpa using (Prod.mk.inj (List.mem_singleton.1 hm)).2.symm)⟩)
                (fun h => e5 fun he => h (by simp [he]))
              simpa using this
            · intro x hx
              rcases List.mem_cons.1 hx with rfl | hx
              · exact Nat.le_refl _
              · have := hi.lower x hx
                omega
        cases hres : (a.callback s).2 with
        | none => exact stop none _ _ a hres (by simp) rfl (fun h => ⟨h, by simp⟩) (fun _ => rfl) (by simp) (by simp) (by simp) (by simp)
        | some res =>
          cases res with
          | exit status =>
            exact stop _ _ _ a hres (by simp) rfl (fun h => ⟨h, by simp⟩) (fun _ => rfl) (by simp) (by simp) (by simp) (by simp)
          | cancel =>
            exact goOn _ { a with active := false } hres (.inr rfl) rfl (by simp) (by simp)
          | continue_ =>
            exact goOn _ a hres (.inl rfl) rfl (fun h => ⟨h, by simp⟩) (fun _ => rfl)
      · rename_i hrun
        have hi := ih (i + 1) s
        generalize serveActions D (i + 1) rest s = o at hi ⊢
        refine ⟨?_, hi.order, ?_, ?_, hi.noTimeout, hi.threw, ?_, ?_⟩
        · intro x hx
          obtain ⟨b, q, h1, h2, h3, h4, h5⟩ := hi.ready x hx
          refine ⟨b, q, ?_, by omega, h3, h4, h5⟩
          rw [show x.1 - i = (x.1 - (i + 1)) + 1 by omega]
          simpa using h1
        · intro h k b asked' q hk
          cases k with
          | zero =>
            simp only [List.getElem?_cons_zero, Option.some.injEq, Prod.mk.injEq] at hk
            obtain ⟨rfl, rfl, rfl⟩ := hk
            exact ⟨hfail, fun h1 h2 => absurd (by simp [h1, h2]) hrun⟩
          | succ k =>
            obtain ⟨h1, h2⟩ := hi.all h k b asked' q (by simpa using hk)
            refine ⟨h1, fun h3 h4 => ?_⟩
            obtain ⟨res, h5, h6⟩ := h2 h3 h4
            exact ⟨res, by rw [show i + (k + 1) = i + 1 + k by omega]; exact h5, h6⟩
        · intro status h
          rcases hi.ended status h with ⟨k, b, q1, q2, h1, h2, h3⟩ | ⟨k, h1⟩
          · exact .inl ⟨k + 1, b, q1, q2, by simpa using h1, h2, h3⟩
          · exact .inr ⟨k, h1⟩
        · have := AfterLoop.cons (own := []) (a := a) (a' := a) hi.after hi.lower (by simp) rfl (fun h => ⟨h, by simp⟩) (fun _ => rfl)
          simpa using this
        · intro x hx
          have := hi.lower x hx
          omega

theorem serveActions_noSystemCall (D : Descriptors σ) (todo : List (PollAction σ × Bool × Revents)) :
    ∀ (i : Nat) (s : σ), (serveActions D i todo s).result ≠ .error .systemCall := by
  induction todo with
  | nil => intro i s; simp [serveActions]
  | cons t rest ih =>
    intro i s
    obtain ⟨a, asked, r⟩ := t
    unfold serveActions
    simp only
    split
    · simp
    · split
      · split
        · simp
        · simp
        · split
          · simp
          · exact ih _ _
        · split
          · simp
          · exact ih _ _
      · exact ih _ _

/-- The answer for an action. -/
def PollAnswer.at (answer : PollAnswer) (i : Nat) : Revents :=
  match answer with
  | .ready revents => revents[i]?.getD {}
  | _ => {}

theorem todo_get (D : Descriptors σ) (p : List (PollAction σ)) (s : σ) (revents : List Revents) (i : Nat) (x : PollAction σ × Bool × Revents) :
    (p.zip ((p.map (·.asked D s)).zip (revents ++ List.replicate p.length ({} : Revents))))[i]? = some x ↔
      p[i]? = some x.1 ∧ x.2.1 = x.1.asked D s ∧ x.2.2 = (PollAnswer.ready revents).at i := by
  obtain ⟨a, b, r⟩ := x
  rw [List.getElem?_zip_eq_some, List.getElem?_zip_eq_some, List.getElem?_map]
  have tail : i < p.length → (revents ++ List.replicate p.length ({} : Revents))[i]? = some ((PollAnswer.ready revents).at i) := by
    intro hi
    unfold PollAnswer.at
    by_cases h : i < revents.length
    · rw [List.getElem?_append_left h]; simp only [List.getElem?_eq_getElem h]; rfl
    · rw [List.getElem?_append_right (by omega), List.getElem?_replicate, if_pos (by omega)]; simp only [List.getElem?_eq_none (Nat.le_of_not_lt h)]; rfl
  constructor
  · rintro ⟨h1, h2, h3⟩
    have hi := (List.getElem?_eq_some_iff.1 h1).1
    rw [tail hi] at h3
    rw [h1] at h2
    exact ⟨h1, (Option.some.inj h2).symm, (Option.some.inj h3).symm⟩
  · rintro ⟨h1, h2, h3⟩
    have hi := (List.getElem?_eq_some_iff.1 h1).1
    simp only at h1 h2 h3
    refine ⟨h1, by rw [h1, h2]; rfl, by rw [tail hi, h3]⟩

/-- Whether an action is to be watched: it is not cancelled, it is interested, and its input has not ended. -/
def Wanted (D : Descriptors σ) (s : σ) (a : PollAction σ) : Prop := a.active = true ∧ a.interested s = true ∧ ¬ (a.direction = .input ∧ D.eof s a.fd = true)

/-- Whether the system said that a descriptor can be read from, or written to, as the direction is. -/
def Revents.Ready (r : Revents) (d : PollDirection) : Prop := (d = .input ∧ r.readable = true) ∨ (d = .output ∧ r.writable = true)

theorem wanted_iff (D : Descriptors σ) (s : σ) (a : PollAction σ) : a.asked D s = true ↔ Wanted D s a := by
  unfold PollAction.asked Wanted
  cases a.active <;> cases a.interested s <;> cases a.direction <;> cases D.eof s a.fd <;> simp

theorem ready_iff (r : Revents) (d : PollDirection) : r.has d = true ↔ r.Ready d := by
  unfold Revents.has Revents.Ready
  cases d <;> simp

/-- **C54, who runs.** A poll runs only callbacks of actions that are not cancelled, that were interested when the poll began, whose input has not ended, and whose descriptor the system reported
ready for the direction of the action and not failed; in the order in which the actions were added, each at most once. -/
theorem C54_runs_only_ready (D : Descriptors σ) (p : List (PollAction σ)) (s : σ) (answer : PollAnswer) :
    (∀ i result, (i, result) ∈ (pollOnce D p s answer).ran → ∃ a, p[i]? = some a ∧ Wanted D s a ∧ (answer.at i).Ready a.direction ∧ (answer.at i).failed = false ∧
      RanProperly D a result (pollOnce D p s answer).result) ∧
    ((pollOnce D p s answer).ran.map (·.1)).Pairwise (· < ·) := by
  unfold pollOnce
  simp only
  split
  · exact ⟨fun _ _ h => absurd h (by simp), by simp⟩
  · cases answer with
    | failed => exact ⟨fun _ _ h => absurd h (by simp), by simp⟩
    | timeout => exact ⟨fun _ _ h => absurd h (by simp), by simp⟩
    | ready revents =>
      have hs := serveActions_spec D (p.zip ((p.map (·.asked D s)).zip (revents ++ List.replicate p.length ({} : Revents)))) 0 s
      refine ⟨fun i result h => ?_, hs.order⟩
      obtain ⟨a, r, h1, -, h2, h3, h4⟩ := hs.ready _ h
      obtain ⟨e1, e2, e3⟩ := (todo_get D p s revents _ _).1 h1
      simp only [Nat.sub_zero] at e1 e2 e3
      exact ⟨a, e1, (wanted_iff D s a).1 e2.symm, (ready_iff _ _).1 (by rw [← e3]; exact h2), by rw [← e3]; exact h3, h4⟩

/-- **C54, the outcome.** A poll that asks for nothing ends the loop at once.  A timeout or a failed system call change nothing.  A poll that returns success has
run every action that was asked for and ready, and no descriptor had failed.  Otherwise the last callback ended the loop, or threw, or did not
use its descriptor, or a descriptor had failed. -/
theorem C54_outcome (D : Descriptors σ) (p : List (PollAction σ)) (s : σ) (answer : PollAnswer) (o : PollOutcome σ) (ho : o = pollOnce D p s answer) :
    (∀ asked : Prop, (asked ↔ ∃ a ∈ p, Wanted D s a) →
      (¬ asked → o.result = .ok (.exit 0) ∧ o.ran = [] ∧ o.world = s ∧ o.actions = p) ∧
      (asked → answer = .timeout → o.result = .ok .timeout) ∧ (asked → answer = .failed → o.result = .error .systemCall)) ∧
    (o.result = .ok .timeout ∨ o.result = .error .systemCall → o.ran = [] ∧ o.world = s ∧ o.actions = p) ∧
    (o.result = .ok .success → ∀ i a, p[i]? = some a → (answer.at i).failed = false ∧
      (Wanted D s a → (answer.at i).Ready a.direction → ∃ result, (i, result) ∈ o.ran ∧ (result = some .continue_ ∨ result = some .cancel))) ∧
    (∀ status, o.result = .ok (.exit status) → o.ran = [] ∧ status = 0 ∧ (∀ a ∈ p, ¬ Wanted D s a) ∨
      (∃ i < p.length, (answer.at i).failed = true ∧ status = 1) ∨ ∃ i, o.ran.getLast? = some (i, some (.exit status))) ∧
    (o.result = .error .callback → ∃ i, o.ran.getLast? = some (i, none)) := by
  subst ho
  simp only [← wanted_iff, ← ready_iff, Bool.not_eq_true]
  have hany : (p.map (·.asked D s)).any id = false ↔ ¬ ∃ a ∈ p, a.asked D s = true := by simp
  unfold pollOnce
  simp only
  by_cases h : (p.map (·.asked D s)).any id = false
  · rw [if_pos h]
    refine ⟨fun asked e => ⟨fun _ => ⟨rfl, rfl, rfl, rfl⟩, fun e1 => absurd (e.1 e1) (hany.1 h), fun e1 => absurd (e.1 e1) (hany.1 h)⟩, fun _ => ⟨rfl, rfl, rfl⟩, by simp,
      fun status e => .inl ⟨rfl, by cases e; rfl, fun a ha => ?_⟩, by simp⟩
    cases hx : a.asked D s
    · rfl
    · exact absurd ⟨a, ha, hx⟩ (hany.1 h)
  · rw [if_neg h]
    have hasked := not_not.1 (mt hany.2 h)
    cases answer with
    | failed =>
      refine ⟨fun asked e => ⟨fun e1 => absurd (e.2 hasked) e1, fun _ h => (nomatch h), fun _ _ => rfl⟩, fun _ => ⟨rfl, rfl, rfl⟩, by simp, by simp, by simp⟩
    | timeout =>
      refine ⟨fun asked e => ⟨fun e1 => absurd (e.2 hasked) e1, fun _ _ => rfl, fun _ h => (nomatch h)⟩, fun _ => ⟨rfl, rfl, rfl⟩, by simp, by simp, by simp⟩
    | ready revents =>
      have hs := serveActions_spec D (p.zip ((p.map (·.asked D s)).zip (revents ++ List.replicate p.length ({} : Revents)))) 0 s
      refine ⟨fun asked e => ⟨fun e1 => absurd (e.2 hasked) e1, fun _ h => (nomatch h), fun _ h => (nomatch h)⟩, ?_, ?_, ?_, hs.threw⟩
      · rintro (h | h)
        · exact absurd h hs.noTimeout
        · exact absurd h (serveActions_noSystemCall D _ 0 s)
      · intro hres i a hi
        have := hs.all hres i a _ _ ((todo_get D p s revents i (a, a.asked D s, (PollAnswer.ready revents).at i)).2 ⟨hi, rfl, rfl⟩)
        rwa [Nat.zero_add] at this
      · intro status hres
        rcases hs.ended status hres with ⟨k, a, asked, r, h1, h2, h3⟩ | h1
        · obtain ⟨e1, -, e3⟩ := (todo_get D p s revents _ _).1 h1
          exact .inr (.inl ⟨k, (List.getElem?_eq_some_iff.1 e1).1, by rw [← e3]; exact h2, h3⟩)
        · exact .inr (.inr h1)

/-- **C54, what is left.** A poll changes nothing about the actions except that the ones whose callback said so are cancelled. -/
theorem C54_actions (D : Descriptors σ) (p : List (PollAction σ)) (s : σ) (answer : PollAnswer) :
    (pollOnce D p s answer).actions.length = p.length ∧ ∀ i a, p[i]? = some a → ∃ a', (pollOnce D p s answer).actions[i]? = some a' ∧
      a'.fd = a.fd ∧ a'.direction = a.direction ∧ a'.callback = a.callback ∧ a'.interested = a.interested ∧
      (a'.active = true ↔ a.active = true ∧ (i, some .cancel) ∉ (pollOnce D p s answer).ran) := by
  have main : AfterLoop 0 p (pollOnce D p s answer).ran (pollOnce D p s answer).actions := by
    unfold pollOnce
    simp only
    split
    · exact AfterLoop.same _ _ _ (by simp)
    · cases answer with
      | failed => exact AfterLoop.same _ _ _ (by simp)
      | timeout => exact AfterLoop.same _ _ _ (by simp)
      | ready revents =>
        have := (serveActions_spec D (p.zip ((p.map (·.asked D s)).zip (revents ++ List.replicate p.length ({} : Revents)))) 0 s).after
        rwa [List.map_fst_zip (by simp)] at this
  refine ⟨main.1, fun i a hi => ?_⟩
  obtain ⟨a', h1, h2, h3, h4⟩ := main.2 i a hi
  rw [Nat.zero_add] at h3 h4
  refine ⟨a', h1, congrArg (·.1) h2, congrArg (·.2.1) h2, congrArg (·.2.2.1) h2, congrArg (·.2.2.2) h2, h3, fun ⟨h5, h6⟩ => ?_⟩
  rw [h4 h6]
  exact h5

/-- An inactive action stays inactive and does not run. -/
theorem inactive_stays (D : Descriptors σ) (i : Nat) (ops : List (PollerOp σ)) : ∀ (p : List (PollAction σ)) (s : σ),
    (∃ a, p[i]? = some a ∧ a.active = false) → ∀ x ∈ (runPoller D p s ops).2.2, x.1 ≠ i := by
  induction ops with
  | nil => intro p s _ x hx; exact absurd hx (by simp [runPoller])
  | cons op ops ih =>
    intro p s ⟨a, h1, h2⟩
    cases op with
    | add b =>
      refine ih (p ++ [b]) s ⟨a, ?_, h2⟩
      rw [List.getElem?_append_left (List.getElem?_eq_some_iff.1 h1).1]
      exact h1
    | other f => exact ih p (f s) ⟨a, h1, h2⟩
    | poll answer =>
      intro x hx
      have hx : x ∈ (pollOnce D p s answer).ran ++ (runPoller D (pollOnce D p s answer).actions (pollOnce D p s answer).world ops).2.2 := hx
      rcases List.mem_append.1 hx with hx | hx
      · rintro rfl
        obtain ⟨b, e1, ⟨e2, -⟩, -⟩ := (C54_runs_only_ready D p s answer).1 x.1 x.2 hx
        rw [h1] at e1
        cases e1
        rw [h2] at e2
        exact nomatch e2
      · obtain ⟨a', e1, -, -, -, -, e2⟩ := (C54_actions D p s answer).2 i a h1
        refine ih _ _ ⟨a', e1, ?_⟩ x hx
        cases hb : a'.active
        · rfl
        · rw [(e2.1 hb).1] at h2
          exact nomatch h2

/-- **C54, cancellation.** In every history of polls, additions of actions and other things that the program does, from any poller, an action whose callback has cancelled it does not run
again. -/
theorem C54_cancelled_never_runs_again (D : Descriptors σ) (ops : List (PollerOp σ)) : ∀ (p : List (PollAction σ)) (s : σ) (i : Nat)
    (before after : List (Nat × Option ActionResult)), (runPoller D p s ops).2.2 = before ++ (i, some .cancel) :: after → ∀ x ∈ after, x.1 ≠ i := by
  induction ops with
  | nil => intro p s i before after h; exact absurd h (by simp [runPoller])
  | cons op ops ih =>
    intro p s i before after h
    cases op with
    | add b => exact ih _ _ i before after h
    | other f => exact ih _ _ i before after h
    | poll answer =>
      obtain ⟨r1, r2⟩ := C54_runs_only_ready D p s answer
      have hact := (C54_actions D p s answer).2
      have h : (pollOnce D p s answer).ran ++ (runPoller D (pollOnce D p s answer).actions (pollOnce D p s answer).world ops).2.2 =
        before ++ (i, some .cancel) :: after := h
      have stays := fun ha => inactive_stays D i ops (pollOnce D p s answer).actions (pollOnce D p s answer).world ha
      have hnext := ih (pollOnce D p s answer).actions (pollOnce D p s answer).world i
      generalize (runPoller D (pollOnce D p s answer).actions (pollOnce D p s answer).world ops).2.2 = later at h hnext stays
      rcases List.append_eq_append_iff.1 h with ⟨m, e1, e2⟩ | ⟨m, e1, e2⟩
      · exact hnext m after e2
      · cases m with
        | nil =>
          refine hnext [] after ?_
          simpa using e2.symm
        | cons y m =>
          simp only [List.cons_append, List.cons.injEq] at e2
          obtain ⟨rfl, rfl⟩ := e2
          have hmem : (i, some ActionResult.cancel) ∈ (pollOnce D p s answer).ran := by rw [e1]; simp
          intro x hx
          rcases List.mem_append.1 hx with hx | hx
          · rw [e1, List.map_append, List.map_cons] at r2
            have := (List.pairwise_cons.1 (List.pairwise_append.1 r2).2.1).1 x.1 (List.mem_map_of_mem hx)
            omega
          · obtain ⟨a, q1, -⟩ := r1 i _ hmem
            obtain ⟨a', q2, -, -, -, -, q3⟩ := hact i a q1
            refine stays ⟨a', q2, ?_⟩ x hx
            cases hb : a'.active
            · rfl
            · exact absurd hmem (q3.1 hb).2

/-! ### Where the loop does less than one might think -/

/-- The state of the examples: numbers of reads and of writes, and whether something is wanted. -/
structure ExampleWorld where
  reads : Nat
  writes : Nat
  wanted : Bool
deriving DecidableEq

def exampleDescriptors : Descriptors ExampleWorld where
  eof _ _ := false
  count s _ d := match d with | .input => s.reads | .output => s.writes

/-- A reader that takes the wish away, and a writer that is interested while there is the wish. -/
def exampleActions : List (PollAction ExampleWorld) :=
  [{ fd := 3, direction := .input, callback := fun s => (⟨s.reads + 1, s.writes, false⟩, some .cancel), interested := fun _ => true },
   { fd := 3, direction := .output, callback := fun s => (⟨s.reads, s.writes + 1, s.wanted⟩, some .continue_), interested := fun s => s.wanted }]

/-- **C54, deviation.** Interest is asked for once at the beginning: a callback can run in a state in which its action is not interested any more. -/
theorem C54_interest_may_be_gone : ∃ (s : ExampleWorld) (answer : PollAnswer),
    (pollOnce exampleDescriptors exampleActions s answer).ran = [(0, some .cancel), (1, some .continue_)] ∧
    exampleActions[1].interested (exampleActions[0].callback s).1 = false :=
  ⟨⟨0, 0, true⟩, .ready [{ readable := true }, { writable := true }], rfl, rfl⟩

/-- **C54, deviation.** A descriptor whose action is cancelled is still watched for failures: when its peer hangs up, the loop ends with a failure. -/
theorem C54_cancelled_descriptor_ends_loop : ∃ (s : ExampleWorld) (ops : List (PollerOp ExampleWorld)) (answer : PollAnswer),
    (0, some .cancel) ∈ (runPoller exampleDescriptors exampleActions s ops).2.2 ∧ (answer.at 1).failed = false ∧
    (pollOnce exampleDescriptors (runPoller exampleDescriptors exampleActions s ops).1 ⟨1, 1, true⟩ answer).result = .ok (.exit 1) :=
  ⟨⟨0, 0, true⟩, [.poll (.ready [{ readable := true }, { writable := true }])], .ready [{ failed := true }, { writable := true }],
    List.mem_cons_self .., rfl, rfl⟩

/-- A history in which one action cancels itself and the other goes on. -/
example : (runPoller exampleDescriptors exampleActions ⟨0, 0, true⟩ [.poll (.ready [{ readable := true }, { writable := true }]),
    .other fun s => { s with wanted := true }, .poll (.ready [{ readable := true }, { writable := true }])]).2.2 =
    [(0, some .cancel), (1, some .continue_), (1, some .continue_)] := rfl

end Alfalfa
