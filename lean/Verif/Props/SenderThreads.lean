import Verif.Model.SenderThreads

/-! C92: the sender encodes one picture at a time, its threads do not get in each other's way, and it does not come to a stop. -/

namespace Alfalfa

/-! ### What a user expects -/

/-- What the thread of the event loop shares with the threads it starts: `encode_jobs`, `encode_outputs` and `encode_end_pipe.first`, all of them variables of `main`. -/
inductive SharedVariable
  | jobs
  | outputs
  | endSocket
deriving Repr, DecidableEq

/-- What the next step of the event loop touches.  At the end of `main`, its variables are destroyed. -/
def LoopAt.touches : LoopAt → List SharedVariable
  | .testing => [.jobs]
  | .adding _ => [.jobs]
  | .collecting => [.outputs]
  | .finishing => [.jobs]
  | .exited => [.jobs, .outputs, .endSocket]
  | .polling => []
  | .fetching => []
  | .spawning => []

/-- What the next step of a worker touches. -/
def WorkerAt.touches : WorkerAt → List SharedVariable
  | .clearing => [.jobs, .outputs]
  | .launching _ => [.jobs, .outputs]
  | .awaiting _ => [.outputs]
  | .reporting => [.endSocket]

/-- The next steps of two threads touch the same variable, without anything that orders them. -/
def EncodeLoop.Race (s : EncodeLoop) : Prop :=
  (∃ w ∈ s.workers, ∃ x, x ∈ s.loop.touches ∧ x ∈ w.touches) ∨ ∃ i j : Nat, i ≠ j ∧ ∃ (v w : WorkerAt) (x : SharedVariable), s.workers[i]? = some v ∧ s.workers[j]? = some w ∧ x ∈ v.touches ∧ x ∈ w.touches

/-! ### The token -/

/-- Where the one token is: in the socket that starts a picture, in the event loop, with the worker, in the socket that ends a picture.  The number bounds the steps until the end of
the round. -/
inductive Phase : EncodeLoop → Nat → Prop
  | start (outputs rounds) (h : JobStatus.running ∉ outputs) : Phase ⟨.polling, [], 1, 0, 0, outputs, rounds⟩ 20
  | fetching (outputs rounds) (h : JobStatus.running ∉ outputs) : Phase ⟨.fetching, [], 0, 0, 0, outputs, rounds⟩ 19
  | testing (outputs rounds) (h : JobStatus.running ∉ outputs) : Phase ⟨.testing, [], 0, 0, 0, outputs, rounds⟩ 18
  | adding (more jobs outputs rounds) (h : JobStatus.running ∉ outputs) (hj : more + jobs ≤ 2) : Phase ⟨.adding more, [], 0, 0, jobs, outputs, rounds⟩ (15 + more)
  | spawning (jobs outputs rounds) (h : JobStatus.running ∉ outputs) (hj : jobs ≤ 2) : Phase ⟨.spawning, [], 0, 0, jobs, outputs, rounds⟩ 14
  | clearing (jobs outputs rounds) (h : JobStatus.running ∉ outputs) (hj : jobs ≤ 2) : Phase ⟨.polling, [.clearing], 0, 0, jobs, outputs, rounds⟩ 13
  | launching (i jobs outputs rounds) (hi : i ≤ jobs) (hj : jobs ≤ 2) (ho : outputs.length = i) :
      Phase ⟨.polling, [.launching i], 0, 0, jobs, outputs, rounds⟩ (3 * (jobs - i) + 6 + i + outputs.count .running)
  | awaiting (i jobs outputs rounds) (hi : i ≤ outputs.length) (ho : outputs.length ≤ 2) (hr : ∀ k, k < i → outputs[k]? ≠ some .running) :
      Phase ⟨.polling, [.awaiting i], 0, 0, jobs, outputs, rounds⟩ (outputs.length - i + outputs.count .running + 5)
  | reporting (jobs outputs rounds) (h : JobStatus.running ∉ outputs) : Phase ⟨.polling, [.reporting], 0, 0, jobs, outputs, rounds⟩ 4
  | ended (jobs outputs rounds) (h : JobStatus.running ∉ outputs) : Phase ⟨.polling, [], 0, 1, jobs, outputs, rounds⟩ 3
  | collecting (jobs outputs rounds) (h : JobStatus.running ∉ outputs) : Phase ⟨.collecting, [], 0, 0, jobs, outputs, rounds⟩ 2
  | finishing (jobs outputs rounds) (h : JobStatus.running ∉ outputs) : Phase ⟨.finishing, [], 0, 0, jobs, outputs, rounds⟩ 1
  | exited (outputs rounds) (h : JobStatus.running ∉ outputs) : Phase ⟨.exited, [], 0, 0, 0, outputs, rounds⟩ 0

theorem not_running_at {outputs : List JobStatus} (h : JobStatus.running ∉ outputs) (i : Nat) : outputs[i]? ≠ some .running :=
  fun hh => h (List.mem_of_getElem? hh)

theorem count_ready {outputs : List JobStatus} {i : Nat} {x : JobStatus} (h : outputs[i]? = some x) :
    (outputs.set i .ready).count .running + (if x = .running then 1 else 0) = outputs.count .running := by
  induction outputs generalizing i with
  | nil => simp at h
  | cons y ys ih =>
    cases i with
    | zero =>
      simp only [List.getElem?_cons_zero, Option.some.injEq] at h
      subst h
      cases y <;> simp
    | succ i =>
      simp only [List.getElem?_cons_succ] at h
      have := ih h
      simp only [List.set_cons_succ, List.count_cons]
      omega

/-- Every step but an error of the connection leaves one token, and uses up one of the steps of the round. -/
theorem Phase.next {threads : Bool} {s s' : EncodeLoop} {n : Nat} (h : Phase s n) (e : LoopEvent) (he : e ≠ .error) (hs : s.step threads e = some s') :
    ∃ n', Phase s' n' ∧ 20 * s.rounds + (20 - n) + 1 ≤ 20 * s'.rounds + (20 - n') := by
  cases h with
  | start outputs rounds h =>
    cases e <;> simp [EncodeLoop.step, EncodeLoop.workerStep, not_running_at h] at hs he
    subst hs; exact ⟨_, .fetching outputs rounds h, by simp⟩
  | fetching outputs rounds h =>
    cases e <;> simp [EncodeLoop.step, EncodeLoop.workerStep, not_running_at h] at hs he
    · subst hs; exact ⟨_, .testing outputs rounds h, by simp⟩
    · subst hs; exact ⟨_, .exited outputs rounds h, by simp⟩
  | testing outputs rounds h =>
    cases e <;> simp [EncodeLoop.step, EncodeLoop.workerStep, not_running_at h] at hs he
    rename_i two
    subst hs
    cases two
    · exact ⟨_, .adding 1 0 outputs rounds h (by omega), by simp⟩
    · exact ⟨_, .adding 2 0 outputs rounds h (by omega), by simp⟩
  | adding more jobs outputs rounds h hj =>
    cases e <;> simp [EncodeLoop.step, EncodeLoop.workerStep, not_running_at h] at hs he
    cases more with
    | zero => simp at hs; subst hs; exact ⟨_, .spawning jobs outputs rounds h (by omega), by simp⟩
    | succ more => simp at hs; subst hs; exact ⟨_, .adding more (jobs + 1) outputs rounds h (by omega), by simp; omega⟩
  | spawning jobs outputs rounds h hj =>
    cases e <;> simp [EncodeLoop.step, EncodeLoop.workerStep, not_running_at h] at hs he
    subst hs; exact ⟨_, .clearing jobs outputs rounds h hj, by simp⟩
  | clearing jobs outputs rounds h hj =>
    cases e <;> simp [EncodeLoop.step, EncodeLoop.workerStep, not_running_at h] at hs he
    rename_i w
    cases w with
    | zero => simp at hs; subst hs; exact ⟨_, .launching 0 jobs [] rounds (by omega) hj rfl, by simp; omega⟩
    | succ w => simp at hs
  | launching i jobs outputs rounds hi hj ho =>
    cases e <;> simp [EncodeLoop.step, EncodeLoop.workerStep] at hs he
    · rename_i w
      cases w with
      | zero =>
        simp at hs
        split at hs
        · rename_i hlt
          simp at hs; subst hs
          have h2 : outputs.count .running ≤ outputs.length := List.count_le_length
          cases threads
          · refine ⟨_, .launching (i + 1) jobs (outputs ++ [.deferred]) rounds (by omega) hj (by simp [ho]), ?_⟩
            simp only [List.count_append, List.count_singleton]
            simp
            omega
          · refine ⟨_, .launching (i + 1) jobs (outputs ++ [.running]) rounds (by omega) hj (by simp [ho]), ?_⟩
            simp only [List.count_append, List.count_singleton]
            simp
            omega
        · rename_i hlt
          simp at hs; subst hs
          have h2 : outputs.count .running ≤ outputs.length := List.count_le_length
          exact ⟨_, .awaiting 0 jobs outputs rounds (by omega) (by omega) (fun k hk => by omega), by simp; omega⟩
      | succ w => simp at hs
    · rename_i k
      obtain ⟨h1, h2⟩ := hs
      subst h2
      have h3 := count_ready h1
      have h2 : outputs.count .running ≤ outputs.length := List.count_le_length
      simp at h3
      exact ⟨_, .launching i jobs (outputs.set k .ready) rounds hi hj (by simp [ho]), by simp; omega⟩
  | awaiting i jobs outputs rounds hi ho hr =>
    have h2 : outputs.count .running ≤ outputs.length := List.count_le_length
    cases e <;> simp [EncodeLoop.step, EncodeLoop.workerStep] at hs he
    · rename_i w
      cases w with
      | zero =>
        simp only [List.getElem?_cons_zero] at hs
        split at hs
        · rename_i hn
          simp at hs; subst hs
          have hle : outputs.length ≤ i := List.getElem?_eq_none_iff.1 hn
          refine ⟨_, .reporting jobs outputs rounds ?_, by simp⟩
          intro hm
          obtain ⟨k, hk, hk2⟩ := List.mem_iff_getElem.1 hm
          exact hr k (by omega) (by rw [List.getElem?_eq_getElem hk, hk2])
        · cases hs
        · rename_i x hx hne
          simp at hs; subst hs
          have hlt : i < outputs.length := (List.getElem?_eq_some_iff.1 hne).1
          have h3 := count_ready hne
          have hx' : x ≠ .running := fun hh => hx hh
          rw [if_neg hx'] at h3
          refine ⟨_, .awaiting (i + 1) jobs (outputs.set i .ready) rounds (by simp; omega) (by simp; omega) ?_, by simp; omega⟩
          intro k hk
          by_cases hki : k = i
          · subst hki; simp [hlt]
          · rw [List.getElem?_set_ne (fun hh => hki hh.symm)]
            exact hr k (by omega)
      | succ w => simp at hs
    · rename_i k
      obtain ⟨h1, h4⟩ := hs
      subst h4
      have h3 := count_ready h1
      simp at h3
      refine ⟨_, .awaiting i jobs (outputs.set k .ready) rounds (by simpa using hi) (by simpa using ho) ?_, by simp; omega⟩
      intro m hm
      by_cases hmk : k = m
      · subst hmk
        have hlt : k < outputs.length := (List.getElem?_eq_some_iff.1 h1).1
        simp [hlt]
      · rw [List.getElem?_set_ne hmk]
        exact hr m hm
  | reporting jobs outputs rounds h =>
    cases e <;> simp [EncodeLoop.step, EncodeLoop.workerStep, not_running_at h] at hs he
    rename_i w
    cases w with
    | zero => simp at hs; subst hs; exact ⟨_, .ended jobs outputs rounds h, by simp⟩
    | succ w => simp at hs
  | ended jobs outputs rounds h =>
    cases e <;> simp [EncodeLoop.step, EncodeLoop.workerStep, not_running_at h] at hs he
    subst hs; exact ⟨_, .collecting jobs outputs rounds h, by simp⟩
  | collecting jobs outputs rounds h =>
    cases e <;> simp [EncodeLoop.step, EncodeLoop.workerStep, not_running_at h] at hs he
    obtain ⟨_, hs⟩ := hs
    subst hs; exact ⟨_, .finishing jobs outputs rounds h, by simp⟩
  | finishing jobs outputs rounds h =>
    cases e <;> simp [EncodeLoop.step, EncodeLoop.workerStep, not_running_at h] at hs he
    subst hs; exact ⟨_, .start outputs (rounds + 1) h, by simp; omega⟩
  | exited outputs rounds h =>
    cases e <;> simp [EncodeLoop.step, EncodeLoop.workerStep, not_running_at h] at hs he

theorem Phase.after {threads : Bool} : ∀ (es : List LoopEvent) {s s' : EncodeLoop} {n : Nat}, Phase s n → .error ∉ es → s.run threads es = some s' →
    ∃ n', Phase s' n' ∧ 20 * s.rounds + (20 - n) + es.length ≤ 20 * s'.rounds + (20 - n') := by
  intro es
  induction es with
  | nil =>
    intro s s' n h _ hs
    cases hs
    exact ⟨n, h, by simp⟩
  | cons e es ih =>
    intro s s' n h he hs
    simp only [List.mem_cons, not_or] at he
    simp only [EncodeLoop.run] at hs
    obtain ⟨s1, h1, h2⟩ := Option.bind_eq_some_iff.1 hs
    obtain ⟨n1, p1, q1⟩ := h.next e (fun hh => he.1 hh.symm) h1
    obtain ⟨n2, p2, q2⟩ := ih p1 he.2 h2
    exact ⟨n2, p2, by simp only [List.length_cons]; omega⟩

theorem Phase.of_run {threads : Bool} {es : List LoopEvent} {s : EncodeLoop} (he : .error ∉ es) (hs : EncodeLoop.begin.run threads es = some s) :
    ∃ n, Phase s n ∧ es.length ≤ 20 * s.rounds + (20 - n) := by
  obtain ⟨n, h1, h2⟩ := Phase.after es (Phase.start [] 0 (by simp)) he hs
  exact ⟨n, h1, by simpa using h2⟩

/-- **C92.**  In every order in which the steps of the threads can come, as long as the connection has no error: there is at most one worker, no two threads are about to touch the same
variable, a picture is only taken up when there are no jobs, and if the program ends because the camera does, no thread is left that could touch its variables. -/
theorem C92_no_race_partial (threads : Bool) (es : List LoopEvent) (he : .error ∉ es) (s : EncodeLoop) (hs : EncodeLoop.begin.run threads es = some s) :
    ¬ s.Race ∧ s.workers.length ≤ 1 ∧ (s.loop = .testing → s.jobs = 0) ∧ (s.loop = .exited → s.workers = [] ∧ JobStatus.running ∉ s.outputs) := by
  obtain ⟨n, h, _⟩ := Phase.of_run he hs
  have hrace : ∀ v : WorkerAt, ¬ (∃ i j : Nat, i ≠ j ∧ ∃ (v' w : WorkerAt) (x : SharedVariable), ([v] : List WorkerAt)[i]? = some v' ∧ ([v] : List WorkerAt)[j]? = some w ∧ x ∈ v'.touches ∧ x ∈ w.touches) := by
    rintro v ⟨i, j, hij, v', w, x, h1, h2, _⟩
    have a := (List.getElem?_eq_some_iff.1 h1).1
    have b := (List.getElem?_eq_some_iff.1 h2).1
    simp at a b
    omega
  have hnone : ¬ (∃ i j : Nat, i ≠ j ∧ ∃ (v' w : WorkerAt) (x : SharedVariable), ([] : List WorkerAt)[i]? = some v' ∧ ([] : List WorkerAt)[j]? = some w ∧ x ∈ v'.touches ∧ x ∈ w.touches) := by
    rintro ⟨i, j, hij, v', w, x, h1, _⟩
    simp at h1
  cases h <;> refine ⟨?_, by simp, by simp, by simp_all⟩ <;> rintro (⟨w, hw, x, hx, hx2⟩ | hh) <;> first | exact hrace _ hh | exact hnone hh | simp [LoopAt.touches] at hx hw

/-- **C92.**  The sender does not come to a stop: as long as it has not ended, one of its threads can go on, without an error and without the end of the camera. -/
theorem C92_goes_on (threads : Bool) (es : List LoopEvent) (he : .error ∉ es) (s : EncodeLoop) (hs : EncodeLoop.begin.run threads es = some s) (hx : s.loop ≠ .exited) :
    ∃ e, e ≠ .error ∧ e ≠ .noPicture ∧ (s.step threads e).isSome := by
  obtain ⟨n, h, _⟩ := Phase.of_run he hs
  cases h with
  | start outputs rounds h => exact ⟨.start, nofun, nofun, by simp [EncodeLoop.step]⟩
  | fetching outputs rounds h => exact ⟨.picture, nofun, nofun, by simp [EncodeLoop.step]⟩
  | testing outputs rounds h => exact ⟨.test true, nofun, nofun, by simp [EncodeLoop.step]⟩
  | adding more jobs outputs rounds h hj => exact ⟨.add, nofun, nofun, by cases more <;> simp [EncodeLoop.step]⟩
  | spawning jobs outputs rounds h hj => exact ⟨.spawn, nofun, nofun, by simp [EncodeLoop.step]⟩
  | clearing jobs outputs rounds h hj => exact ⟨.worker 0, nofun, nofun, by simp [EncodeLoop.step, EncodeLoop.workerStep]⟩
  | launching i jobs outputs rounds hi hj ho =>
    refine ⟨.worker 0, nofun, nofun, ?_⟩
    simp only [EncodeLoop.step, EncodeLoop.workerStep, List.getElem?_cons_zero]
    split <;> rfl
  | awaiting i jobs outputs rounds hi ho hr =>
    by_cases hrun : outputs[i]? = some .running
    · exact ⟨.job i, nofun, nofun, by simp [EncodeLoop.step, hrun]⟩
    · refine ⟨.worker 0, nofun, nofun, ?_⟩
      simp only [EncodeLoop.step, EncodeLoop.workerStep, List.getElem?_cons_zero]
      split
      · rfl
      · rename_i hh; exact absurd hh hrun
      · rfl
  | reporting jobs outputs rounds h => exact ⟨.worker 0, nofun, nofun, by simp [EncodeLoop.step, EncodeLoop.workerStep]⟩
  | ended jobs outputs rounds h => exact ⟨.finish, nofun, nofun, by simp [EncodeLoop.step]⟩
  | collecting jobs outputs rounds h => exact ⟨.collect, nofun, nofun, by simp [EncodeLoop.step, h]⟩
  | finishing jobs outputs rounds h => exact ⟨.rearm, nofun, nofun, by simp [EncodeLoop.step]⟩
  | exited outputs rounds h => exact absurd rfl hx

/-- **C92.**  No thread turns in circles: after any number of steps, in any order, at least one in twenty rounds is over. -/
theorem C92_rounds (threads : Bool) (es : List LoopEvent) (he : .error ∉ es) (s : EncodeLoop) (hs : EncodeLoop.begin.run threads es = some s) :
    es.length ≤ 20 * (s.rounds + 1) := by
  obtain ⟨n, _, h⟩ := Phase.of_run he hs
  omega

/-- One round with two jobs, in which the second is ready before the first, and the beginning of the next. -/
def oneRound : List LoopEvent := [.start, .picture, .test true, .add, .add, .add, .spawn, .worker 0, .worker 0, .worker 0, .job 1, .worker 0, .job 0, .worker 0, .worker 0, .worker 0,
  .worker 0, .finish, .collect, .rearm]

example : EncodeLoop.begin.run true oneRound = some { starts := 1, outputs := [.ready, .ready], rounds := 1 } ∧ LoopEvent.error ∉ oneRound ∧ oneRound.length = 20 := by decide
example : EncodeLoop.begin.run false [.start, .picture, .test false, .add, .add, .spawn, .worker 0, .worker 0, .worker 0, .worker 0, .worker 0, .worker 0, .finish, .collect, .rearm] =
    some { starts := 1, outputs := [.ready], rounds := 1 } := by decide
example : (EncodeLoop.begin.run true [.start, .noPicture]).map (·.loop) = some .exited := by decide

/-- **The code violates the full statement.**  If the connection has an error while a picture is being encoded, for instance because nobody listens at the other end, the event loop ends and
the variables of `main` are destroyed while a detached thread is about to write to them. -/
theorem C92_error_ends_under_worker : ∃ es s, EncodeLoop.begin.run true es = some s ∧ s.loop = .exited ∧ s.Race := by
  refine ⟨[.start, .picture, .test true, .add, .add, .add, .spawn, .worker 0, .worker 0, .error],
    { loop := .exited, workers := [.launching 1], jobs := 2, outputs := [.running] }, by decide, rfl, Or.inl ⟨.launching 1, by decide, .outputs, by decide, by decide⟩⟩

end Alfalfa
