import Mathlib.Data.List.Basic

/-! The threads of the sender (src/salsify/salsify-sender.cc:340-714): the thread of the event loop, the thread that starts the jobs for a picture and waits for them, and the threads of
the jobs.  What the jobs compute is in Model/Sender; here it matters who may touch `encode_jobs`, `encode_outputs` and the sockets, and when.  A step is a stretch of one
thread without a step of another in between; each access to something that two threads share is a step of its own. -/

namespace Alfalfa

/-- A `future< EncodeOutput >` in `encode_outputs` (src/salsify/salsify-sender.cc:507-509): to be computed by who waits for it (`launch::deferred`), being computed by a
thread of its own (`launch::async`), or ready. -/
inductive JobStatus
  | deferred
  | running
  | ready
deriving Repr, DecidableEq

/-- The thread that is started for a picture (src/salsify/salsify-sender.cc:502-517): before `encode_outputs.clear()`, before the start of a job, before it waits for one, before it
writes to the socket. -/
inductive WorkerAt
  | clearing
  | launching (i : Nat)
  | awaiting (i : Nat)
  | reporting
deriving Repr, DecidableEq

/-- The thread of the event loop: in `poll`; in the first callback, before `get_next_frame`, before the test of `encode_jobs`, before it adds so many more jobs, before it starts the
thread; in the second callback, before it collects the outputs, before the action of `finally`; after the end of `main`. -/
inductive LoopAt
  | polling
  | fetching
  | testing
  | adding (more : Nat)
  | spawning
  | collecting
  | finishing
  | exited
deriving Repr, DecidableEq

/-- `starts` and `ends`: datagrams that wait in `encode_start_pipe` and `encode_end_pipe`; `jobs`: the size of `encode_jobs`; `rounds`: how often the second callback has run. -/
structure EncodeLoop where
  loop : LoopAt := .polling
  workers : List WorkerAt := []
  starts : Nat := 0
  ends : Nat := 0
  jobs : Nat := 0
  outputs : List JobStatus := []
  rounds : Nat := 0
deriving Repr, DecidableEq

/-- Who does something.  `picture` and `noPicture` are what the camera does, `error` is what `poll` finds (src/net/poller.cc:76-78); `test two` says whether the operation mode tries
two quantizers or uses one. -/
inductive LoopEvent
  | start
  | picture
  | noPicture
  | test (two : Bool)
  | add
  | spawn
  | finish
  | collect
  | rearm
  | error
  | worker (w : Nat)
  | job (i : Nat)
deriving Repr, DecidableEq

/-- A step of a worker. `threads`: the mode is `S2`. -/
def EncodeLoop.workerStep (threads : Bool) (s : EncodeLoop) (w : Nat) : Option EncodeLoop :=
  match s.workers[w]? with
  | none => none
  | some .clearing => some { s with outputs := [], workers := s.workers.set w (.launching 0) }
  | some (.launching i) =>
    if i < s.jobs then some { s with outputs := s.outputs ++ [if threads then .running else .deferred], workers := s.workers.set w (.launching (i + 1)) }
    else some { s with workers := s.workers.set w (.awaiting 0) }
  | some (.awaiting i) => match s.outputs[i]? with
    | none => some { s with workers := s.workers.set w .reporting }
    | some .running => none
    | some _ => some { s with outputs := s.outputs.set i .ready, workers := s.workers.set w (.awaiting (i + 1)) }
  | some .reporting => some { s with ends := s.ends + 1, workers := s.workers.eraseIdx w }

/-- A step (src/salsify/salsify-sender.cc:340-714); `none` if it cannot be taken. -/
def EncodeLoop.step (threads : Bool) (s : EncodeLoop) : LoopEvent → Option EncodeLoop
  | .start => if s.loop = .polling ∧ 0 < s.starts then some { s with loop := .fetching, starts := s.starts - 1 } else none
  | .picture => if s.loop = .fetching then some { s with loop := .testing } else none
  | .noPicture => if s.loop = .fetching then some { s with loop := .exited } else none
  | .test two => if s.loop = .testing then some { s with loop := if s.jobs > 0 then .polling else .adding (if two then 2 else 1) } else none
  | .add => match s.loop with
    | .adding (more + 1) => some { s with loop := .adding more, jobs := s.jobs + 1 }
    | .adding 0 => some { s with loop := .spawning }
    | _ => none
  | .spawn => if s.loop = .spawning then some { s with loop := .polling, workers := s.workers ++ [.clearing] } else none
  | .finish => if s.loop = .polling ∧ 0 < s.ends then some { s with loop := .collecting, ends := s.ends - 1 } else none
  | .collect => if s.loop = .collecting ∧ JobStatus.running ∉ s.outputs then some { s with loop := .finishing } else none
  | .rearm => if s.loop = .finishing then some { s with loop := .polling, jobs := 0, starts := s.starts + 1, rounds := s.rounds + 1 } else none
  | .error => if s.loop = .polling then some { s with loop := .exited } else none
  | .worker w => s.workerStep threads w
  | .job i => if s.outputs[i]? = some .running then some { s with outputs := s.outputs.set i .ready } else none

/-- A sequence of steps; `none` if one of them cannot be taken. -/
def EncodeLoop.run (threads : Bool) (s : EncodeLoop) : List LoopEvent → Option EncodeLoop
  | [] => some s
  | e :: es => (s.step threads e).bind fun s => s.run threads es

/-- After "kick off the first encode" (src/salsify/salsify-sender.cc:701-702). -/
def EncodeLoop.begin : EncodeLoop := { starts := 1 }

end Alfalfa
