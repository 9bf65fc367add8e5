/-! The event loop: `class Poller` (src/net/poller.{hh,cc}).

`σ` is the state of everything that callbacks can see and change.  The system call is an argument: what it answered.  Callbacks do not add
actions themselves (no program does that), and asking an action whether it is interested changes nothing. -/

namespace Alfalfa

/-- `PollDirection` (src/net/poller.hh:54). -/
inductive PollDirection | input | output
deriving Repr, DecidableEq

/-- `Action::Result` (src/net/poller.hh:43-49). -/
inductive ActionResult | continue_ | exit (status : Nat) | cancel
deriving Repr, DecidableEq

/-- What poll can throw: the system call failed, a callback threw, `runtime_error( "busy wait detected" )` (src/net/poller.cc:71,96). -/
inductive PollError | systemCall | callback | busyWait
deriving Repr, DecidableEq

/-- `struct Action` (src/net/poller.hh:41-66); the descriptor is its number. -/
structure PollAction (σ : Type) where
  fd : Nat
  direction : PollDirection
  /-- An exception is `none`. -/
  callback : σ → σ × Option ActionResult
  interested : σ → Bool
  active : Bool := true

/-- What the poller sees of the descriptors: `eof()`, and `read_count()` or `write_count()` (src/net/poller.cc:42-45,60). -/
structure Descriptors (σ : Type) where
  eof : σ → Nat → Bool
  count : σ → Nat → PollDirection → Nat

/-- `revents` for one descriptor: one of `POLLERR`, `POLLHUP`, `POLLNVAL`; `POLLIN`; `POLLOUT` (src/net/poller.cc:76,80). -/
structure Revents where
  failed : Bool := false
  readable : Bool := false
  writable : Bool := false
deriving Repr, DecidableEq

/-- `revents & events` if the direction was asked for (src/net/poller.cc:80). -/
def Revents.has (r : Revents) : PollDirection → Bool
  | .input => r.readable
  | .output => r.writable

/-- What the system call answers (src/net/poller.cc:71). -/
inductive PollAnswer | failed | timeout | ready (revents : List Revents)
deriving Repr, DecidableEq

/-- `Poller::Result` (src/net/poller.hh:73-79). -/
inductive PollResult | success | timeout | exit (status : Nat)
deriving Repr, DecidableEq

/-- Whether `events` is not zero (src/net/poller.cc:54-63). -/
def PollAction.asked {σ : Type} (D : Descriptors σ) (s : σ) (a : PollAction σ) : Bool :=
  (a.active && a.interested s) && !(a.direction == .input && D.eof s a.fd)

/-- What a poll leaves behind: the actions, the state, the callbacks that ran with what they returned, and what it returned or threw. -/
structure PollOutcome (σ : Type) where
  actions : List (PollAction σ)
  world : σ
  ran : List (Nat × Option ActionResult)
  result : Except PollError PollResult

/-- The loop over the descriptors (src/net/poller.cc:75-99); `i` is the number of the first of the actions, each with whether it was asked for
and what was answered. -/
def serveActions {σ : Type} (D : Descriptors σ) : Nat → List (PollAction σ × Bool × Revents) → σ → PollOutcome σ
  | _, [], s => ⟨[], s, [], .ok .success⟩
  | i, (a, asked, r) :: rest, s =>
    let others := rest.map (·.1)
    if r.failed then ⟨a :: others, s, [], .ok (.exit 1)⟩
    else if asked && r.has a.direction then
      let (s', result) := a.callback s
      let go (a : PollAction σ) : PollOutcome σ :=
        if D.count s a.fd a.direction = D.count s' a.fd a.direction then ⟨a :: others, s', [(i, result)], .error .busyWait⟩
        else
          let o := serveActions D (i + 1) rest s'
          { o with actions := a :: o.actions, ran := (i, result) :: o.ran }
      match result with
      | none => ⟨a :: others, s', [(i, result)], .error .callback⟩
      | some (.exit status) => ⟨a :: others, s', [(i, result)], .ok (.exit status)⟩
      | some .cancel => go { a with active := false }
      | some .continue_ => go a
    else
      let o := serveActions D (i + 1) rest s
      { o with actions := a :: o.actions }

/-- `Poller::poll` (src/net/poller.cc:47-102); the state of a `Poller` is its actions.  The answer to a descriptor that the list does not reach is that
nothing happened. -/
def pollOnce {σ : Type} (D : Descriptors σ) (p : List (PollAction σ)) (s : σ) (answer : PollAnswer) : PollOutcome σ :=
  let asked := p.map (·.asked D s)
  if asked.any id = false then ⟨p, s, [], .ok (.exit 0)⟩
  else match answer with
    | .failed => ⟨p, s, [], .error .systemCall⟩
    | .timeout => ⟨p, s, [], .ok .timeout⟩
    | .ready revents => serveActions D 0 (p.zip (asked.zip (revents ++ List.replicate p.length {}))) s

/-- What is done to a poller: `add_action` (src/net/poller.cc:36-40) or a poll; between polls the program may change its state. -/
inductive PollerOp (σ : Type)
  | add (a : PollAction σ)
  | poll (answer : PollAnswer)
  | other (s : σ → σ)

/-- A sequence of them, with all callbacks that ran. -/
def runPoller {σ : Type} (D : Descriptors σ) : List (PollAction σ) → σ → List (PollerOp σ) → List (PollAction σ) × σ × List (Nat × Option ActionResult)
  | p, s, [] => (p, s, [])
  | p, s, .add a :: ops => runPoller D (p ++ [a]) s ops
  | p, s, .other f :: ops => runPoller D p (f s) ops
  | p, s, .poll answer :: ops =>
    let o := pollOnce D p s answer
    let (p', s', ran) := runPoller D o.actions o.world ops
    (p', s', o.ran ++ ran)

end Alfalfa
