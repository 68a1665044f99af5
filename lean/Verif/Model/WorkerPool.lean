import Verif.Model.Core
import Verif.Model.Config

/-!
# Model of the worker pool (`emerge/swarm/swarm.go`)

Goroutines and channels are modelled by the moves they can make; which goroutine moves next, and which ready case a `select` takes, is up
to the scheduler. The work queue is a buffered channel: a send is possible while the buffer has room and blocks otherwise, a receive takes
the oldest element. (For an empty buffer and a waiting receiver Go hands the element over directly, which is a send followed by a receive.
A channel without buffer, for a pool without workers, has no receiver, so no send is ever possible.) What a task does is not modelled, only
when it starts and ends; a task that panics, which ends the program, is not modelled.
-/

set_option autoImplicit false

namespace Verif

/-- A worker goroutine: waiting in the `select`, running a task, or returned. -/
inductive Worker (T : Type) where
  | idle
  | busy (t : T)
  | gone

/-- `WorkerPool`, emerge/swarm/swarm.go:633-637: the buffer of `workQueue` and its capacity, the workers, and whether `quit` is closed. -/
structure WorkerPool (T : Type) where
  cap : Nat
  queue : List T
  workers : List (Worker T)
  closed : Bool

/-- `NewWorkerPool`, emerge/swarm/swarm.go:640-653: `make` panics for a negative capacity. -/
def WorkerPool.new {T : Type} (workers : Int) : Outcome (WorkerPool T) :=
  if workers < 0 then .panic
  else .ok { cap := (workers * 2).toNat, queue := [], workers := List.replicate workers.toNat .idle, closed := false }

/-- What can happen next: somebody submits a task or stops the pool; a worker takes the oldest task, ends its task, or returns. -/
inductive PoolMove (T : Type) where
  | submit (t : T)
  | stop
  | take (w : Nat)
  | finish (w : Nat)
  | leave (w : Nat)

/-- What can be observed of a move. -/
inductive PoolNote (T : Type) where
  | submitted (t : T)
  | stopped
  | started (t : T)
  | finished (t : T)
  | left (w : Nat)

/-- One move; `none` if it is not possible now. -/
def WorkerPool.step {T : Type} (p : WorkerPool T) : PoolMove T → Option (Outcome (WorkerPool T × PoolNote T))
  -- `Submit`, emerge/swarm/swarm.go:668-670
  | .submit t => if p.queue.length < p.cap then some (.ok ({ p with queue := p.queue ++ [t] }, .submitted t)) else none
  -- `Stop`, emerge/swarm/swarm.go:673-675: closing a closed channel panics
  | .stop => if p.closed then some .panic else some (.ok ({ p with closed := true }, .stopped))
  -- `worker`, emerge/swarm/swarm.go:656-665: the receive from the queue
  | .take w =>
    match p.workers[w]?, p.queue with
    | some .idle, t :: rest => some (.ok ({ p with queue := rest, workers := p.workers.set w (.busy t) }, .started t))
    | _, _ => none
  -- `worker`, emerge/swarm/swarm.go:660: `work()` returns
  | .finish w =>
    match p.workers[w]? with
    | some (.busy t) => some (.ok ({ p with workers := p.workers.set w .idle }, .finished t))
    | _ => none
  -- `worker`, emerge/swarm/swarm.go:661-662: the receive from the closed channel `quit`
  | .leave w =>
    match p.workers[w]? with
    | some .idle => if p.closed then some (.ok ({ p with workers := p.workers.set w .gone }, .left w)) else none
    | _ => none

/-- `getOptimalWorkerCount` with `minInt`, emerge/swarm/swarm.go:678-699, for a machine with `cpus` processors. -/
def optimalWorkerCount (cpus swarmSize : Int) : Int :=
  if swarmSize < 100 then cpus
  else if swarmSize < 1000 then cpus * 2
  else minInt (cpus * 4) 32

end Verif
