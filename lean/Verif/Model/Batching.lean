import Verif.Model.Core

/-!
# Model of the batching demo (`simulations/emerge/simulation`): tasks, batches and metrics

Times are nanoseconds (`Int`); the zero `time.Time` is `none`. Mutexes are not modelled where every method holds the same mutex from
beginning to end (metrics collector). `int` counters do not overflow in the model.
-/

set_option autoImplicit false

namespace Verif
open GoMath

/-! ### Splitting -/

/-- The loop of `splitIntoAPIBatches`, simulations/emerge/simulation/batch_manager.go:150-156, from index `i` on. -/
def splitFrom {T : Type} (tasks : List T) (i : Nat) : List (List T) :=
  if i < tasks.length then
    let last := if i + 100 > tasks.length then tasks.length else i + 100
    (tasks.drop i).take (last - i) :: splitFrom tasks (i + 100)
  else []
termination_by tasks.length - i
decreasing_by omega

/-- `splitIntoAPIBatches`, simulations/emerge/simulation/batch_manager.go:147-159, with `MaxBatchSize` = 100 (line 18). -/
def splitIntoAPIBatches {T : Type} (tasks : List T) : List (List T) := splitFrom tasks 0

section
variable {α : Type} [Zero α] [One α] [Add α] [Sub α] [Mul α] [Div α] [Neg α] [LT α] [LE α]
  [DecidableLT α] [DecidableLE α] [BEq α] [OfScientific α] [GoMath α]

/-! ### Metrics -/

/-- `MetricsCollector`, simulations/emerge/simulation/metrics.go:12-32. -/
structure Metrics (α : Type) where
  totalAPICalls : Int
  totalBatches : Int
  totalTasks : Int
  costWithoutSync : α
  costWithSync : α
  peakCoherence : α
  convergedAt : Option Int
  startTime : Int
  batchSizes : List Int
  largestBatch : Int

/-- `NewMetricsCollector`, simulations/emerge/simulation/metrics.go:48-53. -/
def Metrics.new (now : Int) : Metrics α :=
  { totalAPICalls := 0, totalBatches := 0, totalTasks := 0, costWithoutSync := 0, costWithSync := 0, peakCoherence := 0,
    convergedAt := none, startTime := now, batchSizes := [], largestBatch := 0 }

/-- `RecordBatch`, simulations/emerge/simulation/metrics.go:56-74; the savings argument is ignored. -/
def Metrics.recordBatch (m : Metrics α) (size : Int) (individualCost batchedCost : α) : Metrics α :=
  { m with
    totalAPICalls := m.totalAPICalls + size
    totalBatches := m.totalBatches + 1
    totalTasks := m.totalTasks + size
    costWithoutSync := m.costWithoutSync + individualCost
    costWithSync := m.costWithSync + batchedCost
    batchSizes := m.batchSizes ++ [size]
    largestBatch := if size > m.largestBatch then size else m.largestBatch }

/-- `UpdateCoherence`, simulations/emerge/simulation/metrics.go:77-89. -/
def Metrics.updateCoherence (m : Metrics α) (now : Int) (coherence : α) : Metrics α :=
  let m := if coherence > m.peakCoherence then { m with peakCoherence := coherence } else m
  if coherence ≥ 0.7 ∧ m.convergedAt = none then { m with convergedAt := some now } else m

/-- `Reset`, simulations/emerge/simulation/metrics.go:129-143. -/
def Metrics.reset (m : Metrics α) (now : Int) : Metrics α :=
  { m with totalAPICalls := 0, totalBatches := 0, totalTasks := 0, costWithoutSync := 0, costWithSync := 0, peakCoherence := 0,
           convergedAt := none, startTime := now, batchSizes := [], largestBatch := 0 }

/-- `MetricsSnapshot`, simulations/emerge/simulation/metrics.go:35-45. -/
structure MetricsSnapshot (α : Type) where
  totalAPICalls : Int
  totalBatches : Int
  averageBatchSize : α
  costWithoutSync : α
  costWithSync : α
  totalSavings : α
  savingsPercent : α
  peakCoherence : α
  timeToConverge : Int

/-- `Current` (and `Final`), simulations/emerge/simulation/metrics.go:92-126. -/
def Metrics.current (m : Metrics α) : MetricsSnapshot α :=
  { totalAPICalls := m.totalAPICalls
    totalBatches := m.totalBatches
    averageBatchSize := if m.totalBatches > 0 then ofInt m.totalTasks / ofInt m.totalBatches else 0
    costWithoutSync := m.costWithoutSync
    costWithSync := m.costWithSync
    totalSavings := m.costWithoutSync - m.costWithSync
    savingsPercent := if m.costWithoutSync > 0 then (m.costWithoutSync - m.costWithSync) / m.costWithoutSync * 100.0 else 0
    peakCoherence := m.peakCoherence
    timeToConverge := match m.convergedAt with
      | some t => t - m.startTime
      | none => 0 }

/-- One step of `BatchSizeDistribution`, simulations/emerge/simulation/metrics.go:158-170: the five counters in the order of the map literal. -/
def distributionStep (d : Int × Int × Int × Int × Int) (size : Int) : Int × Int × Int × Int × Int :=
  match d with
  | (a, b, c, e, f) =>
    if size ≤ 10 then (a + 1, b, c, e, f)
    else if size ≤ 25 then (a, b + 1, c, e, f)
    else if size ≤ 50 then (a, b, c + 1, e, f)
    else if size ≤ 75 then (a, b, c, e + 1, f)
    else (a, b, c, e, f + 1)

/-- `BatchSizeDistribution`, simulations/emerge/simulation/metrics.go:146-174. -/
def Metrics.distribution (m : Metrics α) : Int × Int × Int × Int × Int := m.batchSizes.foldl distributionStep (0, 0, 0, 0, 0)

/-- One API batch of `processCollectedBatch`, simulations/emerge/simulation/batch_manager.go:125-132. `CostPerCall * (1 - BatchDiscount)` is
a constant expression, evaluated exactly to 0.015. -/
def Metrics.processBatch {T : Type} (m : Metrics α) (batch : List T) : Metrics α :=
  m.recordBatch batch.length (ofInt batch.length * 0.03) 0.015

/-- `processCollectedBatch`, simulations/emerge/simulation/batch_manager.go:117-144, as far as the metrics are concerned. -/
def Metrics.processCollected {T : Type} (m : Metrics α) (tasks : List T) : Metrics α :=
  if tasks.length = 0 then m else (splitIntoAPIBatches tasks).foldl Metrics.processBatch m

end

/-! ### Tasks

Each workload has two goroutines, `generateTasks` and `monitorBatching`; the batch manager has one, `ProcessBatches`; and somebody may call
`Simulation.Reset`. They are modelled by the moves they can make, in any order. Of the locks, `Simulation.mu` matters (`Reset` holds it
throughout, the goroutines of the workloads take it for reading at every tick to look at `paused`), and `BatchManager.mu` (held by
`BatchManager.Reset`, taken by `processCollectedBatch` after every API batch). A tick that finds the simulation paused, or the phase not near
zero, does nothing and is left out, as are ticks after the context has ended. Creating a task is one move, although `taskCounter++` outside any lock
could interleave with a reset of the counter; collecting may end at any time, although the code ends it only on the timer or with at least 100 tasks. -/

/-- `Task`, simulations/emerge/simulation/types.go:63-68; `Type` and `Payload` are not modelled. -/
structure SimTask where
  id : String
  agentID : String
deriving DecidableEq

/-- The parts of `Workload` that hold tasks, simulations/emerge/simulation/agent.go:78-103, and where its goroutines are: a task created but
not yet appended, the number of tasks still to create in this tick, and whether the monitor is past its check of the pause state. -/
structure Workload where
  id : String
  pendingTasks : List SimTask
  taskCounter : Nat
  hand : Option SimTask
  toCreate : Nat
  checked : Bool

/-- `NewWorkloadWithEmerge`, simulations/emerge/simulation/agent.go:231-250. -/
def Workload.new (id : String) : Workload :=
  { id := id, pendingTasks := [], taskCounter := 0, hand := none, toCreate := 0, checked := false }

/-- `createTask`, simulations/emerge/simulation/agent.go:417-516: the counter is increased and used in the ID. -/
def Workload.createTask (w : Workload) : SimTask × Workload :=
  ({ id := w.id ++ "-task-" ++ toString (w.taskCounter + 1), agentID := w.id }, { w with taskCounter := w.taskCounter + 1 })

/-- `Reset`, simulations/emerge/simulation/agent.go:586-600. -/
def Workload.reset (w : Workload) : Workload := { w with pendingTasks := [], taskCounter := 0 }

/-- What the goroutine in `ProcessBatches` is doing, simulations/emerge/simulation/batch_manager.go:74-87: waiting for a batch, collecting,
about to process the next API batch, or about to update the statistics of the batch manager. -/
inductive Consumer where
  | waiting
  | collecting (tasks : List SimTask)
  | processing (batches : List (List SimTask))
  | updating (batches : List (List SimTask))

/-- Where a call of `Simulation.Reset` is, simulations/emerge/simulation/simulation.go:94-107: there is none; it is about to lock the batch
manager; it is about to check the length of the queue; it is about to receive from the queue; it is about to reset workload `k`. -/
inductive Resetter where
  | idle
  | locking
  | checking
  | receiving
  | workloads (k : Nat)
deriving DecidableEq

/-- The workloads, the queue of the batch manager, the consumer, the API batches it has processed, and the call of `Simulation.Reset`. -/
structure BatchSys where
  workloads : List Workload
  queue : List (List SimTask)
  consumer : Consumer
  recorded : List (List SimTask)
  resetter : Resetter

/-- The beginning: `initialize`, simulations/emerge/simulation/builder.go:73-94, for agents with the given IDs. -/
def BatchSys.init (ids : List String) : BatchSys :=
  { workloads := ids.map Workload.new, queue := [], consumer := .waiting, recorded := [], resetter := .idle }

/-- What can happen next. -/
inductive BatchMove where
  /-- a tick of `generateTasks` passes the check of the pause state and will create `k` tasks -/
  | tick (i k : Nat)
  /-- `createTask` -/
  | create (i : Nat)
  /-- the task is appended to the pending tasks -/
  | append (i : Nat)
  /-- a tick of `monitorBatching` passes the check of the pause state -/
  | poll (i : Nat)
  /-- the phase is near zero: `sendBatch` -/
  | send (i : Nat)
  /-- the phase is not near zero -/
  | skip (i : Nat)
  /-- the consumer receives a batch -/
  | receive
  /-- the consumer ends collecting, because of the timer or because it has enough -/
  | close
  /-- the consumer processes the next API batch, or returns to waiting if there is none -/
  | process
  /-- the consumer updates the statistics -/
  | update
  /-- somebody calls `Simulation.Reset` -/
  | reset
  /-- the call goes on -/
  | resetStep

/-- What became of tasks in a move: created, lost because the queue was full, or discarded by a reset. -/
structure BatchNote where
  created : List SimTask := []
  overflow : List SimTask := []
  discarded : List SimTask := []

/-- One move; `none` if it is not possible now. -/
def BatchSys.step (s : BatchSys) : BatchMove → Option (BatchSys × BatchNote)
  -- `generateTasks`, simulations/emerge/simulation/agent.go:302-318: the check needs `Simulation.mu`
  | .tick i k =>
    match s.workloads[i]? with
    | some w =>
      if s.resetter = .idle ∧ w.toCreate = 0 ∧ w.hand = none then
        some ({ s with workloads := s.workloads.set i { w with toCreate := k } }, {})
      else none
    | none => none
  -- simulations/emerge/simulation/agent.go:319-320, without a lock
  | .create i =>
    match s.workloads[i]? with
    | some w =>
      if 0 < w.toCreate ∧ w.hand = none then
        some ({ s with workloads := s.workloads.set i { w.createTask.2 with hand := some w.createTask.1, toCreate := w.toCreate - 1 } },
          { created := [w.createTask.1] })
      else none
    | none => none
  -- simulations/emerge/simulation/agent.go:321-324
  | .append i =>
    match s.workloads[i]? with
    | some w =>
      match w.hand with
      | some t => some ({ s with workloads := s.workloads.set i { w with pendingTasks := w.pendingTasks ++ [t], hand := none } }, {})
      | none => none
    | none => none
  -- `monitorBatching`, simulations/emerge/simulation/agent.go:527-537: the check needs `Simulation.mu`
  | .poll i =>
    match s.workloads[i]? with
    | some w =>
      if s.resetter = .idle ∧ w.checked = false then some ({ s with workloads := s.workloads.set i { w with checked := true } }, {})
      else none
    | none => none
  -- `sendBatch`, simulations/emerge/simulation/agent.go:561-583, and `SubmitBatch`, simulations/emerge/simulation/batch_manager.go:58-71,
  -- with the capacity 100 of line 52
  | .send i =>
    match s.workloads[i]? with
    | some w =>
      if w.checked = false then none
      else if w.pendingTasks.length = 0 then some ({ s with workloads := s.workloads.set i { w with checked := false } }, {})
      else if s.queue.length < 100 then
        some ({ s with workloads := s.workloads.set i { w with pendingTasks := [], checked := false }, queue := s.queue ++ [w.pendingTasks] }, {})
      else some ({ s with workloads := s.workloads.set i { w with pendingTasks := [], checked := false } }, { overflow := w.pendingTasks })
    | none => none
  -- `shouldBatch` is false, simulations/emerge/simulation/agent.go:539
  | .skip i =>
    match s.workloads[i]? with
    | some w => if w.checked = false then none else some ({ s with workloads := s.workloads.set i { w with checked := false } }, {})
    | none => none
  -- simulations/emerge/simulation/batch_manager.go:79-81 and 91-92, and 103-105
  | .receive =>
    match s.consumer, s.queue with
    | .waiting, b :: rest => some ({ s with consumer := .collecting b, queue := rest }, {})
    | .collecting tasks, b :: rest => some ({ s with consumer := .collecting (tasks ++ b), queue := rest }, {})
    | _, _ => none
  -- simulations/emerge/simulation/batch_manager.go:100-102 and 106-111, and 117-123
  | .close =>
    match s.consumer with
    | .collecting tasks => some ({ s with consumer := .processing (if tasks.length = 0 then [] else splitIntoAPIBatches tasks) }, {})
    | _ => none
  -- simulations/emerge/simulation/batch_manager.go:125-132
  | .process =>
    match s.consumer with
    | .processing [] => some ({ s with consumer := .waiting }, {})
    | .processing (b :: rest) => some ({ s with consumer := .updating rest, recorded := s.recorded ++ [b] }, {})
    | _ => none
  -- simulations/emerge/simulation/batch_manager.go:135-142, which needs `BatchManager.mu`
  | .update =>
    match s.consumer with
    | .updating rest =>
      if s.resetter = .checking ∨ s.resetter = .receiving then none else some ({ s with consumer := .processing rest }, {})
    | _ => none
  -- `Simulation.Reset`, simulations/emerge/simulation/simulation.go:94-99
  | .reset => if s.resetter = .idle then some ({ s with resetter := .locking }, {}) else none
  -- `Simulation.Reset` and `BatchManager.Reset`, simulations/emerge/simulation/simulation.go:101-107,
  -- simulations/emerge/simulation/batch_manager.go:175-191
  | .resetStep =>
    match s.resetter with
    | .idle => none
    | .locking => some ({ s with resetter := .checking }, {})
    | .checking => some ({ s with resetter := if s.queue.length > 0 then .receiving else .workloads 0 }, {})
    | .receiving =>
      match s.queue with
      | b :: rest => some ({ s with queue := rest, resetter := .checking }, { discarded := b })
      | [] => none
    | .workloads k =>
      match s.workloads[k]? with
      | some w => some ({ s with workloads := s.workloads.set k w.reset, resetter := .workloads (k + 1) }, { discarded := w.pendingTasks })
      | none => some ({ s with resetter := .idle }, {})

end Verif
