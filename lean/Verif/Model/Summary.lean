import Verif.Model.Demo
import Verif.Model.TaskGen

/-!
# Model of what the demo tells about batches: the summary, the batch pulse and the number of tasks being collected
(`simulations/emerge/simulation/simulation.go`, `simulations/emerge/simulation/batch_manager.go`, `simulations/display/display.go`)

The metrics and the statistics of the batch manager have locks of their own, so that processing a batch and resetting the simulation take two
steps each, which may interleave: all sequences of steps are considered.
-/

set_option autoImplicit false

namespace Verif
open GoMath

section
variable {α : Type} [Zero α] [One α] [Add α] [Sub α] [Mul α] [Div α] [Neg α] [LT α] [LE α]
  [DecidableLT α] [DecidableLE α] [BEq α] [OfScientific α] [GoMath α]

/-- The metrics and the statistics of the batch manager, simulations/emerge/simulation/batch_manager.go:34-39. The zero `time.Time` is
`none`. The counter `totalBatches` of the batch manager is never read and left out. -/
structure SimStats (α : Type) where
  metrics : Metrics α
  lastBatchTime : Option Int
  lastBatchSize : Int

/-- `NewBatchManager` and `NewMetricsCollector` in `initialize`, simulations/emerge/simulation/builder.go:92-93. -/
def SimStats.new (now : Int) : SimStats α :=
  { metrics := Metrics.new now, lastBatchTime := none, lastBatchSize := 0 }

/-- What happens to them. Nothing else in the program changes them; in particular nothing calls `UpdateCoherence`. -/
inductive StatMove where
  /-- an API batch of the given size is recorded in the metrics -/
  | record (size : Nat)
  /-- the batch manager notes an API batch -/
  | note (now : Int) (size : Nat)
  /-- `Simulation.Reset` resets the metrics -/
  | resetMetrics (now : Int)
  /-- `Simulation.Reset` resets the batch manager -/
  | resetManager

/-- One step. -/
def SimStats.step (s : SimStats α) : StatMove → SimStats α
  -- simulations/emerge/simulation/batch_manager.go:127-132
  | .record size => { s with metrics := s.metrics.recordBatch size (ofInt size * 0.03) 0.015 }
  -- simulations/emerge/simulation/batch_manager.go:135-139
  | .note now size => { s with lastBatchTime := some now, lastBatchSize := size }
  -- simulations/emerge/simulation/simulation.go:99
  | .resetMetrics now => { s with metrics := s.metrics.reset now }
  -- simulations/emerge/simulation/simulation.go:102 and simulations/emerge/simulation/batch_manager.go:179-181
  | .resetManager => { s with lastBatchTime := none, lastBatchSize := 0 }

/-- Any number of steps. -/
def SimStats.run (s : SimStats α) (moves : List StatMove) : SimStats α := moves.foldl SimStats.step s

/-- `batchJustSent` of `Snapshot`, simulations/emerge/simulation/simulation.go:344-345. -/
def SimStats.justSent (s : SimStats α) (now : Int) : Bool := sinceTime now s.lastBatchTime < 500 * millisecond

/-- `Statistics`, simulations/emerge/simulation/types.go:49-60. -/
structure FinalStats (α : Type) where
  totalAPICalls : Int
  totalBatches : Int
  averageBatchSize : α
  costWithoutSync : α
  costWithSync : α
  totalSavings : α
  savingsPercent : α
  finalCoherence : α
  peakCoherence : α
  timeToConverge : Int

/-- `(*Simulation).Statistics`, simulations/emerge/simulation/simulation.go:369-384, for agents with the given phases. `convertStats`,
simulations/emerge/ui/runner.go:290-303, copies all fields. -/
def statistics (m : Metrics α) (phases : List α) : FinalStats α :=
  let c := m.current
  { totalAPICalls := c.totalAPICalls
    totalBatches := c.totalBatches
    averageBatchSize := c.averageBatchSize
    costWithoutSync := c.costWithoutSync
    costWithSync := c.costWithSync
    totalSavings := c.totalSavings
    savingsPercent := c.savingsPercent
    finalCoherence := measureCoherence phases
    peakCoherence := c.peakCoherence
    timeToConverge := c.timeToConverge }
end

/-- The number shown as `Collecting: %d tasks`, simulations/display/display.go:1262-1264, with `CurrentBatchSize` from
simulations/emerge/simulation/simulation.go:341; `none` if `Waiting for tasks...` is shown. -/
def collectingShown (s : BatchSys) : Option Nat := if s.queue.length > 0 then some s.queue.length else none

end Verif
