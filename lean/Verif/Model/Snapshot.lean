import Verif.Model.Summary
import Verif.Model.Display

/-!
# Model of the way from the simulation to the screen: `Workload.Snapshot`, `Simulation.Snapshot`, `convertSnapshot`
(`simulations/emerge/simulation/agent.go`, `simulations/emerge/simulation/simulation.go`, `simulations/emerge/ui/runner.go`)

`Snapshot` reads the workloads, the metrics, the agents of the swarm and the batch manager one after the other while they go on working, so each of them is an
argument of its own. `time.Now` and `time.Since` are called with one and the same clock reading here.
-/

set_option autoImplicit false

namespace Verif
open GoMath

section
variable {α : Type} [Zero α] [One α] [Add α] [Sub α] [Mul α] [Div α] [Neg α] [LT α] [LE α]
  [DecidableLT α] [DecidableLE α] [BEq α] [OfScientific α] [GoMath α]

/-- What a snapshot reads of a `Workload`, simulations/emerge/simulation/agent.go:78-103: the tasks only by their number. -/
structure Work (α : Type) where
  id : String
  typeName : String
  icon : String
  agent : Agent α
  gen : GenState
  pending : Nat
  batchesSent : Int

/-- `AgentSnapshot`, simulations/emerge/simulation/types.go:37-46. -/
structure AgentSnap (α : Type) where
  id : String
  typeName : String
  icon : String
  phase : α
  pendingTasks : Nat
  batchesSent : Int
  inBurstMode : Bool
  activityLevel : Activity

/-- `Snapshot`, simulations/emerge/simulation/types.go:15-34. -/
structure Snap (α : Type) where
  timestamp : Int
  elapsedTime : Int
  agents : List (AgentSnap α)
  coherence : α
  targetCoherence : α
  pendingTasks : Nat
  currentBatchSize : Nat
  batchesProcessed : Int
  costWithoutSync : α
  costWithSync : α
  savings : α
  savingsPercent : α
  paused : Bool
  disrupted : Bool
  reset : Bool
  batchJustSent : Bool
  lastBatchTime : Option Int
  lastBatchSize : Int

/-- `AgentSnapshot` of the display, simulations/display/interfaces.go:71-80. -/
structure AgentView (α : Type) where
  id : String
  typeName : String
  icon : String
  phase : α
  pendingTasks : Nat
  batchesSent : Int
  inBurstMode : Bool
  activityLevel : Activity

/-- `SimulationSnapshot` of the display, simulations/display/interfaces.go:36-68. -/
structure View (α : Type) where
  timestamp : Int
  elapsedTime : Int
  agents : List (AgentView α)
  coherence : α
  targetCoherence : α
  pendingTasks : Nat
  currentBatchSize : Nat
  batchesProcessed : Int
  costWithoutSync : α
  costWithSync : α
  savings : α
  savingsPercent : α
  paused : Bool
  disrupted : Bool
  reset : Bool
  batchJustSent : Bool
  lastBatchTime : Option Int
  lastBatchSize : Int

/-- `(*Workload).Snapshot`, simulations/emerge/simulation/agent.go:603-654. -/
def Work.snapshot (w : Work α) (now : Int) : AgentSnap α :=
  let a := w.gen.activity now w.pending
  { id := w.id, typeName := w.typeName, icon := w.icon, phase := w.agent.state.phase, pendingTasks := w.pending
    batchesSent := w.batchesSent, inBurstMode := a.2, activityLevel := a.1 }

/-- The loop over the workloads, simulations/emerge/simulation/simulation.go:314-326: the snapshots and the number of pending tasks. -/
def snapLoop (p : PauseState α) (now : Int) : List (Work α) → List (AgentSnap α) → Nat → List (AgentSnap α) × Nat
  | [], acc, total => (acc, total)
  | w :: ws, acc, total =>
    let s := w.snapshot now
    let s := { s with phase := p.shownPhase s.id s.phase }
    snapLoop p now ws (acc ++ [s]) (total + s.pendingTasks)

/-- `(*Simulation).Snapshot`, simulations/emerge/simulation/simulation.go:309-366. `works` are the workloads when they are read, `metrics` the metrics, `swarm` the
agents when the coherence is measured, `queue` the number of batches in the queue, `stats` the batch manager when it is asked for its last batch. -/
def simSnapshot (p : PauseState α) (start : Int) (target : α) (disrupted reset : Bool) (works : List (Work α)) (metrics : Metrics α) (swarm : List (Agent α))
    (queue : Nat) (stats : SimStats α) (now : Int) : Snap α :=
  let l := snapLoop p now works [] 0
  let m := metrics.current
  { timestamp := now, elapsedTime := now - start, agents := l.1, coherence := p.shownCoherence swarm, targetCoherence := target
    pendingTasks := l.2, currentBatchSize := queue, batchesProcessed := m.totalBatches
    costWithoutSync := m.costWithoutSync, costWithSync := m.costWithSync, savings := m.totalSavings, savingsPercent := m.savingsPercent
    paused := p.paused, disrupted := disrupted, reset := reset
    batchJustSent := stats.justSent now, lastBatchTime := stats.lastBatchTime, lastBatchSize := stats.lastBatchSize }

/-- The loop of `convertSnapshot`, simulations/emerge/ui/runner.go:254-265. -/
def convertAgent (a : AgentSnap α) : AgentView α :=
  { id := a.id, typeName := a.typeName, icon := a.icon, phase := a.phase, pendingTasks := a.pendingTasks, batchesSent := a.batchesSent
    inBurstMode := a.inBurstMode, activityLevel := a.activityLevel }

/-- `convertSnapshot`, simulations/emerge/ui/runner.go:251-287. -/
def convertSnapshot (s : Snap α) : View α :=
  { timestamp := s.timestamp, elapsedTime := s.elapsedTime, agents := s.agents.map convertAgent, coherence := s.coherence
    targetCoherence := s.targetCoherence, pendingTasks := s.pendingTasks, currentBatchSize := s.currentBatchSize
    batchesProcessed := s.batchesProcessed, costWithoutSync := s.costWithoutSync, costWithSync := s.costWithSync, savings := s.savings
    savingsPercent := s.savingsPercent, paused := s.paused, disrupted := s.disrupted, reset := s.reset, batchJustSent := s.batchJustSent
    lastBatchTime := s.lastBatchTime, lastBatchSize := s.lastBatchSize }

/-- What the panels of `Verif.Model.Display` compute with. -/
def View.shown (v : View α) : Shown α :=
  { coherence := v.coherence, targetCoherence := v.targetCoherence, disrupted := v.disrupted
    agents := v.agents.map fun a => { phase := a.phase, activity := a.activityLevel } }

end
end Verif
